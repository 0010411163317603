import Verif.Lemmas.Words2
import Verif.Lemmas.Shipped

/-!
# The array engine with integers of a fixed width (C85)
-/

namespace Clubs.Numpy

open Spec

variable {sc : Int → Int} {S : List Int} {d : Dealer}

/-- **C85**: a constructor with a start stack that fits into 32 bits makes the same table, or raises the same exception. -/
theorem C85_new {a : DealerArgs} {shuf : Shuffle} (h : -2 ^ 31 ≤ a.startStack ∧ a.startStack < 2 ^ 31) :
    newM a shuf = (new a shuf).map fun d => ⟨d, false⟩ := by
  unfold newM
  cases hn : new a shuf with
  | error e => rfl
  | ok d =>
    obtain ⟨-, -, -, -, -, -, -, -, -, -, -, -, hs, -⟩ := C44_values a shuf d hn
    have hz : (∀ x ∈ d.streetCommits, x = 0) ∧ ∀ x ∈ d.potCommits, x = 0 := new_zero hn
    show Except.ok _ = Except.ok _
    rw [store_id ⟨fun x hx => by rw [hz.1 x hx]; exact ⟨by decide, by decide⟩,
      fun x hx => by rw [hz.2 x hx]; exact ⟨by decide, by decide⟩,
      fun x hx => by rw [hs] at hx; rw [List.eq_of_mem_replicate hx]; exact h⟩]

/-- **C85**: with few chips `reset` leaves the same table and returns the same observation or exception. -/
theorem C85_reset (hd : Seated (atSeat d)) {w rb rs : Bool} {shuf : Shuffle} (hn : NonNegative (startStacks d rs) d.cfg)
    (hz : SizesOk d.cfg) (hf : FewChips sc (startStacks d rs).sum d.cfg) :
    resetM sc ⟨d, w⟩ rb rs shuf = (⟨(reset d rb rs shuf).1, w || rs⟩, (reset d rb rs shuf).2) := by
  rcases resetM_eq sc d w rb rs shuf with ⟨a1, a2, a3⟩ | ⟨a1, ⟨a2, a3⟩ | ⟨a2, a3⟩⟩ <;>
  rcases reset_eq d rb rs shuf with ⟨b1, b2, b3⟩ | ⟨b1, ⟨b2, b3⟩ | ⟨b2, b3⟩⟩
  · rw [a3, b3]
  · rcases b1 with b1 | b1
    · rw [a1] at b1; simp at b1
    · omega
  · rcases b1 with b1 | b1
    · rw [a1] at b1; simp at b1
    · omega
  · rcases a1 with a1 | a1
    · rw [b1] at a1; simp at a1
    · omega
  · rw [a3, b3]
  · omega
  · rcases a1 with a1 | a1
    · rw [b1] at a1; simp at a1
    · omega
  · omega
  · obtain ⟨obs, ho⟩ := reset_succeeds hd (rb := rb) (shuf := shuf) b1 b2
    have hr := dealt_ranged hd (Prod.ext rfl ho : reset d rb rs shuf = ((reset d rb rs shuf).1, .ok obs)) hn hz hf.blind
    have hcfg := reset_cfg d rb rs shuf
    rw [b3] at hr hcfg
    rw [a3, b3, postedM_eq hn hf.words]
    simp only [] at hr hcfg ⊢
    rw [observationM_eq (.inr (betSizesM_eq (total := (startStacks d rs).sum) (by rw [hcfg]; exact hf) (by rw [hcfg]; exact hr)))]

/-- **C85**: with few chips every step of every hand leaves the same table and returns the same or raises the same exception. -/
theorem C85_step (h : ArrayInHand S d) (hn : NonNegative S d.cfg) (hz : SizesOk d.cfg) (hf : FewChips sc S.sum d.cfg) (w : Bool)
    (bet : PyNum) : stepM sc ⟨d, w⟩ bet = (⟨(step d bet).1, w⟩, (step d bet).2) := by
  cases ha : d.action with
  | none =>
    rcases small_of h hn hz with ⟨-, -, hl, -⟩ | ⟨e, p, rfl, hsm, hnn, hl, hp, hdone⟩
    · obtain ⟨a, h1, -⟩ := hl.action
      rw [show (atSeat d).action = none from ha] at h1; simp at h1
    · have hr := ranged_of hl hnn hn hz hsm hf.blind
      have hpay : payoutsM (e.settle p) = payouts (e.settle p) :=
        payoutsM_eq hf.words hr.contrib (by
          show 0 ≤ (0 : Int) ∧ (0 : Int) ≤ reach S.sum e.cfg
          have := hr.pot
          change 0 ≤ e.pot ∧ e.pot ≤ reach S.sum e.cfg at this
          omega)
      have hdn : (done (e.settle p)).all id = true := hdone
      unfold stepM step
      simp only [ha]
      rw [hpay, hdn, observationM_eq (.inl rfl)]
      split <;> rfl
  | some a =>
    unfold stepM
    simp only [ha]
    have hr : Ranged (reach S.sum d.cfg) d := by
      rcases small_of h hn hz with ⟨hsm, hnn, hl, -⟩ | ⟨e, p, rfl, -⟩
      · have := ranged_of hl hnn hn hz hsm hf.blind
        exact ⟨this.street, this.contrib, this.stack, this.call, this.raise, this.pot⟩
      · simp [Dealer.settle] at ha
    rw [betSizesM_eq hf hr]
    rcases step_some ha bet with ⟨e, h1, he⟩ | ⟨b, e, h1, h2, he⟩ | ⟨b, c, lo, hi, hb, hs, he⟩
    · rw [he, h1]
    · rw [he, h1]
      simp only []
      rw [show betSizes d = d.betSizes from rfl, h2]
    · obtain ⟨k1, k2, k3⟩ := afterBet_ranged h hn hz hf.blind ha hb hs
      have hfin := ArrayInHand.step bet h
      rw [he, hb]
      simp only []
      rw [show betSizes d = d.betSizes from rfl, hs]
      simp only []
      have hw := hf.words
      have hS := List.sum_nonneg hn.start
      have hr3 : S.sum ≤ 3 * reach S.sum d.cfg := by
        have := List.sum_nonneg hn.antes
        have := List.sum_nonneg hn.blinds
        unfold reach forcedTotal; omega
      have hfields : (afterBet d bet.isNeg c (cleanBet b c lo hi)).pot = (d.acted bet.isNeg c (cleanBet b c lo hi)).pot ∧
          (afterBet d bet.isNeg c (cleanBet b c lo hi)).potCommits = (d.acted bet.isNeg c (cleanBet b c lo hi)).potCommits ∧
          (afterBet d bet.isNeg c (cleanBet b c lo hi)).stacks = (d.acted bet.isNeg c (cleanBet b c lo hi)).stacks := by
        unfold afterBet
        split
        · unfold nextStreet
          simp only []
          rw [dealStreets_shared, dealStreets_fields, act_shared, act_eq]
          exact ⟨rfl, rfl, rfl⟩
        · rw [act_shared, act_eq]
          exact ⟨rfl, rfl, rfl⟩
      have hact : actM sc w d bet.isNeg c (cleanBet b c lo hi) = act d bet.isNeg c (cleanBet b c lo hi) := by
        refine actM_eq ?_ ⟨?_, ?_, ?_⟩ ?_
        · rcases k3 with k3 | k3
          · exact .inl k3
          · exact .inr (hf.single _ k3.1 (by omega))
        · intro x hx
          have := k2 x hx
          unfold InWord; omega
        · rw [← hfields.2.1]
          exact (k1.words hw).contrib
        · rw [← hfields.2.2]
          exact (k1.words hw).stack
        · rw [← hfields.1]
          have := k1.pot
          exact hf.single _ this.1 (by omega)
      rw [hact]
      rw [show (if allAgreed (act d bet.isNeg c (cleanBet b c lo hi)) = true then nextStreet (act d bet.isNeg c (cleanBet b c lo hi))
        else act d bet.isNeg c (cleanBet b c lo hi)) = afterBet d bet.isNeg c (cleanBet b c lo hi) from rfl]
      have hcfg : (afterBet d bet.isNeg c (cleanBet b c lo hi)).cfg = d.cfg := afterBet_cfg _ _ _ _
      rw [finishM_eq (total := S.sum) (by rw [hcfg]; exact hf) (by rw [hcfg]; exact k1)]
      intro p hp hdn
      have hset : (step d bet).1 = (afterBet d bet.isNeg c (cleanBet b c lo hi)).settle p := by
        rw [he]
        rcases finish_cases (afterBet d bet.isNeg c (cleanBet b c lo hi)) with ⟨x, hx, -⟩ | ⟨q, hq, -, hfq, -⟩ | ⟨q, -, hd2, -⟩
        · rw [hp] at hx; simp at hx
        · rw [hp, Except.ok.injEq] at hq
          rw [hfq, hq]
        · rw [hdn] at hd2; simp at hd2
      have hc2 := step_cfg d bet
      rw [← hset]
      exact ended_words hfin (by rw [hc2]; exact hn) (by rw [hc2]; exact hz) (by rw [hset]; rfl) (by rw [hc2]; exact hw)
        (array_total hfin (by rw [hc2]; exact hn) (by rw [hc2]; exact hz))

/-- A session with cut numbers is a session of the other model, and the chips stay few. -/
theorem machine_session_inv {total : Int} {m : Machine} (h : MachineSession sc total m) :
    ArraySession total m.table ∧ FewChips sc total m.table.cfg := by
  induction h with
  | @first m m' rb rs shuf obs hd hs hr hn hz hf =>
    have h1 := C85_reset (w := m.wide) (rb := rb) (shuf := shuf) hd hn hz hf
    change resetM sc m rb rs shuf = _ at h1
    rw [hr] at h1
    obtain ⟨rfl, h2⟩ := Prod.mk.inj h1
    have hcfg := reset_cfg m.table rb rs shuf
    exact ⟨.first hd hs (Prod.ext rfl h2.symm) (by rw [hcfg]; exact hn) (by rw [hcfg]; exact hz), by rw [hcfg]; exact hf⟩
  | @step total m bet h ih =>
    obtain ⟨h1, hf⟩ := ih
    obtain ⟨S, k1, k2, k3, k4⟩ := array_session_inv h1
    have hS : S.sum = total := by rw [← k4]; exact (array_total k1 k2 k3).symm
    have h2 := C85_step k1 k2 k3 (by rw [hS]; exact hf) m.wide bet
    change stepM sc m bet = _ at h2
    rw [h2]
    exact ⟨.step bet h1, by rw [step_cfg]; exact hf⟩
  | @next total m m' rb shuf obs h he hs hr ih =>
    obtain ⟨h1, hf⟩ := ih
    obtain ⟨S, k1, k2, k3, k4⟩ := array_session_inv h1
    obtain ⟨hseat, hpot⟩ := seated_of_ended k1 he
    have hst : (startStacks m.table false).sum = total := by
      show m.table.stacks.sum = total
      rw [← k4]; unfold allChips; rw [hpot]; ring
    have hn : NonNegative (startStacks m.table false) m.table.cfg := by
      refine ⟨?_, k2.blinds, k2.antes⟩
      intro s hs
      change s ∈ m.table.stacks at hs
      obtain ⟨i, hi, rfl⟩ := (mem_getD 0).1 hs
      exact C69_after_hand k1 k2 k3 he i (by
        rw [← show m.table.stacks.length = m.table.cfg.numPlayers from hseat.stacks]; exact hi)
    have h3 := C85_reset (w := m.wide) (rb := rb) (shuf := shuf) hseat hn k3 (by rw [hst]; exact hf)
    change resetM sc m rb false shuf = _ at h3
    rw [hr] at h3
    obtain ⟨rfl, h4⟩ := Prod.mk.inj h3
    have hcfg := reset_cfg m.table rb false shuf
    exact ⟨.next h1 he hs (Prod.ext rfl h4.symm), by rw [hcfg]; exact hf⟩

/-- **C85**: with few chips a whole session is one of the engine with unbounded integers: every later step gives the same table and
result. -/
theorem C85_session {total : Int} {m : Machine} (h : MachineSession sc total m) :
    ArraySession total m.table ∧ ∀ bet, stepM sc m bet = (⟨(step m.table bet).1, m.wide⟩, (step m.table bet).2) := by
  obtain ⟨h1, hf⟩ := machine_session_inv h
  refine ⟨h1, fun bet => ?_⟩
  obtain ⟨S, k1, k2, k3, k4⟩ := array_session_inv h1
  have hS : S.sum = total := by rw [← k4]; exact (array_total k1 k2 k3).symm
  exact C85_step k1 k2 k3 (by rw [hS]; exact hf) m.wide bet

/-- **C85**: so no chip is lost or made in a session with few chips. -/
theorem C85_chips {total : Int} {m : Machine} (h : MachineSession sc total m) : allChips m.table = total :=
  C69_session (C85_session h).1

/-- **C85**: with 64-bit single numbers (NumPy 1) the chips are few if they fit, with twice the forced bets, into 32 bits. -/
theorem C85_numpy1 {total : Int} {c : Config} (h : reach total c < 2 ^ 31) (hb : c.bigBlind ≤ reach total c) : FewChips id total c :=
  ⟨h, hb, fun _ _ _ => rfl, fun _ _ _ _ _ => rfl⟩

/-- **C85**: with 32-bit single numbers (NumPy 2) they are few if three times as much fits, and a fixed raise size on top. -/
theorem C85_numpy2 {total : Int} {c : Config} (h0 : 0 ≤ reach total c) (h : 3 * reach total c < 2 ^ 31) (hb : c.bigBlind ≤ reach total c)
    (hz : SizesOk c) (hr : ∀ n, RaiseSize.int n ∈ c.raiseSizes → n + reach total c < 2 ^ 31) : FewChips int32 total c :=
  ⟨by omega, hb, fun x h1 h2 => int32_id (by omega) (by omega), fun n hn x h1 h2 => by
    have := hr n hn
    have := hz.2 n hn
    exact int32_id (by omega) (by omega)⟩

/-- a raise size far below 2^31 -/
def smallRaise : RawRaise → Bool
  | .int n => decide (2 * n < 2 ^ 31)
  | _ => true

theorem raises_from {rs : List RawRaise} {l : List RaiseSize} (h : List.Forall₂ sameRaise rs l) {n : Int} (hn : RaiseSize.int n ∈ l) :
    RawRaise.int n ∈ rs := by
  induction h with
  | nil => simp at hn
  | @cons x y rs l h _ ih =>
    rcases List.mem_cons.1 hn with rfl | hn
    · cases x <;> simp [sameRaise] at h
      subst h; simp
    · exact List.mem_cons_of_mem _ (ih hn)

/-- **C85**: for every shipped configuration the chips are few, under both versions of NumPy. -/
theorem C85_shipped {a : DealerArgs} (h : a ∈ ALL_CONFIGS) {shuf : Shuffle} (hd : new a shuf = .ok d) (rs : Bool) :
    FewChips id (startStacks d rs).sum d.cfg ∧ FewChips int32 (startStacks d rs).sum d.cfg ∧
    newM a shuf = .ok ⟨d, false⟩ := by
  obtain ⟨v1, v2, ⟨rw, v3, v3'⟩, -, -, v6, -, v8, -, -, -, v11, v12, -⟩ := C44_values a shuf d hd
  have hg := shipped_good h hd rs
  have w1 := expands_eq v1
  have w2 := expands_eq v2
  have w3 := expands_eq v3
  have key : ∀ a ∈ ALL_CONFIGS, (0 ≤ a.startStack ∧ a.startStack < 2 ^ 31) ∧
      (∀ b ∈ expandL a.blinds a.numPlayers, b ≤ a.numPlayers.toNat * a.startStack) ∧
      (3 * (a.numPlayers.toNat * a.startStack +
        2 * ((expandL a.antes a.numPlayers).sum + (expandL a.blinds a.numPlayers).sum)) < 2 ^ 31) ∧
      (∀ x ∈ expandL a.raiseSizes a.numStreets, smallRaise x = true) := by decide +kernel
  obtain ⟨k1, k2, k3, k4⟩ := key a h
  have hS : startStacks d rs = List.replicate d.cfg.numPlayers a.startStack := by
    unfold startStacks
    rw [v11, v12]; simp
  have hsum : (startStacks d rs).sum = a.numPlayers.toNat * a.startStack := by
    rw [hS, List.sum_replicate, nsmul_eq_mul, show d.cfg.numPlayers = a.numPlayers.toNat by omega]
  have hA := List.sum_nonneg hg.nonneg.antes
  have hB := List.sum_nonneg hg.nonneg.blinds
  have hb := k2 _ (saysAt_mem v8)
  have hS0 := List.sum_nonneg hg.nonneg.start
  rw [← w1, ← w2] at k3
  have hr : reach (startStacks d rs).sum d.cfg = a.numPlayers.toNat * a.startStack + 2 * (d.cfg.antes.sum + d.cfg.blinds.sum) := by
    rw [← hsum]; rfl
  refine ⟨C85_numpy1 (by omega) (by omega), C85_numpy2 (by omega) (by omega) (by omega) hg.sizes ?_, ?_⟩
  · intro n hn
    have hn' := raises_from v3' hn
    rw [w3] at hn'
    have := k4 _ hn'
    unfold smallRaise at this
    simp only [decide_eq_true_eq] at this
    omega
  · rw [C85_new ⟨by omega, by omega⟩, hd]; rfl

/-- **C85**: so every session that starts with a new table of a shipped configuration is one with few chips, under both versions. -/
theorem C85_shipped_session {a : DealerArgs} (h : a ∈ ALL_CONFIGS) {s0 shuf : Shuffle} {m m' : Machine} (hm : newM a s0 = .ok m)
    {rb rs : Bool} (hs : IsShuffle shuf) {obs : Observation} (hsc : sc = id ∨ sc = int32) (hr : resetM sc m rb rs shuf = (m', .ok obs)) :
    MachineSession sc (a.numPlayers * a.startStack) m' := by
  obtain ⟨d, hd⟩ : ∃ d, new a s0 = .ok d := (C45_shipped a h).constructs s0
  have hsh := C85_shipped h hd rs
  rw [hsh.2.2, Except.ok.injEq] at hm
  subst hm
  have hg := shipped_good h hd rs
  obtain ⟨-, -, -, -, -, v6, -, -, -, -, -, v11, v12, -⟩ := C44_values a s0 d hd
  have hsum : (startStacks d rs).sum = a.numPlayers * a.startStack := by
    have : startStacks d rs = List.replicate d.cfg.numPlayers a.startStack := by
      unfold startStacks
      rw [v11, v12]; simp
    rw [this, List.sum_replicate, nsmul_eq_mul, ← v6]
  rw [← hsum]
  exact .first (show Seated (atSeat d) by rw [atSeat_of_seated (new_seated hd)]; exact new_seated hd) hs hr hg.nonneg hg.sizes (by
    rcases hsc with rfl | rfl
    · exact hsh.1
    · exact hsh.2.1)

/-- **C85**, what is missing: a start stack of 2^31 chips is cut, so the first `reset()` of such a table finds no player with chips. -/
theorem C85_false_start : ∃ m, newM (small 2 [1, 2] (2 ^ 31)) id = .ok m ∧ m.table.stacks = [-2 ^ 31, -2 ^ 31] ∧
    ∀ rb shuf, (resetM id m rb false shuf).2 = .error .tooFewActivePlayers := by
  have h0 : (newM (small 2 [1, 2] (2 ^ 31)) id).map (fun m => m.table.stacks) = .ok [-2 ^ 31, -2 ^ 31] := by decide +kernel
  cases hm : newM (small 2 [1, 2] (2 ^ 31)) id with
  | error e => rw [hm] at h0; simp [Except.map] at h0
  | ok m =>
    rw [hm] at h0
    simp only [Except.map, Except.ok.injEq] at h0
    refine ⟨m, rfl, h0, fun rb shuf => ?_⟩
    rcases resetM_eq id m.table m.wide rb false shuf with ⟨-, -, a3⟩ | ⟨a1 | a1, -⟩
    · rw [show resetM id m rb false shuf = _ from a3]
    · simp at a1
    · rw [h0] at a1
      simp [countTrue] at a1

/-- **C85**, what is missing: two players with 1.5 billion chips each go all in, which every number but the winnings survives: the
winner is left with a negative stack, and the next hand is refused for want of players. -/
theorem C85_false_winner : ∃ m, MachineReachable id m ∧ m.table.cfg.startStack = 1500000000 ∧ m.table.cfg.numPlayers = 2 ∧
    m.table.action = none ∧ m.table.pot = 0 ∧ m.table.stacks = [0, -1294967296] ∧
    ∀ rb shuf, (resetM id m rb false shuf).2 = .error .tooFewActivePlayers := by
  obtain ⟨m, h1, h2, h3, h4, h5, h6⟩ := machine_exists id (small 2 [1, 2] 1500000000) false [1500000000, 1500000000]
    (P := fun m => m.table.cfg.startStack = 1500000000 ∧ m.table.cfg.numPlayers = 2 ∧ m.table.action = none ∧ m.table.pot = 0 ∧
      m.table.stacks = [0, -1294967296]) (by decide +kernel)
  refine ⟨m, h1, h2, h3, h4, h5, h6, fun rb shuf => ?_⟩
  rcases resetM_eq id m.table m.wide rb false shuf with ⟨-, -, a3⟩ | ⟨a1 | a1, -⟩
  · rw [show resetM id m rb false shuf = _ from a3]
  · simp at a1
  · rw [h6] at a1
    simp [countTrue] at a1

/-- **C85**, what is missing: after `reset(reset_stacks=True)` the stacks have 64 bits but the bets still have 32. A bet of 2.2 billion
chips is stored as a negative number, the opponent may see it for nothing, and chips are lost at the end. -/
theorem C85_false_bet :
    (∃ m, MachineReachable id m ∧ m.table.cfg.startStack = 3000000000 ∧ m.table.cfg.numPlayers = 2 ∧ m.table.pot = 2200000003 ∧
      m.table.streetCommits = [-2094967295, 2] ∧ betSizesM id m.table = .ok (0, 0, 0)) ∧
    ∃ m, MachineReachable id m ∧ m.table.cfg.startStack = 3000000000 ∧ m.table.cfg.numPlayers = 2 ∧ m.table.action = none ∧
      m.table.pot = 0 ∧ m.table.stacks = [799999999, 905032705] :=
  ⟨machine_exists id (small 2 [1, 2] 3000000000) true [2200000000] (by decide +kernel),
    machine_exists id (small 2 [1, 2] 3000000000) true [2200000000, 0, 0, 0] (by decide +kernel)⟩

/-- **C85**, what is missing: the answer depends on the version of NumPy. After an all-in of 1.5 billion the smallest raise is the
opponent's whole stack if single numbers have 64 bits, and 2 chips if they have 32. -/
theorem C85_false_version :
    (∃ m, MachineReachable id m ∧ m.table.cfg.startStack = 1500000000 ∧ m.table.stacks = [0, 1499999998] ∧
      betSizesM id m.table = .ok (1499999998, 1499999998, 1499999998)) ∧
    ∃ m, MachineReachable int32 m ∧ m.table.cfg.startStack = 1500000000 ∧ m.table.stacks = [0, 1499999998] ∧
      betSizesM int32 m.table = .ok (1499999998, 2, 1499999998) :=
  ⟨machine_exists id (small 2 [1, 2] 1500000000) false [1500000000] (by decide +kernel),
    machine_exists int32 (small 2 [1, 2] 1500000000) false [1500000000] (by decide +kernel)⟩

/-! ## the hypotheses are met -/

example : (-2 ^ 31 ≤ (small 2 [1, 2] 20).startStack ∧ (small 2 [1, 2] 20).startStack < 2 ^ 31) ∧
    ∃ d, new (small 2 [1, 2] 20) id = .ok d := ⟨by decide, by
  have : (match new (small 2 [1, 2] 20) id with | .ok _ => true | .error _ => false) = true := by decide +kernel
  revert this
  cases new (small 2 [1, 2] 20) id with
  | ok d => exact fun _ => ⟨d, rfl⟩
  | error e => exact fun h => by simp at h⟩

/-- a session at a shipped table -/
example : ∃ m, MachineSession int32 20 m := by
  have hc : ∃ a ∈ ALL_CONFIGS, a.numPlayers * a.startStack = 20 := by decide +kernel
  obtain ⟨a, ha, hk⟩ := hc
  obtain ⟨d, hd⟩ : ∃ d, new a id = .ok d := (C45_shipped a ha).constructs id
  obtain ⟨-, -, -, -, -, -, v7, -⟩ := C44_values a id d hd
  have h1 := (shipped_numbers a ha).2.2.1
  have hg := shipped_good ha hd true
  have hsh := C85_shipped ha hd true
  obtain ⟨obs, ho⟩ := reset_succeeds (show Seated (atSeat d) by rw [atSeat_of_seated (new_seated hd)]; exact new_seated hd) (rb := true) (shuf := id) (.inl rfl) (by
    have := (new_seated hd).community; omega)
  have := C85_reset (w := false) (rb := true) (shuf := id) (show Seated (atSeat d) by rw [atSeat_of_seated (new_seated hd)]; exact new_seated hd) hg.nonneg hg.sizes hsh.2.1
  rw [ho] at this
  exact ⟨_, hk ▸ C85_shipped_session ha hsh.2.2 isShuffle_id (.inr rfl) this⟩

/-- a hand with a bet, and few chips under both versions -/
example : ∃ d, ArrayInHand [20, 20] d ∧ NonNegative [20, 20] d.cfg ∧ SizesOk d.cfg ∧ FewChips id [20, 20].sum d.cfg ∧
    FewChips int32 [20, 20].sum d.cfg ∧ d.pot = 12 := by
  obtain ⟨S, d, h, -, ⟨h1, h2⟩, rfl, h4, h5, h6, h7⟩ := Numpy.hand_exists (small 2 [1, 2] 20) [.bet 9]
    (P := fun S d => (NonNegative S d.cfg ∧ SizesOk d.cfg) ∧ S = [20, 20] ∧ reach 40 d.cfg = 46 ∧ d.cfg.bigBlind = 2 ∧
      (∀ x ∈ d.cfg.raiseSizes, x = .inf) ∧ d.pot = 12) (by decide +kernel)
  have hr : reach ([20, 20] : List Int).sum d.cfg = 46 := h4
  refine ⟨d, h, h1, h2, C85_numpy1 (by omega) (by omega), C85_numpy2 (by omega) (by omega) (by omega) h2 ?_, h7⟩
  intro n hn
  have := h6 _ hn
  simp at this

end Clubs.Numpy

import Verif.Model.Program
import Verif.Props.Deep

/-!
# C79: the example programs
-/

namespace Clubs

open Spec

variable {S : List Int} {d d' : Dealer}

/-- a way to choose bets that yields a bet whenever some raise is offered -/
def Chooses (choose : Observation → Chance → Except Err Int) : Prop :=
  ∀ obs r, obs.minRaise ≤ obs.maxRaise → ∃ b, choose obs r = .ok b

theorem readme_chooses : Chooses readmeBet := by
  intro obs r h
  unfold readmeBet randint
  split
  · exact ⟨_, rfl⟩
  split
  · exact ⟨_, rfl⟩
  · rw [if_neg (by omega)]; exact ⟨_, rfl⟩

theorem example_chooses : Chooses exampleBet := by
  intro obs r h
  unfold exampleBet
  split
  · exact ⟨_, rfl⟩
  split
  · exact ⟨_, rfl⟩
  · exact ⟨_, rfl⟩

/-- what a program should print: one number for each player, altogether zero, and nobody loses more than they had -/
def FairRewards (S rewards : List Int) : Prop :=
  rewards.length = S.length ∧ rewards.sum = 0 ∧ ∀ i < S.length, 0 ≤ S.getD i 0 + rewards.getD i 0

/-- the table is at a showdown with odd chips, and nobody who wins anything sits at a seat with a higher number than the button's -/
def OddTrouble (S : List Int) (c : Config) (button : Nat) : Prop :=
  ∃ d s, InHand S d ∧ d.cfg = c ∧ d.button = button ∧ AtShowdown d ∧ Ranks d s ∧ oddAt d s ≠ 0 ∧ ∀ w, button < w → ¬ Wins d s w

/-- **C79**: at a table with equal antes and equal stacks of more than ante and blind, whatever the program chooses, after finitely many turns it
prints fair rewards, or it ends with an `IndexError` from a showdown with odd chips. -/
theorem C79_loop_partial {choose : Observation → Chance → Except Err Int} (hch : Chooses choose) (chance : Nat → Chance)
    (hn : NonNegative S d.cfg) (hdeep : Deep S d.cfg) (heq : EqualAntes d.cfg) (hS : EqualStart S)
    (hbb : d.cfg.bigBlind = d.cfg.blinds.getD 1 0) (he : Enough d.cfg) (hf : HandsFit d.cfg) (hg : GoodEvaluator d.cfg)
    (h : InHand S d) (hre : Reachable d) (hrun : Running d) {obs : Observation} (hsh : Shows d obs) (turn : Nat) :
    ∃ fuel, (∃ rewards, playLoop choose chance fuel turn d obs = some (.ok rewards) ∧ FairRewards S rewards) ∨
      (playLoop choose chance fuel turn d obs = some (.error .indexError) ∧ OddTrouble S d.cfg d.button) := by
  have main : ∀ (p : Nat × Nat × Nat × Nat × Nat) (c : Config) (d : Dealer) (obs : Observation) (turn : Nat), progressOf d = p → d.cfg = c →
      NonNegative S c → Deep S c → EqualAntes c → c.bigBlind = c.blinds.getD 1 0 → Enough c → HandsFit c → GoodEvaluator c →
      InHand S d → Reachable d → Running d → Shows d obs →
      ∃ fuel, (∃ rewards, playLoop choose chance fuel turn d obs = some (.ok rewards) ∧ FairRewards S rewards) ∨
      (playLoop choose chance fuel turn d obs = some (.error .indexError) ∧ OddTrouble S d.cfg d.button) := by
    intro p
    induction p using less_wf.induction with
    | _ p ih =>
      rintro c d obs turn hp rfl hn hdeep heq hbb he hf hg h hre hrun hsh
      obtain ⟨⟨a, ha⟩, hst⟩ := hrun
      have ha' : d.action ≠ none := by rw [ha]; simp
      obtain ⟨b, hb⟩ := hch obs (chance turn) (C30_deep h hn hdeep hbb ha' hsh)
      have hin := InHand.step (.fin b) h
      have hre' := Reachable.step (.fin b) hre
      have hcfg := step_cfg d (.fin b)
      have hbut := step_button d (.fin b)
      have hlive := (live_of_action h ha).1
      have hlen := hlive.startLen
      have hprog := step_less h hn ha hst b
      cases hsc : step_cases h ha (.fin b) with
      | refused e hs why =>
        exfalso
        obtain ⟨c, lo, hi, hz⟩ := betSizes_ok hlive.seated hst
        rcases why with hr | hr
        · simp [pyRound] at hr
        · rw [hz] at hr; simp at hr
      | stuck b' c lo hi e x hb' hz hx hlx hpay hs =>
        rw [hs] at hin hre' hcfg hbut
        simp only at hin hre' hcfg hbut
        refine ⟨1, .inr ?_⟩
        obtain ⟨a2, ha2, -⟩ := hlx.action
        have hov : Over x := .inr ⟨payouts_error hpay, e, hpay⟩
        have hnx : NonNegative S x.cfg := by rw [hcfg]; exact hn
        obtain ⟨-, hnn, hshow, -⟩ := stuck_live hin hnx hov (by rw [ha2]; simp)
        obtain ⟨s, hr⟩ := C54_ranks hre' ((reachable_dealt hre').hole_ne hlx.seated (by rw [ha2]; simp)) (by have := hshow.1; omega)
          (by rw [hcfg]; exact he) (by rw [hcfg]; exact hf) (by rw [hcfg]; exact hg)
        have hc := equal_clear hin hnx (by rw [hcfg]; exact covers_of_deep hdeep) (by rw [hcfg]; exact heq) hS hshow s
        obtain ⟨h0, hw⟩ := stuck_why hin hnx hov (by rw [ha2]; simp) hr hc
        have hone : countTrue x.active ≠ 1 := by
          have := hshow.2
          unfold numIn at this
          unfold countTrue
          omega
        have hidx : e = .indexError := by
          cases showdown_paid hlx.seated hlx.holeLen hlx.pot hnn.contrib hr hc hone hshow.1 with
          | even p h1 => rw [h1] at hpay; cases hpay
          | odd p k h1 => rw [h1] at hpay; cases hpay
          | raises h1 => rw [h1] at hpay; cases hpay; rfl
        refine ⟨?_, x, s, hin, hcfg, hbut, hshow, hr, h0, by rw [← hbut]; exact hw⟩
        simp only [playLoop, hb, hs, hidx]
      | ended b' c lo hi p x obs' hb' hz hx hlx hpay hd ho hs =>
        refine ⟨1, .inl ⟨p, ?_, ?_⟩⟩
        · simp only [playLoop, hb, hs, hd, if_true]
        · have h2 : (d.step (.fin (b : Rat))).2 = .ok (obs', p, x.done) := by rw [hs]
          have hend : (d.step (.fin (b : Rat))).1.action = none := by rw [hs]; rfl
          obtain ⟨hl1, hl2⟩ := C20_stacks h ha' h2 hend
          refine ⟨by rw [hl1, hlen], C20_equal_start h hn hdeep heq hS ha' h2 hend, fun i hi => ?_⟩
          rw [hlen] at hi
          rw [← hl2 i hi]
          exact C21_after_hand hin (by rw [step_cfg]; exact hn) hend i (by rw [step_cfg]; exact hi)
      | goesOn b' c lo hi p x obs' hb' hz hx hlx hpay hd ho hs =>
        rw [hs] at hin hre' hcfg hbut hprog
        simp only at hin hre' hcfg hbut hprog
        have hstx : x.street < x.cfg.numStreets := by
          by_contra hcon
          have := (done_all_iff hlx.seated).2 (.inl (by omega))
          rw [hd] at this; simp at this
        obtain ⟨a2, ha2, -⟩ := hlx.action
        have hl : Less (progressOf x) (progressOf d) := by
          rcases hprog with (h1 | ⟨h1, -⟩) | h1
          · rw [ha2] at h1; simp at h1
          · omega
          · exact h1
        rw [hp] at hl
        obtain ⟨fuel, hfu⟩ := ih _ hl d.cfg x obs' (turn + 1) rfl hcfg hn hdeep heq hbb he hf hg hin hre' ⟨⟨a2, ha2⟩, hstx⟩
          (.inr ⟨d, .fin b, p, x.done, hs⟩)
        refine ⟨fuel + 1, ?_⟩
        have e : playLoop choose chance (fuel + 1) turn d obs = playLoop choose chance fuel (turn + 1) x obs' := by
          simp only [playLoop, hb, hs, hd]
          rfl
        rw [e, ← hbut, ← hcfg]
        exact hfu
  exact main _ d.cfg d obs turn rfl rfl hn hdeep heq hbb he hf hg h hre hrun hsh

/-- what a program prints does not depend on the bound on the number of turns -/
theorem playLoop_more {choose : Observation → Chance → Except Err Int} {chance : Nat → Chance} {r : Except Err (List Int)} :
    ∀ (fuel more turn : Nat) (d : Dealer) (obs : Observation), playLoop choose chance fuel turn d obs = some r →
      playLoop choose chance (fuel + more) turn d obs = some r
  | 0, _, _, _, _, h => by cases h
  | fuel + 1, more, turn, d, obs, h => by
    rw [show fuel + 1 + more = (fuel + more) + 1 from by omega]
    unfold playLoop at h ⊢
    cases hc : choose obs (chance turn) with
    | error e => rw [hc] at h; exact h
    | ok bet =>
      rw [hc] at h
      simp only [] at h ⊢
      rcases hst : d.step (.fin bet) with ⟨d', e | ⟨obs', rewards, done⟩⟩
      · rw [hst] at h; exact h
      · rw [hst] at h
        simp only [] at h ⊢
        split at h
        · next hd => rw [if_pos hd]; exact h
        · next hd => rw [if_neg hd]; exact playLoop_more fuel more _ _ _ h

/-- **C79**: a program has one outcome: runs with different bounds on the number of turns agree, if they end. -/
theorem C79_one_outcome {a : DealerArgs} {choose : Observation → Chance → Except Err Int} {rb : Bool} {shuf shuf' : Shuffle}
    {chance : Nat → Chance} {m n : Nat} {r r' : Except Err (List Int)} (h : program a choose rb shuf shuf' chance m = some r)
    (h' : program a choose rb shuf shuf' chance n = some r') : r = r' := by
  unfold program at h h'
  cases hd : Dealer.new a shuf with
  | error e => rw [hd] at h h'; exact Option.some.inj (h.symm.trans h')
  | ok d =>
    rw [hd] at h h'
    simp only [] at h h'
    rcases hr : d.reset rb false shuf' with ⟨d', e | obs⟩
    · rw [hr] at h h'; exact Option.some.inj (h.symm.trans h')
    · rw [hr] at h h'
      have h2 := playLoop_more n m _ _ _ h'
      rw [Nat.add_comm, playLoop_more m n _ _ _ h] at h2
      exact Option.some.inj h2

/-! ## the shipped configurations -/

/-- what the constructor and `reset` make of a shipped configuration -/
theorem shipped_start {a : DealerArgs} (ha : a ∈ ALL_CONFIGS) (hne : a ≠ NO_LIMIT_HOLDEM_BB_ANTE_NINE_PLAYER) {shuf shuf' : Shuffle}
    (hs : IsShuffle shuf) (hs' : IsShuffle shuf') (rb : Bool) : ∃ d d' obs, Dealer.new a shuf = .ok d ∧
      d.reset rb false shuf' = (d', .ok obs) ∧ (d'.cfg.numPlayers : Int) = a.numPlayers ∧
      InHand (List.replicate d'.cfg.numPlayers a.startStack) d' ∧ Reachable d' ∧ Running d' ∧ Shows d' obs ∧
      NonNegative (List.replicate d'.cfg.numPlayers a.startStack) d'.cfg ∧
      Deep (List.replicate d'.cfg.numPlayers a.startStack) d'.cfg ∧ EqualAntes d'.cfg ∧
      d'.cfg.bigBlind = d'.cfg.blinds.getD 1 0 ∧ Enough d'.cfg ∧ HandsFit d'.cfg ∧ GoodEvaluator d'.cfg ∧ 0 < a.startStack ∧
      (rb = true → d'.button = 0) := by
  obtain ⟨d, hd⟩ := (C45_shipped a ha).constructs shuf
  obtain ⟨-, -, -, -, -, -, h4⟩ := (C45_shipped a ha).plays shuf d hd
  obtain ⟨d', obs, hr⟩ := h4 rb false shuf'
  have g := shipped_good ha hd false
  have hcfg : d'.cfg = d.cfg := by have := reset_cfg d rb false shuf'; rwa [hr] at this
  have hre := Reachable.reset rb false hs' (.new hs hd)
  rw [hr] at hre
  obtain ⟨v1, v2, -, -, -, v6, -, v8, -, -, -, v11, v12, -⟩ := C44_values a shuf d hd
  have hS : startStacks d false = List.replicate d.cfg.numPlayers a.startStack := by
    unfold startStacks
    rw [v12]; simp
  have hin : InHand (startStacks d false) d' := .dealt (new_seated hd) hs' hr
  rw [hS] at hin g
  obtain ⟨hl, hst, -⟩ := dealt_live (new_seated hd) hr
  obtain ⟨x, hx, -⟩ := hl.action
  have key : ∀ a ∈ ALL_CONFIGS, a ≠ NO_LIMIT_HOLDEM_BB_ANTE_NINE_PLAYER → 0 < a.startStack ∧
      (∀ x ∈ expandL a.antes a.numPlayers, ∀ y ∈ expandL a.antes a.numPlayers, x = y) ∧
      (∀ i < a.numPlayers.toNat, (expandL a.antes a.numPlayers).getD i 0 + (expandL a.blinds a.numPlayers).getD i 0 < a.startStack) := by
    decide +kernel
  obtain ⟨k1, k2, k3⟩ := key a ha hne
  refine ⟨d, d', obs, hd, hr, ?_⟩
  rw [hcfg]
  refine ⟨v6, hin, hre, ⟨⟨x, hx⟩, by rw [hst]; exact hl.oneStreet⟩, .inl ⟨d, rb, false, shuf', hr⟩, g.nonneg, ?_, ?_, ?_,
    g.enough, g.fits, g.evaluator, k1, ?_⟩
  · intro i hi j hj
    rw [expands_eq v1, expands_eq v2, getD_replicate _ _ _ _ hi]
    exact k3 j (by omega)
  · unfold EqualAntes
    rw [expands_eq v2]; exact k2
  · have := (v1.2 1 d.cfg.bigBlind).2 v8
    rw [List.getD_eq_getElem?_getD, this]; rfl
  · rintro rfl
    obtain ⟨-, -, rfl, -⟩ := reset_ok hr
    exact (blindStart_same d true false shuf').2.2.1

theorem equal_replicate (n : Nat) (x : Int) : EqualStart (List.replicate n x) := by
  intro a ha b hb
  rw [List.eq_of_mem_replicate ha, List.eq_of_mem_replicate hb]

/-- **C79**: an example program with any configuration of `clubs/configs.py` except the one in which only one position pays an ante prints fair rewards
after finitely many turns, whatever the cards and the random choices are; but if there are more than two players and the program does not
reset the button, it may also end with an `IndexError`, from a showdown with odd chips. -/
theorem C79_program_partial {a : DealerArgs} (ha : a ∈ ALL_CONFIGS) (hne : a ≠ NO_LIMIT_HOLDEM_BB_ANTE_NINE_PLAYER)
    {choose : Observation → Chance → Except Err Int} (hch : choose = readmeBet ∨ choose = exampleBet) (rb : Bool) {shuf shuf' : Shuffle}
    (hs : IsShuffle shuf) (hs' : IsShuffle shuf') (chance : Nat → Chance) :
    ∃ fuel, (∃ rewards, program a choose rb shuf shuf' chance fuel = some (.ok rewards) ∧
        FairRewards (List.replicate a.numPlayers.toNat a.startStack) rewards) ∨
      (program a choose rb shuf shuf' chance fuel = some (.error .indexError) ∧ rb = false ∧ 2 < a.numPlayers ∧
        ∃ c b, OddTrouble (List.replicate a.numPlayers.toNat a.startStack) c b) := by
  have hch : Chooses choose := by
    rcases hch with rfl | rfl
    · exact readme_chooses
    · exact example_chooses
  obtain ⟨d, d', obs, hd, hr, hnum, hin, hre, hrun, hsh, hn, hdeep, heq, hbb, he, hf, hg, hpos, hb0⟩ := shipped_start ha hne hs hs' rb
  have hnn : d'.cfg.numPlayers = a.numPlayers.toNat := by omega
  have hprog : ∀ fuel, program a choose rb shuf shuf' chance fuel = playLoop choose chance fuel 0 d' obs := by
    intro fuel
    unfold program
    rw [hd]
    simp only [hr]
  obtain ⟨fuel, hfu⟩ := C79_loop_partial hch chance hn hdeep heq (equal_replicate _ _) hbb he hf hg hin hre hrun hsh 0
  refine ⟨fuel, ?_⟩
  rw [hprog, ← hnn]
  rcases hfu with h1 | ⟨h1, ht⟩
  · exact .inl h1
  refine .inr ⟨h1, ?_, ?_, _, _, ht⟩
  · by_contra hrb
    obtain ⟨x, s, k1, k2, k3, k4, k5, k6, k7⟩ := ht
    rw [hb0 (by simpa using hrb)] at k7
    have hc := equal_clear k1 (by rw [k2]; exact hn) (by rw [k2]; exact covers_of_deep hdeep) (by rw [k2]; exact heq)
      (equal_replicate _ _) k4 s
    obtain ⟨i, j, t, hij, hi, hj⟩ := two_winners hc.folds k6
    rcases Nat.eq_zero_or_pos i with h0 | h0
    · exact k7 j (by omega) ⟨t, hj⟩
    · exact k7 i h0 ⟨t, hi⟩
  · by_contra htwo
    obtain ⟨x, s, k1, k2, k3, k4, k5, k6, k7⟩ := ht
    have h2 := (reachable_seated hre).two
    have hact : x.active.length = x.cfg.numPlayers := by
      rcases level_of_inHand (le_refl 0) k1 (by rw [k2]; exact hn) (by rw [k2]; exact covers_of_deep hdeep)
        (fun a ha b hb => by rw [k2] at ha hb; rw [heq a ha b hb]; omega) with ⟨-, hl⟩ | ⟨e, p, rfl, -, hl⟩
      · exact hl.seated.active
      · exact hl.seated.active
    have hx2 : x.cfg.numPlayers = 2 := by rw [k2]; omega
    exact k6 (heads_up_clear k1 (by rw [k2]; exact hn) (by rw [k2]; exact covers_of_deep hdeep) (by rw [k2]; exact heq) hx2
      (fun y hy => by rw [List.eq_of_mem_replicate hy]; exact hpos) (by rw [hact, hx2]) k4 s).2

/-- a six-player configuration and random numbers that meet the hypotheses: here the program prints fair rewards -/
example : NO_LIMIT_HOLDEM_SIX_PLAYER ∈ ALL_CONFIGS ∧ NO_LIMIT_HOLDEM_SIX_PLAYER ≠ NO_LIMIT_HOLDEM_BB_ANTE_NINE_PLAYER ∧ IsShuffle id ∧
    program NO_LIMIT_HOLDEM_SIX_PLAYER readmeBet false id id (fun _ => ⟨0, 0⟩) 5 = some (.ok [0, 0, -1, 1, 0, 0]) :=
  ⟨by decide +kernel, by decide +kernel, isShuffle_id, by decide +kernel⟩

/-- **C79**, complete for two players: the programs always print fair rewards. -/
theorem C79_two_players {a : DealerArgs} (ha : a ∈ ALL_CONFIGS) (h2 : a.numPlayers = 2)
    {choose : Observation → Chance → Except Err Int} (hch : choose = readmeBet ∨ choose = exampleBet) (rb : Bool) {shuf shuf' : Shuffle}
    (hs : IsShuffle shuf) (hs' : IsShuffle shuf') (chance : Nat → Chance) :
    ∃ fuel rewards, program a choose rb shuf shuf' chance fuel = some (.ok rewards) ∧
      FairRewards [a.startStack, a.startStack] rewards := by
  obtain ⟨fuel, ⟨r, h1, h3⟩ | ⟨-, -, h1, -⟩⟩ := C79_program_partial ha (fun h => by rw [h] at h2; exact absurd h2 (by decide)) hch rb hs hs'
    chance
  · rw [h2] at h3
    exact ⟨fuel, r, h1, h3⟩
  · omega

/-- there are shipped configurations for two players -/
example : NO_LIMIT_HOLDEM_TWO_PLAYER ∈ ALL_CONFIGS ∧ NO_LIMIT_HOLDEM_TWO_PLAYER.numPlayers = 2 := by decide +kernel

/-- **C79** for the programs as they should be, with `dealer.reset(reset_button=True)`: they always print fair rewards. -/
theorem C79_button {a : DealerArgs} (ha : a ∈ ALL_CONFIGS) (hne : a ≠ NO_LIMIT_HOLDEM_BB_ANTE_NINE_PLAYER)
    {choose : Observation → Chance → Except Err Int} (hch : choose = readmeBet ∨ choose = exampleBet) {shuf shuf' : Shuffle}
    (hs : IsShuffle shuf) (hs' : IsShuffle shuf') (chance : Nat → Chance) :
    ∃ fuel rewards, program a choose true shuf shuf' chance fuel = some (.ok rewards) ∧
      FairRewards (List.replicate a.numPlayers.toNat a.startStack) rewards := by
  obtain ⟨fuel, ⟨r, h1, h3⟩ | ⟨-, h1, -⟩⟩ := C79_program_partial ha hne hch true hs hs' chance
  · exact ⟨fuel, r, h1, h3⟩
  · cases h1

/-- the README's program: two seats fold, seat 0 raises by the minimum, seat 1 calls, the blinds fold, then both check -/
def readmeChance (turn : Nat) : Chance := ⟨([0, 0, 9 / 10, 1 / 2, 0, 0] : List Rat).getD turn (1 / 2), 0⟩

/-- example.py's program: the same, with five seats that fold at first -/
def exampleChance (turn : Nat) : Chance := ⟨([0, 0, 0, 0, 0, 96 / 100, 1 / 2, 0, 0] : List Rat).getD turn (1 / 2), 0⟩

set_option maxRecDepth 1000000 in
/-- **C79 is false**: with these cards and random numbers the program of the README ends with an `IndexError`. Seats 0 and 1 have aces; the pot
of 11 chips cannot be halved, and the button is at seat 1. -/
theorem C79_false : program NO_LIMIT_HOLDEM_SIX_PLAYER readmeBet false id acesFirst readmeChance 14 = some (.error .indexError) := by
  decide +kernel

set_option maxRecDepth 1000000 in
/-- ... and likewise `example.py`. -/
theorem C79_false_example : program NO_LIMIT_HOLDEM_NINE_PLAYER exampleBet false id acesFirst exampleChance 17 = some (.error .indexError) := by
  decide +kernel

end Clubs

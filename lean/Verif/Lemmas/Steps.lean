import Verif.Lemmas.Option

/-! # What a step does to a hand -/

namespace Clubs

open Spec

theorem afterBet_cfg (d : Dealer) (fold : Bool) (c b : Int) : (d.afterBet fold c b).cfg = d.cfg :=
  (afterBet_fields d fold c b).1

theorem finish_cfg (d : Dealer) : d.finish.1.cfg = d.cfg := by
  rcases finish_cases d with ⟨e, -, he⟩ | ⟨p, hp, -, he, -⟩ | ⟨p, -, -, he, -⟩
  · rw [he]
  · rw [he]; rfl
  · rw [he]

theorem step_cfg (d : Dealer) (bet : PyNum) : (d.step bet).1.cfg = d.cfg := by
  cases ha : d.action with
  | none => rw [step_none ha]
  | some a =>
    rcases step_some ha bet with ⟨e, -, he⟩ | ⟨b, e, -, -, he⟩ | ⟨b, c, lo, hi, -, -, he⟩
    · rw [he]
    · rw [he]
    · rw [he, finish_cfg, afterBet_cfg]

theorem reset_cfg (d : Dealer) (rb rs : Bool) (shuf : Shuffle) : (d.reset rb rs shuf).1.cfg = d.cfg := by
  rcases reset_eq d rb rs shuf with ⟨-, -, h⟩ | ⟨-, ⟨-, h⟩ | ⟨-, h⟩⟩
  · rw [h]
  · rw [h]
  · rw [h]; exact blindStart_cfg d rb rs shuf

/-- the invariants hold, also for the state just before a hand was settled -/
theorem nn_of_inHand {S : List Int} {d : Dealer} (h : InHand S d) (hn : NonNegative S d.cfg) :
    (NN d ∧ Live S d ∧ (d.street < d.cfg.numStreets → 2 ≤ countTrue d.active)) ∨
    ∃ e p, d = e.settle p ∧ NN e ∧ Live S e ∧ e.payouts = .ok p ∧ e.done.all id = true := by
  have := inHand_induct (P := fun S d => NonNegative S d.cfg → NN d)
    (fun d d' rb rs shuf obs hd hs hr hn => dealt_nn hd hr hn)
    (fun S d fold b c lo hi _ hl hst h2 ih hb hn => by
      rw [afterBet_cfg] at hn
      exact afterBet_nn hl hn.start h2 (ih hn) hb) h
  rcases this with ⟨h1, h2⟩ | ⟨e, p, rfl, h1, h2⟩
  · exact .inl ⟨h1 hn, h2⟩
  · exact .inr ⟨e, p, rfl, h1 hn, h2⟩

theorem optInv_of_inHand {S : List Int} {d : Dealer} (h : InHand S d) : OptInv d := by
  have := inHand_induct (P := fun _ d => OptInv d)
    (fun d d' rb rs shuf obs hd hs hr => dealt_optInv hd hr)
    (fun S d fold b c lo hi _ hl hst h2 ih hb => afterBet_optInv hl h2 ih) h
  rcases this with ⟨h1, -⟩ | ⟨e, p, rfl, h1, -⟩
  · exact h1
  · exact h1

theorem notAgreed_of_inHand {S : List Int} {d : Dealer} (h : InHand S d) (ha : d.action ≠ none) : d.allAgreed = false := by
  have := inHand_induct (P := fun _ d => d.allAgreed = false)
    (fun d d' rb rs shuf obs hd hs hr => dealt_not_agreed hd hr)
    (fun S d fold b c lo hi _ hl hst h2 ih hb => afterBet_not_agreed hl h2) h
  rcases this with ⟨h1, -⟩ | ⟨e, p, rfl, h1, -⟩
  · exact h1
  · exact absurd rfl ha

/-- a running hand is live -/
theorem live_of_action {S : List Int} {d : Dealer} {a : Nat} (h : InHand S d) (ha : d.action = some a) :
    Live S d ∧ (d.street < d.cfg.numStreets → 2 ≤ countTrue d.active) := by
  rcases live_of_running h with h1 | ⟨e, p, rfl, -⟩
  · exact h1
  · simp [Dealer.settle] at ha

theorem nn_of_action {S : List Int} {d : Dealer} {a : Nat} (h : InHand S d) (hn : NonNegative S d.cfg)
    (ha : d.action = some a) : NN d := by
  rcases nn_of_inHand h hn with h1 | ⟨e, p, rfl, -⟩
  · exact h1.1
  · simp [Dealer.settle] at ha

/-- an ended hand -/
theorem ended_of_action {S : List Int} {d : Dealer} (h : InHand S d) (ha : d.action = none) :
    ∃ e p, d = e.settle p ∧ Live S e ∧ e.payouts = .ok p ∧ e.done.all id = true := by
  rcases live_of_running h with ⟨h1, -⟩ | h1
  · obtain ⟨a, h2, -⟩ := h1.action
    rw [ha] at h2; simp at h2
  · exact h1

/-- A step of a hand, by cases: refused with nothing changed; the bet is placed and the showdown raises;
the bet is placed and the hand ends; the bet is placed and the hand goes on. -/
inductive Stepped (S : List Int) (d : Dealer) (bet : PyNum) : Prop
  | refused (e : Err) (h : d.step bet = (d, .error e)) (why : pyRound bet = .error e ∨ d.betSizes = .error e)
  | stuck (b c lo hi : Int) (e : Err) (x : Dealer) (hb : pyRound bet = .ok b) (hs : d.betSizes = .ok (c, lo, hi))
      (hx : x = d.afterBet bet.isNeg c (cleanBet b c lo hi)) (hl : Live S x) (hp : x.payouts = .error e)
      (h : d.step bet = (x, .error e))
  | ended (b c lo hi : Int) (p : List Int) (x : Dealer) (obs : Observation) (hb : pyRound bet = .ok b)
      (hs : d.betSizes = .ok (c, lo, hi)) (hx : x = d.afterBet bet.isNeg c (cleanBet b c lo hi)) (hl : Live S x)
      (hp : x.payouts = .ok p) (hd : x.done.all id = true) (ho : (x.settle p).observation true = .ok obs)
      (h : d.step bet = (x.settle p, .ok (obs, p, x.done)))
  | goesOn (b c lo hi : Int) (p : List Int) (x : Dealer) (obs : Observation) (hb : pyRound bet = .ok b)
      (hs : d.betSizes = .ok (c, lo, hi)) (hx : x = d.afterBet bet.isNeg c (cleanBet b c lo hi)) (hl : Live S x)
      (hp : x.payouts = .ok p) (hd : x.done.all id = false) (ho : x.observation false = .ok obs)
      (h : d.step bet = (x, .ok (obs, p, x.done)))

theorem pyGet_last {α : Type} {l : List α} (h : 1 ≤ l.length) : ∃ x, pyGet l (-1) = .ok x := by
  unfold pyGet
  have e : (if (-1 : Int) < 0 then -1 + (l.length : Int) else -1) = -1 + (l.length : Int) := if_pos (by omega)
  simp only [e]
  have : (-1 + (l.length : Int)).toNat < l.length := by omega
  rw [if_neg (by omega), List.getElem?_eq_getElem this]
  exact ⟨_, rfl⟩

theorem pyGet_nat {α : Type} {l : List α} {i : Nat} (h : i < l.length) : pyGet l (i : Int) = .ok l[i] := by
  unfold pyGet
  simp only []
  rw [if_neg (by omega), if_neg (by omega), Int.toNat_natCast, List.getElem?_eq_getElem h]

theorem settle_observation {S : List Int} {d : Dealer} (h : Live S d) (p : List Int) :
    ∃ obs, (d.settle p).observation true = .ok obs := by
  unfold Dealer.observation
  obtain ⟨x, hx⟩ := pyGet_last (l := (d.settle p).holeCards) (by
    show 1 ≤ d.holeCards.length
    rw [h.holeLen]; have := h.seated.two; omega)
  simp only [if_true]
  rw [show (d.settle p).action = none from rfl]
  simp only [hx]
  exact ⟨_, rfl⟩

theorem live_observation {S : List Int} {d : Dealer} (h : Live S d) (hs : d.street < d.cfg.numStreets) :
    ∃ obs, d.observation false = .ok obs := by
  obtain ⟨c, lo, hi, hb⟩ := betSizes_ok h.seated hs
  obtain ⟨a, ha, -⟩ := h.action
  have halt : a < d.holeCards.length := by rw [h.holeLen]; exact h.seated.action a ha
  unfold Dealer.observation
  rw [ha]
  simp only [if_false, hb, pyGet_nat halt, Bool.false_eq_true]
  exact ⟨_, rfl⟩

theorem step_cases {S : List Int} {d : Dealer} {a : Nat} (h : InHand S d) (ha : d.action = some a) (bet : PyNum) :
    Stepped S d bet := by
  obtain ⟨hl, h2⟩ := live_of_action h ha
  rcases step_some ha bet with ⟨e, hr, he⟩ | ⟨b, e, -, hr, he⟩ | ⟨b, c, lo, hi, hb, hs, he⟩
  · exact .refused e he (.inl hr)
  · exact .refused e he (.inr hr)
  · by_cases hst : d.street < d.cfg.numStreets
    · have hl2 := afterBet_live hl hst (h2 hst) bet.isNeg c (cleanBet b c lo hi)
      rcases finish_cases (d.afterBet bet.isNeg c (cleanBet b c lo hi)) with
        ⟨x, hx, hf⟩ | ⟨p, hp, hd, hf1, hf2⟩ | ⟨p, hp, hd, hf1, hf2⟩
      · exact .stuck b c lo hi x _ hb hs rfl hl2 hx (by rw [he, hf])
      · obtain ⟨obs, ho⟩ := settle_observation hl2 p
        rw [ho] at hf2
        exact .ended b c lo hi p _ obs hb hs rfl hl2 hp hd ho (by rw [he]; exact Prod.ext hf1 hf2)
      · have hst2 : (d.afterBet bet.isNeg c (cleanBet b c lo hi)).street <
            (d.afterBet bet.isNeg c (cleanBet b c lo hi)).cfg.numStreets := by
          by_contra hcon
          unfold Dealer.done at hd
          rw [if_pos (.inl (by omega))] at hd
          simp at hd
        obtain ⟨obs, ho⟩ := live_observation hl2 hst2
        rw [ho] at hf2
        exact .goesOn b c lo hi p _ obs hb hs rfl hl2 hp hd ho (by rw [he]; exact Prod.ext hf1 hf2)
    · rw [betSizes_error hl.seated (by omega)] at hs
      simp at hs

theorem afterBet_nn_of {S : List Int} {d x : Dealer} {a : Nat} {fold : Bool} {b c lo hi : Int} (h : InHand S d)
    (hn : NonNegative S d.cfg) (ha : d.action = some a) (hs : d.betSizes = .ok (c, lo, hi))
    (hx : x = d.afterBet fold c (cleanBet b c lo hi)) : NN x := by
  have hl := (live_of_action h ha).1
  have h2 : d.street < d.cfg.numStreets := by
    by_contra hcon
    rw [betSizes_error hl.seated (by omega)] at hs
    simp at hs
  rw [hx]
  exact afterBet_nn hl hn.start ((live_of_action h ha).2 h2) (nn_of_action h hn ha) hs

/-- when the hand ends -/
theorem done_all_iff {d : Dealer} (h : Seated d) : d.done.all id = true ↔
    d.cfg.numStreets ≤ d.street ∨ countTrue d.active ≤ 1 ∨ ∀ i < d.cfg.numPlayers, isIn d i → stack d i = 0 := by
  unfold Dealer.done
  by_cases hc : d.street ≥ d.cfg.numStreets ∨ countTrue d.active ≤ 1
  · rw [if_pos hc]
    constructor
    · intro _
      rcases hc with h1 | h1
      · exact .inl h1
      · exact .inr (.inl h1)
    · intro _; simp
  · rw [if_neg hc, all_getD false]
    rw [not_or] at hc
    have hlen : (List.zipWith (fun active stack => !active || stack == 0) d.active d.stacks).length = d.cfg.numPlayers := by
      simp [h.active, h.stacks]
    rw [hlen]
    constructor
    · intro hh
      right; right
      intro i hi hin
      have := hh i hi
      rw [getD_zipWith _ _ _ _ false 0 _ (by rw [h.active]; exact hi) (by rw [h.stacks]; exact hi)] at this
      unfold isIn at hin
      rw [hin] at this
      simpa [stack] using this
    · rintro (h1 | h1 | h1)
      · exact absurd h1 hc.1
      · exact absurd h1 hc.2
      · intro i hi
        rw [getD_zipWith _ _ _ _ false 0 _ (by rw [h.active]; exact hi) (by rw [h.stacks]; exact hi)]
        have := h1 i hi
        unfold isIn stack at this
        cases hx : d.active.getD i false
        · simp
        · simp only [id, Bool.not_true, Bool.false_or, beq_iff_eq]; exact this hx

/-- `roll` moves the entry of position 0 to position `k` -/
theorem roll_getD {α : Type} (l : List α) (k i : Nat) (x : α) (hk : k < l.length) (hi : i < l.length) :
    (roll l k).getD i x = l.getD ((i + (l.length - k)) % l.length) x := by
  unfold roll
  by_cases h0 : k = 0
  · subst h0
    simp only [if_true]
    rw [Nat.sub_zero, Nat.add_mod_right, Nat.mod_eq_of_lt hi]
  · rw [if_neg h0]
    rw [getD_eq _ _ _ (by simp; omega), getD_eq _ _ _ (Nat.mod_lt _ (by omega)), List.getElem_append]
    by_cases hik : i < k
    · have : (i + (l.length - k)) % l.length = l.length - k + i := by rw [Nat.mod_eq_of_lt (by omega)]; omega
      rw [dif_pos (by simp; omega), List.getElem_drop]
      simp only [this]
    · have : (i + (l.length - k)) % l.length = i - k := by
        rw [show i + (l.length - k) = (i - k) + l.length by omega, Nat.add_mod_right, Nat.mod_eq_of_lt (by omega)]
      have h2 : i - (l.length - (l.length - k)) = i - k := by omega
      rw [dif_neg (by simp; omega), List.getElem_take]
      simp only [this, List.length_drop, h2]

/-- contributions, stacks and bets after a step of a hand -/
theorem contribution_afterBet {d : Dealer} (h : Seated d) (fold : Bool) (c b : Int) (i : Nat) (hi : i < d.cfg.numPlayers) :
    contribution (d.afterBet fold c b) i =
      contribution d i + (if d.seat = i then min (stack d d.seat) (betOf fold c b) else 0) ∧
    stack (d.afterBet fold c b) i =
      stack d i - (if d.seat = i then min (stack d d.seat) (betOf fold c b) else 0) := by
  obtain ⟨-, -, -, -, -, -, -, f8, f9⟩ := afterBet_fields d fold c b
  unfold contribution stack
  rw [f8, f9]
  exact ⟨(acted_nums h fold c b i hi).2.1, (acted_nums h fold c b i hi).1⟩

end Clubs

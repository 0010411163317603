import Verif.Props.Ask
import Verif.Props.Better
import Verif.Props.Dealing
import Verif.Props.NumpyCards

/-!
# The history accounts for every chip: C95
-/

namespace Clubs

open Spec

variable {S : List Int} {d d' e : Dealer} {a : Nat} {bet : PyNum} {out : StepOut}

theorem putIn_append (l m : List (Nat × Int × Bool)) (i : Nat) : putIn (l ++ m) i = putIn l i + putIn m i := by
  simp [putIn, List.filter_append]

theorem putIn_one (s : Nat) (x : Int) (f : Bool) (i : Nat) : putIn [(s, x, f)] i = if s = i then x else 0 := by
  unfold putIn
  by_cases h : s = i
  · simp [h]
  · simp [h]

/-- what a call of `step` adds to the history is what it adds to the contributions -/
structure Accounts (d d' : Dealer) (added : List (Nat × Int × Bool)) : Prop where
  history : d'.history = d.history ++ added
  contribution : ∀ i < d.cfg.numPlayers, contribution d' i = Spec.contribution d i + putIn added i
  pot : d'.action ≠ none → d'.pot = d.pot + allPutIn added
  «stacks» : d'.action ≠ none → ∀ i < d.cfg.numPlayers, stack d' i = stack d i - putIn added i

theorem accounts_refl (d : Dealer) : Accounts d d [] where
  history := (List.append_nil _).symm
  contribution := fun _ _ => by simp [putIn]
  pot := fun _ => by simp [allPutIn]
  «stacks» := fun _ _ _ => by simp [putIn]

theorem accounts_acted {fold : Bool} {c x : Int} (hd : Seated d) (hx : betOf fold c x ≤ stack d d.seat) :
    Accounts d (d.afterBet fold c x) [(d.seat, betOf fold c x, fold)] where
  history := by rw [(afterBet_fields _ _ _ _).2.2.2.1]; rfl
  contribution := fun i hi => by
    rw [(contribution_afterBet hd _ _ _ i hi).1, putIn_one, min_eq_right hx]
  pot := fun _ => by
    rw [(afterBet_fields _ _ _ _).2.2.2.2.2.2.1]
    show d.pot + min (d.stacks.getD d.seat 0) (betOf fold c x) = _
    rw [show d.stacks.getD d.seat 0 = stack d d.seat from rfl, min_eq_right hx]
    simp [allPutIn]
  «stacks» := fun _ i hi => by
    rw [(contribution_afterBet hd _ _ _ i hi).2, putIn_one, min_eq_right hx]

theorem accounts_settle {x : Dealer} {added : List (Nat × Int × Bool)} (h : Accounts d x added) (p : List Int) : Accounts d (x.settle p) added where
  history := h.history
  contribution := h.contribution
  pot := fun ha => absurd rfl ha
  «stacks» := fun ha => absurd rfl ha

theorem accounts_trans {l m : List (Nat × Int × Bool)} (h1 : Accounts d e l) (h2 : Accounts e d' m) (hc : e.cfg = d.cfg)
    (hstop : e.action = none → d' = e) : Accounts d d' (l ++ m) where
  history := by rw [h2.history, h1.history, List.append_assoc]
  contribution := fun i hi => by rw [h2.contribution i (by rw [hc]; exact hi), h1.contribution i hi, putIn_append, Int.add_assoc]
  pot := fun ha => by
    have he : e.action ≠ none := fun h => ha (by rw [hstop h]; exact h)
    rw [h2.pot ha, h1.pot he]
    simp [allPutIn]; omega
  «stacks» := fun ha i hi => by
    have he : e.action ≠ none := fun h => ha (by rw [hstop h]; exact h)
    rw [h2.stacks ha i (by rw [hc]; exact hi), h1.stacks he i hi, putIn_append]; omega

theorem betOf_le {fold : Bool} {b c lo hi : Int} (hs0 : 0 ≤ stack d d.seat) (h : d.betSizes = .ok (c, lo, hi)) :
    betOf fold c (cleanBet b c lo hi) ≤ stack d d.seat := by
  have := cleanBet_le h b
  unfold betOf
  split <;> omega

theorem step_accounts (h : InHand S d) (hn : NonNegative S d.cfg) (hcov : Covers S d.cfg) (bet : PyNum) :
    ∃ added, Accounts d (d.step bet).1 added := by
  cases ha : d.action with
  | none => rw [step_none ha]; exact ⟨[], accounts_refl d⟩
  | some a =>
    obtain ⟨-, -, hs⟩ := covered_of_inHand h hn hcov (by rw [ha]; simp)
    have hd := (live_of_action h ha).1.seated
    rcases step_some ha bet with ⟨e, -, he⟩ | ⟨b, e, -, -, he⟩ | ⟨b, c, lo, hi, hb, hsz, he⟩
    · rw [he]; exact ⟨[], accounts_refl d⟩
    · rw [he]; exact ⟨[], accounts_refl d⟩
    · rw [he]
      have key := accounts_acted hd (betOf_le (fold := bet.isNeg) (b := b) (hs _ (seat_lt hd)) hsz)
      rcases finish_cases (d.afterBet bet.isNeg c (cleanBet b c lo hi)) with ⟨e, -, hx⟩ | ⟨p, -, -, hx, -⟩ | ⟨p, -, -, hx, -⟩ <;> rw [hx]
      · exact ⟨_, key⟩
      · exact ⟨_, accounts_settle key p⟩
      · exact ⟨_, key⟩

theorem afterBets_stopped (h : d.action = none) (bets : List PyNum) : Spec.afterBets d bets = d := by
  induction bets with
  | nil => rfl
  | cons b bets ih =>
    show Spec.afterBets (d.step b).1 bets = d
    rw [step_none h]
    exact ih

theorem bets_accounts (h : InHand S d) (hn : NonNegative S d.cfg) (hcov : Covers S d.cfg) (bets : List PyNum) :
    ∃ added, Accounts d (Spec.afterBets d bets) added := by
  induction bets generalizing d with
  | nil => exact ⟨[], accounts_refl d⟩
  | cons b bets ih =>
    obtain ⟨l, h1⟩ := step_accounts h hn hcov b
    obtain ⟨m, h2⟩ := ih (d := (d.step b).1) (.step b h) (by rw [step_cfg]; exact hn) (by rw [step_cfg]; exact hcov)
    refine ⟨l ++ m, accounts_trans h1 h2 (step_cfg d b) fun hstop => ?_⟩
    exact afterBets_stopped hstop bets

/-- **C95** (part): at any time after a deal, the chips a seat has contributed are the forced bets of the deal and the chips the history says
the seat has put in. While the hand is going on these chips are missing from the stacks and make up the pot. Condition: nobody can owe a
blind. -/
theorem C95_account_partial {rb rs : Bool} {sh : Shuffle} {obs : Observation} (hd : Seated d) (hs : IsShuffle sh)
    (hr : d.reset rb rs sh = (e, .ok obs)) (hn : NonNegative (startStacks d rs) e.cfg) (hcov : Covers (startStacks d rs) e.cfg)
    (bets : List PyNum) :
    (∀ i < e.cfg.numPlayers, contribution (Spec.afterBets e bets) i = contribution e i + putIn (Spec.afterBets e bets).history i) ∧
    ((Spec.afterBets e bets).action ≠ none →
      (Spec.afterBets e bets).pot = e.pot + allPutIn (Spec.afterBets e bets).history ∧
      ∀ i < e.cfg.numPlayers, stack (Spec.afterBets e bets) i = stack e i - putIn (Spec.afterBets e bets).history i) := by
  obtain ⟨added, k⟩ := bets_accounts (.dealt hd hs hr) hn hcov bets
  have h0 : e.history = [] := (C41_clean hd hr).2.2.2.1
  have h1 := k.history
  rw [h0, List.nil_append] at h1
  rw [h1]
  exact ⟨k.contribution, fun ha => ⟨k.pot ha, k.stacks ha⟩⟩

/-- **C95** is false in general: seat 2 owes a part of the big blind and bets 0; the history says 0 chips, and the chip that is owed comes
back out of the pot. -/
theorem C95_false : ∃ S d, InHand S d ∧ Reachable d ∧ NonNegative S d.cfg ∧ d.history = [] ∧ contribution d 2 = 2 ∧
    (Spec.afterBets d [.fin 1, .fin 0, .fin 0]).history = [(0, 1, false), (1, 0, false), (2, 0, false)] ∧
    contribution (Spec.afterBets d [.fin 1, .fin 0, .fin 0]) 2 = 1 :=
  hand_exists (small 3 [1, 2, 0] 1) [] (by decide +kernel)

/-- a hand with a raise, a call and a fold -/
example : ∃ S d, InHand S d ∧ Reachable d ∧ NonNegative S d.cfg ∧ Covers S d.cfg ∧ d.history = [] ∧
    (Spec.afterBets d [.fin 6, .fin 5, .fin 0]).history = [(0, 6, false), (1, 5, false), (2, 0, false)] ∧
    (Spec.afterBets d [.fin 6, .fin 5, .fin 0]).action = some 1 ∧ contribution (Spec.afterBets d [.fin 6, .fin 5, .fin 0]) 1 = 6 :=
  hand_exists (small 3 [1, 2, 0] 20) [] (by decide +kernel)

end Clubs

namespace Clubs.Numpy

open Spec

variable {S : List Int} {d d' e : Dealer} {a : Nat} {bet : PyNum} {out : StepOut}

theorem array_betOf {fold : Bool} {b c lo hi : Int} (hd : Seated d) (hp : 0 ≤ d.pot) (hz : SizesOk d.cfg) (hsz : d.betSizes = .ok (c, lo, hi))
    (hf : b < 0 → fold = true) : betOf fold c (cleanBet b c lo hi) = betOf fold c (Clubs.cleanBet b c lo hi) := by
  rcases clean_same hd hp hz hsz hf with ⟨h1, h2⟩ | h
  · unfold betOf; rw [if_pos h1, if_pos h2]
  · rw [h]

theorem array_covered (h : ArrayInHand S d) (hn : NonNegative S d.cfg) (hz : SizesOk d.cfg) (hcov : Covers S d.cfg) (ha : d.action ≠ none) :
    ∀ i < d.cfg.numPlayers, 0 ≤ stack d i := by
  have := array_induct (P := fun S d => NonNegative S d.cfg → SizesOk d.cfg → Covers S d.cfg → NN d ∧ ∀ i < d.cfg.numPlayers, 0 ≤ stack d i)
    (fun d d' rb rs shuf obs hd hs hr hn _ hc => ⟨dealt_nn hd hr hn, dealt_covered hd hr hn hc⟩)
    (fun S d fold b c lo up hl hst h2 ih hb hf hn hz hc => by
      rw [Clubs.afterBet_cfg] at hn hz hc
      obtain ⟨i1, i3⟩ := ih hn hz hc
      have hp := nn_pot hl i1
      rw [afterBet_clean hl.seated hp hz hb hf]
      refine ⟨afterBet_nn hl hn.start h2 i1 hb, ?_⟩
      intro i hi
      rw [Clubs.afterBet_cfg] at hi
      rw [(contribution_afterBet hl.seated _ _ _ i hi).2]
      have := i3 i hi
      split
      · next h4 => rw [h4]; have := min_le_left (stack d i) (betOf fold c (Clubs.cleanBet b c lo up)); omega
      · omega) h
  rcases this with ⟨h1, -⟩ | ⟨e, p, rfl, -⟩
  · exact (h1 hn hz hcov).2
  · exact absurd rfl ha

theorem step_accounts (h : ArrayInHand S d) (hn : NonNegative S d.cfg) (hz : SizesOk d.cfg) (hcov : Covers S d.cfg) (bet : PyNum) :
    ∃ added, Accounts d (step d bet).1 added := by
  cases ha : d.action with
  | none => rw [step_none ha]; exact ⟨[], accounts_refl d⟩
  | some a =>
    have hs := array_covered h hn hz hcov (by rw [ha]; simp)
    obtain ⟨hso, hl, -⟩ := sound_of_action h hn hz ha
    have hp : 0 ≤ (atSeat d).pot := nn_pot hl hso.nn
    have htwo : 2 ≤ d.cfg.numPlayers := hl.seated.two
    rcases step_some ha bet with ⟨e, -, he⟩ | ⟨b, e, -, -, he⟩ | ⟨b, c, lo, hi, hb, hsz, he⟩
    · rw [he]; exact ⟨[], accounts_refl d⟩
    · rw [he]; exact ⟨[], accounts_refl d⟩
    · rw [he, afterBet_congr (clean_same hl.seated hp hz hsz (isNeg_of_round hb))]
      have key := accounts_acted hl.seated (betOf_le (d := atSeat d) (fold := bet.isNeg) (b := b) (hs _ (seat_lt hl.seated)) hsz)
      rw [← afterBet_atSeat (by omega)] at key
      have key' : Accounts d (afterBet d bet.isNeg c (Clubs.cleanBet b c lo hi))
          [((atSeat d).seat, betOf bet.isNeg c (Clubs.cleanBet b c lo hi), bet.isNeg)] := by
        refine ⟨key.history, key.contribution, fun h => key.pot ?_, fun h => key.stacks ?_⟩
        · intro h'
          apply h
          simpa [atSeat] using h'
        · intro h'
          apply h
          simpa [atSeat] using h'
      rcases finish_cases (afterBet d bet.isNeg c (Clubs.cleanBet b c lo hi)) with ⟨e, -, hx⟩ | ⟨p, -, -, hx, -⟩ | ⟨p, -, -, hx, -⟩ <;> rw [hx]
      · exact ⟨_, key'⟩
      · exact ⟨_, accounts_settle key' p⟩
      · exact ⟨_, key'⟩

theorem afterBets_stopped (h : d.action = none) (bets : List PyNum) : arrayAfter d bets = d := by
  induction bets with
  | nil => rfl
  | cons b bets ih =>
    show arrayAfter (step d b).1 bets = d
    rw [step_none h]
    exact ih

theorem bets_accounts (h : ArrayInHand S d) (hn : NonNegative S d.cfg) (hz : SizesOk d.cfg) (hcov : Covers S d.cfg) (bets : List PyNum) :
    ∃ added, Accounts d (arrayAfter d bets) added := by
  induction bets generalizing d with
  | nil => exact ⟨[], accounts_refl d⟩
  | cons b bets ih =>
    obtain ⟨l, h1⟩ := step_accounts h hn hz hcov b
    obtain ⟨m, h2⟩ := ih (d := (step d b).1) (.step b h) (by rw [step_cfg]; exact hn) (by rw [step_cfg]; exact hz) (by rw [step_cfg]; exact hcov)
    exact ⟨l ++ m, accounts_trans h1 h2 (step_cfg d b) fun hstop => afterBets_stopped hstop bets⟩

/-- **C95** (part) for the array engine: contributions are the forced bets of the deal and the chips the history says have been put in. -/
theorem C95_account_partial {rb rs : Bool} {sh : Shuffle} {obs : Observation} (hd : ArrayReachable d) (hs : IsShuffle sh)
    (hr : reset d rb rs sh = (e, .ok obs)) (hn : NonNegative (startStacks d rs) e.cfg) (hz : SizesOk e.cfg)
    (hcov : Covers (startStacks d rs) e.cfg) (bets : List PyNum) :
    (∀ i < e.cfg.numPlayers, contribution (arrayAfter e bets) i = contribution e i + putIn (arrayAfter e bets).history i) ∧
    ((arrayAfter e bets).action ≠ none →
      (arrayAfter e bets).pot = e.pot + allPutIn (arrayAfter e bets).history ∧
      ∀ i < e.cfg.numPlayers, stack (arrayAfter e bets) i = stack e i - putIn (arrayAfter e bets).history i) := by
  obtain ⟨added, k⟩ := bets_accounts (.dealt (array_seated hd) hs hr) hn hz hcov bets
  have h0 : e.history = [] := (C41_clean (array_seated hd) (reset_ok_atSeat (array_seated hd) hr)).2.2.2.1
  have h1 := k.history
  rw [h0, List.nil_append] at h1
  rw [h1]
  exact ⟨k.contribution, fun ha => ⟨k.pot ha, k.stacks ha⟩⟩

/-- **C95** is false in general for the array engine, too. -/
theorem C95_false : ∃ S d, ArrayInHand S d ∧ ArrayReachable d ∧ NonNegative S d.cfg ∧ SizesOk d.cfg ∧ d.history = [] ∧ contribution d 2 = 2 ∧
    (arrayAfter d [.fin 1, .fin 0, .fin 0]).history = [(0, 1, false), (1, 0, false), (2, 0, false)] ∧
    contribution (arrayAfter d [.fin 1, .fin 0, .fin 0]) 2 = 1 :=
  hand_exists (small 3 [1, 2, 0] 1) [] (by decide +kernel)

/-- a hand with a raise, a call and a fold -/
example : ∃ S d, ArrayInHand S d ∧ ArrayReachable d ∧ NonNegative S d.cfg ∧ SizesOk d.cfg ∧ Covers S d.cfg ∧ d.history = [] ∧
    (arrayAfter d [.fin 6, .fin 5, .fin 0]).history = [(0, 6, false), (1, 5, false), (2, 0, false)] ∧
    (arrayAfter d [.fin 6, .fin 5, .fin 0]).action = some 1 ∧ contribution (arrayAfter d [.fin 6, .fin 5, .fin 0]) 1 = 6 :=
  hand_exists (small 3 [1, 2, 0] 20) [] (by decide +kernel)

end Clubs.Numpy

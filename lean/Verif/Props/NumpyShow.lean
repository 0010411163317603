import Verif.Lemmas.NumpyShow
import Verif.Lemmas.NumpyPlay
import Verif.Props.Showdown

/-!
# The array engine: the showdown (C71)
-/

namespace Clubs.Numpy

open Spec

variable {S : List Int} {d d' : Dealer} {bet : PyNum} {s : Nat → Int} {res : Except Err StepOut}

/-- a step that reaches the showdown, with the payouts described -/
theorem step_paid (h : ArrayInHand S d) (hn : NonNegative S d.cfg) (hz : SizesOk d.cfg) (hrun : Running d)
    (hs : step d bet = (d', res)) (hsh : AtShowdown d') (hr : Ranks d' s)
    (hc : FoldsCovered d'.cfg.numPlayers (inB d') (contribution d')) :
    ∃ x obs p, Paid x s ∧ SameTable x d' ∧ (∀ i < x.cfg.numPlayers, 0 ≤ contribution x i) ∧
      payouts x = .ok p ∧ res = .ok (obs, p, done x) ∧ d' = x.settle p := by
  obtain ⟨x, h1, -, h2, h3, h4, h5, h6, e1, e2, e3, e4, e5, e6, -, h7⟩ := step_showdown h hn hz hrun hs hsh
  have e : SameTable x d' := ⟨e1, e2, e3, e4, e5, e6⟩
  have hc' : FoldsCovered x.cfg.numPlayers (inB x) (contribution x) := by
    unfold FoldsCovered inB contribution at *
    rw [e1, e2, e3] at hc
    exact hc
  have hp := showdown_paid h1 h2 h3 h4 (e.ranks hr) hc' h5 h6
  rcases h7 with ⟨er, h8, -, -⟩ | ⟨obs, p, h8, h9, h10, -⟩
  · cases hp with
    | even q hq => rw [h8] at hq; simp at hq
    | odd q w hq => rw [h8] at hq; simp at hq
  · exact ⟨x, obs, p, hp, e, h4, h8, h9, h10⟩

/-- **C71**: a showdown at which every hand has a rank, and nobody who folded put in more than everybody who did not, never
fails; every seat receives its share of every pot it wins, rounded down, and the odd chips go to the winner that comes first in the
order from the button. There is no condition about ties. -/
theorem C71_shares (h : ArrayInHand S d) (hn : NonNegative S d.cfg) (hz : SizesOk d.cfg) (hrun : Running d)
    (hs : step d bet = (d', res)) (hsh : AtShowdown d') (hr : Ranks d' s)
    (hc : FoldsCovered d'.cfg.numPlayers (inB d') (contribution d')) :
    ∃ obs pays done, res = .ok (obs, pays, done) ∧ d'.action = none ∧
      ((oddAt d' s = 0 ∧ ∀ j < d'.cfg.numPlayers, received d' pays j = dueAt d' s j) ∨
        (oddAt d' s ≠ 0 ∧ ∃ w < d'.cfg.numPlayers, Wins d' s w ∧
          (∀ i, Wins d' s i → fromButton d'.cfg.numPlayers d'.button w ≤ fromButton d'.cfg.numPlayers d'.button i) ∧
          ∀ j < d'.cfg.numPlayers, received d' pays j = dueAt d' s j + if w = j then oddAt d' s else 0)) := by
  obtain ⟨x, obs, p, hp, e, hpos, h1, rfl, h2⟩ := step_paid h hn hz hrun hs hsh hr hc
  have hpos' : ∀ i < d'.cfg.numPlayers, 0 ≤ contribution d' i := by
    intro i hi
    have := hpos i (by rw [← e.cfg]; exact hi)
    unfold contribution at *
    rwa [e.potCommits]
  have hwin : ∀ j, Wins d' s j ↔ dueAt d' s j ≠ 0 := fun j => (due_pos_iff hpos' j).symm
  have hlt : ∀ j, Wins d' s j → j < d'.cfg.numPlayers := fun j ⟨t, ht⟩ => (winners_act ht).1
  refine ⟨obs, p, done x, rfl, by rw [h2]; rfl, ?_⟩
  cases hp with
  | even q hq h0 h3 =>
    rw [h1] at hq
    obtain rfl : p = q := by simpa using hq
    refine .inl ⟨by rw [← e.odd]; exact h0, fun j hj => ?_⟩
    rw [← e.received, ← e.due]
    exact h3 j (by rw [← e.cfg]; exact hj)
  | odd q w hq h0 hw hd hf h3 =>
    rw [h1] at hq
    obtain rfl : p = q := by simpa using hq
    refine .inr ⟨by rw [← e.odd]; exact h0, w, by rw [e.cfg]; exact hw, ?_, ?_, fun j hj => ?_⟩
    · rw [hwin, ← e.due]; exact hd
    · intro i hi
      have := hf i (by rw [← e.cfg]; exact hlt i hi) (by rw [e.due]; exact (hwin i).1 hi)
      rwa [e.cfg, e.button]
    · rw [← e.received, ← e.due, ← e.odd]
      exact h3 j (by rw [← e.cfg]; exact hj)

/-- **C71**: at tables whose antes differ by at most one chip and where nobody has too few chips for blind and ante, nobody who
folded put in more than everybody who did not. -/
theorem C71_folds_covered (h : ArrayInHand S d) (hn : NonNegative S d.cfg) (hz : SizesOk d.cfg) (hcov : Covers S d.cfg)
    (he : CloseAntes d.cfg) : FoldsCovered d.cfg.numPlayers (inB d) (contribution d) := by
  rcases sound_of h hn hz with ⟨h1, hl, -⟩ | ⟨e, p, rfl, h1, hl, -⟩
  · obtain ⟨⟨A, P, h2, h4⟩, h3⟩ := h1.top hcov he
    exact h2.covered hl.seated h3 h1.nn.contrib h4
  · obtain ⟨⟨A, P, h2, h4⟩, h3⟩ := h1.top hcov he
    exact h2.covered hl.seated h3 h1.nn.contrib h4

/-- **C71**: at such tables every seat receives its exact share of every layer, up to the odd chips; and not more than all the
others put in against its own chips, odd chips apart. Ties with side pots included (the other engine fails here, `C24_false`,
`C25_false`). -/
theorem C71_fair (h : ArrayInHand S d) (hn : NonNegative S d.cfg) (hz : SizesOk d.cfg) (hcov : Covers S d.cfg)
    (he : CloseAntes d.cfg) (hrun : Running d) (hs : step d bet = (d', res)) (hsh : AtShowdown d') (hr : Ranks d' s) :
    ∃ obs pays done, res = .ok (obs, pays, done) ∧ d'.action = none ∧ ∃ w < d'.cfg.numPlayers, ∀ j < d'.cfg.numPlayers,
      received d' pays j = dueAt d' s j + (if w = j then oddAt d' s else 0) ∧
      (dueAt d' s j : Rat) ≤ fairShare d'.cfg.numPlayers (inB d') (contribution d') s j ∧
      fairShare d'.cfg.numPlayers (inB d') (contribution d') s j ≤ dueAt d' s j + oddAt d' s ∧
      dueAt d' s j ≤ ∑ i ∈ Finset.range d'.cfg.numPlayers, min (contribution d' i) (contribution d' j) := by
  have hin : ArrayInHand S d' := by have := ArrayInHand.step bet h; rwa [hs] at this
  have hcfg : d'.cfg = d.cfg := by have := step_cfg d bet; rwa [hs] at this
  have hf := C71_folds_covered hin (by rw [hcfg]; exact hn) (by rw [hcfg]; exact hz) (by rw [hcfg]; exact hcov)
    (by rw [hcfg]; exact he)
  obtain ⟨x, -, -, -, e, hpos, -⟩ := step_paid h hn hz hrun hs hsh hr hf
  have hpos' : ∀ i < d'.cfg.numPlayers, 0 ≤ contribution d' i := by
    intro i hi
    have := hpos i (by rw [← e.cfg]; exact hi)
    unfold contribution at *
    rwa [e.potCommits]
  have rest : ∀ j < d'.cfg.numPlayers,
      (dueAt d' s j : Rat) ≤ fairShare d'.cfg.numPlayers (inB d') (contribution d') s j ∧
      fairShare d'.cfg.numPlayers (inB d') (contribution d') s j ≤ dueAt d' s j + oddAt d' s ∧
      dueAt d' s j ≤ ∑ i ∈ Finset.range d'.cfg.numPlayers, min (contribution d' i) (contribution d' j) := by
    intro j hj
    refine ⟨due_le_fair j, fair_le_due_odd j, ?_⟩
    have := le_trans (due_le_fair (s := s) j) (fair_le_matched (act := inB d') (s := s) hpos' hj)
    exact_mod_cast this
  obtain ⟨obs, pays, done, h1, h2, ⟨h3, h4⟩ | ⟨-, w, h3, -, -, h4⟩⟩ := C71_shares h hn hz hrun hs hsh hr hf
  · have : 0 < d'.cfg.numPlayers := by
      have h5 := hsh.2
      by_contra h0
      obtain ⟨x, hx, -, -, -, -, -, -, e1, -⟩ := step_showdown h hn hz hrun hs hsh
      have h6 : 2 ≤ x.cfg.numPlayers := hx.two
      rw [e1] at h0
      omega
    exact ⟨obs, pays, done, h1, h2, 0, this, fun j hj => ⟨by rw [h4 j hj, h3]; simp, rest j hj⟩⟩
  · exact ⟨obs, pays, done, h1, h2, w, h3, fun j hj => ⟨h4 j hj, rest j hj⟩⟩

/-- **C71** (part): as long as the button has the number of a seat, the odd chips go to the first winner after the button. -/
theorem C71_first_winner_partial (h : ArrayInHand S d) (hn : NonNegative S d.cfg) (hz : SizesOk d.cfg) (hrun : Running d)
    (hs : step d bet = (d', res)) (hsh : AtShowdown d') (hr : Ranks d' s)
    (hc : FoldsCovered d'.cfg.numPlayers (inB d') (contribution d')) (h0 : oddAt d' s ≠ 0)
    (hb : d'.button < d'.cfg.numPlayers) :
    ∃ obs pays done w, res = .ok (obs, pays, done) ∧ FirstAfter d'.cfg.numPlayers (Wins d' s) d'.button w ∧
      ∀ j < d'.cfg.numPlayers, received d' pays j = dueAt d' s j + if w = j then oddAt d' s else 0 := by
  obtain ⟨obs, pays, done, h1, -, ⟨h2, -⟩ | ⟨-, w, h2, h3, h4, h5⟩⟩ := C71_shares h hn hz hrun hs hsh hr hc
  · exact absurd h2 h0
  · exact ⟨obs, pays, done, w, h1, firstAfter_of hb h2 h3 fun i _ hi => h4 i hi, h5⟩

/-- **C71**: once the button's number is beyond the last seat, the odd chips go to the winner with the lowest seat number, wherever
the button is. -/
theorem C71_lowest_winner (h : ArrayInHand S d) (hn : NonNegative S d.cfg) (hz : SizesOk d.cfg) (hrun : Running d)
    (hs : step d bet = (d', res)) (hsh : AtShowdown d') (hr : Ranks d' s)
    (hc : FoldsCovered d'.cfg.numPlayers (inB d') (contribution d')) (h0 : oddAt d' s ≠ 0)
    (hb : d'.cfg.numPlayers ≤ d'.button) :
    ∃ obs pays done w, res = .ok (obs, pays, done) ∧ Wins d' s w ∧ (∀ i, Wins d' s i → w ≤ i) ∧
      ∀ j < d'.cfg.numPlayers, received d' pays j = dueAt d' s j + if w = j then oddAt d' s else 0 := by
  obtain ⟨obs, pays, done, h1, -, ⟨h2, -⟩ | ⟨-, w, h2, h3, h4, h5⟩⟩ := C71_shares h hn hz hrun hs hsh hr hc
  · exact absurd h2 h0
  · refine ⟨obs, pays, done, w, h1, h3, fun i hi => ?_, h5⟩
    have h6 := h4 i hi
    have h7 : i < d'.cfg.numPlayers := by obtain ⟨t, ht⟩ := hi; exact (winners_act ht).1
    unfold fromButton at h6
    rw [if_pos (by omega), if_pos (by omega)] at h6
    omega

/-- the hand of `C25_false`, with the same contributions: the array engine gives seat 2 its 14 chips -/
example : ∃ S d d' out, ArrayInHand S d ∧ ArrayReachable d ∧ step d (.fin 6) = (d', .ok out) ∧ NonNegative S d.cfg ∧
    SizesOk d.cfg ∧ Covers S d.cfg ∧ CloseAntes d.cfg ∧ Running d ∧ AtShowdown d' ∧ Ranks d' (fun _ => 1) ∧
    ¬ ClearPot d' (fun _ => 1) ∧ d'.potCommits = [8, 8, 14] ∧ received d' out.2.1 2 = 14 ∧ dueAt d' (fun _ => 1) 2 = 14 :=
  step_exists (ties 3 [1, 2, 0] 10) [.bet 2, .bet 1, .bet 4, .bet (-1), .bet (-1), .deal, .bet 8, .bet 13] (.fin 6)
    (by decide +kernel)

/-- the hand of `C24_false`: seat 0, all in with 2 chips, receives nothing -/
example : ∃ S d d' out, ArrayInHand S d ∧ ArrayReachable d ∧ step d (.fin 48) = (d', .ok out) ∧ NonNegative S d.cfg ∧
    SizesOk d.cfg ∧ Covers S d.cfg ∧ CloseAntes d.cfg ∧ Running d ∧ AtShowdown d' ∧ Ranks d' (strength [1, 1, 1, 0]) ∧
    d'.potCommits = [2, 98, 98, 50] ∧ out.2.1 = [-2, -50, -50, 102] :=
  step_exists (mixed 4 3 2 [0, 0, 0, 0] [1, 2, 0, 0] 100)
    [.bet 50, .bet 98, .bet 99, .bet (-1), .bet (-1), .bet (-1), .deal, .bet 2, .bet 98, .bet 97] (.fin 48) (by decide +kernel)

/-- odd chips with the button at seat 0: seats 0 and 2 tie for 5 chips, seat 2 comes first after the button -/
example : ∃ S d d' out, ArrayInHand S d ∧ ArrayReachable d ∧ step d (.fin 0) = (d', .ok out) ∧ NonNegative S d.cfg ∧
    SizesOk d.cfg ∧ Running d ∧ AtShowdown d' ∧ Ranks d' (fun _ => 1) ∧ oddAt d' (fun _ => 1) ≠ 0 ∧
    FoldsCovered d'.cfg.numPlayers (inB d') (contribution d') ∧ d'.button = 0 ∧ out.2.1 = [0, -1, 1] :=
  step_exists (ties 3 [1, 2, 0] 10) [.bet 2, .bet (-1), .bet 0, .bet 0] (.fin 0) (by decide +kernel)

/-- **C71 (first winner after the button) is false in general**: three hands later the button is at seat 0 again, but its
number is 3; the same bets and cards now give the odd chip to seat 0 itself, not to seat 2, the first winner after it. -/
theorem C71_first_winner_false : ∃ S d d' out, ArrayInHand S d ∧ ArrayReachable d ∧ step d (.fin 0) = (d', .ok out) ∧
    NonNegative S d.cfg ∧ SizesOk d.cfg ∧ Running d ∧ AtShowdown d' ∧ Ranks d' (fun _ => 1) ∧ oddAt d' (fun _ => 1) = 1 ∧
    FoldsCovered d'.cfg.numPlayers (inB d') (contribution d') ∧ d'.button = 3 ∧ out.2.1 = [1, -1, 0] :=
  step_exists (ties 3 [1, 2, 0] 10) [.bet (-1), .bet (-1), .deal, .bet (-1), .bet (-1), .deal, .bet (-1), .bet (-1), .deal,
    .bet 2, .bet (-1), .bet 0, .bet 0] (.fin 0) (by decide +kernel)

end Clubs.Numpy

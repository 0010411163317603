import Verif.Lemmas.Showdown
import Verif.Lemmas.Tops
import Verif.Lemmas.Play

/-!
# The showdown: C24–C27
-/

namespace Clubs

open Spec

variable {S : List Int} {d d' : Dealer} {bet : PyNum} {obs : Observation} {pays : List Int} {done : List Bool} {s : Nat → Int}

/-! ## moving between the table before and after the chips are paid out -/

structure SameTable (x d' : Dealer) : Prop where
  cfg : d'.cfg = x.cfg
  active : d'.active = x.active
  potCommits : d'.potCommits = x.potCommits
  button : d'.button = x.button
  holeCards : d'.holeCards = x.holeCards
  communityCards : d'.communityCards = x.communityCards

theorem SameTable.ranks {x d' : Dealer} (e : SameTable x d') (h : Ranks d' s) : Ranks x s := by
  unfold Ranks isIn at *
  rw [e.cfg, e.active, e.holeCards, e.communityCards] at h
  exact h

theorem SameTable.clear {x d' : Dealer} (e : SameTable x d') (h : ClearPot d' s) : ClearPot x s := by
  obtain ⟨h1, h2⟩ := h
  unfold FoldsCovered NoDrainedTie inB contribution at *
  rw [e.cfg, e.active, e.potCommits] at h1 h2
  exact ⟨h1, h2⟩

theorem SameTable.due {x d' : Dealer} (e : SameTable x d') (j : Nat) : dueAt x s j = dueAt d' s j := by
  unfold dueAt
  have h1 : inB d' = inB x := by funext i; unfold inB; rw [e.active]
  have h2 : contribution d' = contribution x := by funext i; unfold contribution; rw [e.potCommits]
  rw [h1, h2, e.cfg]

theorem SameTable.odd {x d' : Dealer} (e : SameTable x d') : oddAt x s = oddAt d' s := by
  unfold oddAt
  have h1 : inB d' = inB x := by funext i; unfold inB; rw [e.active]
  have h2 : contribution d' = contribution x := by funext i; unfold contribution; rw [e.potCommits]
  rw [h1, h2, e.cfg]

theorem SameTable.received {x d' : Dealer} (e : SameTable x d') (p : List Int) (j : Nat) :
    received x p j = received d' p j := by
  unfold Spec.received contribution
  rw [e.potCommits]

/-- a step that reaches the showdown, with the payouts described -/
theorem step_paid {res : Except Err StepOut} (h : InHand S d) (hn : NonNegative S d.cfg) (hrun : Running d)
    (hs : d.step bet = (d', res)) (hsh : AtShowdown d') (hr : Ranks d' s) (hc : ClearPot d' s) :
    ∃ x, Paid x s ∧ SameTable x d' ∧ Seated x ∧ (∀ i < x.cfg.numPlayers, 0 ≤ contribution x i) ∧
      ((∃ e, x.payouts = .error e ∧ res = .error e) ∨
        ∃ obs p, x.payouts = .ok p ∧ res = .ok (obs, p, x.done)) := by
  obtain ⟨x, h1, h2, h3, h4, h5, h6, e1, e2, e3, e4, e5, e6, -, h7⟩ := step_showdown h hn hrun hs hsh
  have e : SameTable x d' := ⟨e1, e2, e3, e4, e5, e6⟩
  refine ⟨x, showdown_paid h1 h2 h3 h4 (e.ranks hr) (e.clear hc) h5 h6, e, h1, h4, ?_⟩
  rcases h7 with ⟨er, h8, h9, -⟩ | ⟨obs, p, h8, h9, -⟩
  · exact .inl ⟨er, h8, h9⟩
  · exact .inr ⟨obs, p, h8, h9⟩

/-! ## instances for the examples -/

instance (d : Dealer) (s : Nat → Int) : Decidable (Ranks d s) := by unfold Ranks; infer_instance
instance (d : Dealer) : Decidable (AtShowdown d) := by unfold AtShowdown; infer_instance
instance (n : Nat) (act : Nat → Bool) (c : Nat → Int) : Decidable (FoldsCovered n act c) := by
  unfold FoldsCovered; infer_instance
instance (n : Nat) (act : Nat → Bool) (c s : Nat → Int) : Decidable (NoDrainedTie n act c s) := by
  have i1 : ∀ q, Decidable (∀ r < n, act r = true → s r < s q → c r < c q) := fun q => inferInstance
  have i2 : ∀ p, Decidable (∀ r < n, act r = true → r ≠ p → (s r < s p → c r < c p) ∧ (s r = s p → c r ≠ c p)) :=
    fun p => inferInstance
  unfold NoDrainedTie
  refine @Nat.decidableBallLT n _ fun p _ => @Nat.decidableBallLT n _ fun q _ => ?_
  infer_instance
instance (d : Dealer) (s : Nat → Int) : Decidable (ClearPot d s) :=
  decidable_of_iff (FoldsCovered d.cfg.numPlayers (inB d) (contribution d) ∧
    NoDrainedTie d.cfg.numPlayers (inB d) (contribution d) s) ⟨fun h => ⟨h.1, h.2⟩, fun h => ⟨h.folds, h.ties⟩⟩
instance (S : List Int) (c : Config) : Decidable (Covers S c) := by unfold Covers; infer_instance
instance (d : Dealer) (s : Nat → Int) : Decidable (NoTies d s) := by unfold NoTies; infer_instance
instance (c : Config) : Decidable (CloseAntes c) := by unfold CloseAntes; infer_instance
instance (d : Dealer) : Decidable (Running d) :=
  decidable_of_iff (d.action.isSome = true ∧ d.street < d.cfg.numStreets) (by unfold Running; rw [Option.isSome_iff_exists])

/-- tables with ties, other numbers of suits and ranks, other antes -/
def mixed (n suits ranks : Int) (antes blinds : List Int) (stack : Int) : DealerArgs :=
  { small n blinds stack with numSuits := suits, numRanks := ranks, antes := .list antes }

/-- the strengths in a list -/
def strength (l : List Int) (i : Nat) : Int := l.getD i 0

/-! ## C25 -/

/-- **C25**: at a showdown that completes, every hand has been ranked. -/
theorem C25_ranked (h : InHand S d) (hn : NonNegative S d.cfg) (hrun : Running d)
    (hs : d.step bet = (d', .ok (obs, pays, done))) (hsh : AtShowdown d') : ∃ s, Ranks d' s := by
  obtain ⟨x, h1, h2, -, -, h5, h6, e1, e2, e3, e4, e5, e6, -, h7⟩ := step_showdown h hn hrun hs hsh
  rcases h7 with ⟨er, -, h9, -⟩ | ⟨obs, p, h8, -⟩
  · simp at h9
  · rcases payouts_cases h8 with ⟨h9, -⟩ | ⟨-, -, q, hq, -⟩ | ⟨-, h9, -⟩
    · exact absurd h9 h5
    · obtain ⟨T, hT, -⟩ := evalRound_cases hq
      have := ranks_of_evalHands h2 hT
      refine ⟨fun i => T.getD i 0, ?_⟩
      unfold Ranks isIn at *
      rw [e1, e2, e5, e6]
      exact this
    · omega

/-- **C25** (part): if the pot is clear, every seat receives its share of every pot it wins, rounded down; one seat gets the
odd chips on top. The rounded shares differ from the exact ones by less than the odd chips. -/
theorem C25_shares_partial (h : InHand S d) (hn : NonNegative S d.cfg) (hrun : Running d)
    (hs : d.step bet = (d', .ok (obs, pays, done))) (hsh : AtShowdown d') (hr : Ranks d' s) (hc : ClearPot d' s) :
    ∃ k < d'.cfg.numPlayers, ∀ j < d'.cfg.numPlayers,
      received d' pays j = dueAt d' s j + (if k = j then oddAt d' s else 0) ∧
      (dueAt d' s j : Rat) ≤ fairShare d'.cfg.numPlayers (inB d') (contribution d') s j ∧
      fairShare d'.cfg.numPlayers (inB d') (contribution d') s j ≤ dueAt d' s j + oddAt d' s := by
  obtain ⟨x, hp, e, hd, -, h7⟩ := step_paid h hn hrun hs hsh hr hc
  have htwo := hd.two
  rcases h7 with ⟨er, -, h9⟩ | ⟨obs', p', h8, h9⟩
  · simp at h9
  simp only [Except.ok.injEq, Prod.mk.injEq] at h9
  obtain ⟨rfl, rfl, rfl⟩ := h9
  have fair : ∀ j, (dueAt d' s j : Rat) ≤ fairShare d'.cfg.numPlayers (inB d') (contribution d') s j ∧
      fairShare d'.cfg.numPlayers (inB d') (contribution d') s j ≤ dueAt d' s j + oddAt d' s :=
    fun j => ⟨due_le_fair j, fair_le_due_odd j⟩
  rw [e.cfg] at fair ⊢
  cases hp with
  | even p h1 h0 h2 =>
    rw [h8] at h1
    obtain rfl : pays = p := by simpa using h1
    refine ⟨0, by omega, fun j hj => ⟨?_, fair j⟩⟩
    rw [e.odd] at h0
    rw [← e.received, h2 j hj, e.due, h0]
    simp
  | odd p k h1 h0 hk hkn hw hf h2 =>
    rw [h8] at h1
    obtain rfl : pays = p := by simpa using h1
    refine ⟨k, by omega, fun j hj => ⟨?_, fair j⟩⟩
    rw [← e.received, h2 j hj, e.due, e.odd]
  | raises h1 h0 hf =>
    rw [h8] at h1; simp at h1

/-- **C25** (part): if the pot is clear and there are no odd chips, every seat receives exactly its share of every
layer of which it is a winner. -/
theorem C25_exact_partial (h : InHand S d) (hn : NonNegative S d.cfg) (hrun : Running d)
    (hs : d.step bet = (d', .ok (obs, pays, done))) (hsh : AtShowdown d') (hr : Ranks d' s) (hc : ClearPot d' s)
    (h0 : oddAt d' s = 0) {j : Nat} (hj : j < d'.cfg.numPlayers) :
    (received d' pays j : Rat) = fairShare d'.cfg.numPlayers (inB d') (contribution d') s j := by
  obtain ⟨k, -, h1⟩ := C25_shares_partial h hn hrun hs hsh hr hc
  obtain ⟨h2, h3, h4⟩ := h1 j hj
  rw [h0] at h2 h4
  simp only [ite_self, add_zero] at h2
  rw [h2]
  simp only [Int.cast_zero, add_zero] at h4
  exact le_antisymm h3 h4

/-- with two players there are no odd chips -/
theorem odd_two {n : Nat} {act : Nat → Bool} {c : Nat → Int} (hn : n ≤ 2) (hf : FoldsCovered n act c) : Spec.odd n act c s = 0 := by
  unfold Spec.odd
  apply Finset.sum_eq_zero
  intro W _
  apply Int.emod_eq_zero_of_dvd
  unfold potOf
  apply Finset.dvd_sum
  intro t _
  split
  · next hW =>
    have h1 := card_winners_le (n := n) (act := act) (c := c) (s := s) t
    rw [hW] at h1
    have h2 : layer n c t ≤ 2 := by
      unfold layer
      have := Finset.card_filter_le (Finset.range n) fun i => (t : Int) < c i
      rw [Finset.card_range] at this
      omega
    by_cases h0 : layer n c t = 0
    · rw [h0]; exact dvd_zero _
    · have h3 := Finset.card_pos.2 (winners_nonempty (s := s) hf h0)
      rw [hW] at h3
      have h4 : (W.card : Int) = 1 ∨ (W.card : Int) = layer n c t := by omega
      rcases h4 with h4 | h4
      · rw [h4]; exact one_dvd _
      · rw [h4]
  · exact dvd_zero _

/-- A pot is clear if nobody who folded put in more than everybody else and no two of the hands are equal. -/
theorem clear_of_distinct (hf : FoldsCovered d.cfg.numPlayers (inB d) (contribution d))
    (h : NoTies d s) : ClearPot d s := by
  refine ⟨hf, ?_⟩
  intro p hp q hq hpa hqa hs hc
  have := h p hp q hq hpa hqa hs
  subst this
  omega

/-- A pot is clear if all who are in put in the same and nobody who folded put in more. -/
theorem clear_of_equal {b : Int} (hf : ∀ i < d.cfg.numPlayers, contribution d i ≤ b) (h2 : 1 ≤ numIn d)
    (hlen : d.active.length = d.cfg.numPlayers)
    (h : ∀ i < d.cfg.numPlayers, isIn d i → contribution d i = b) : ClearPot d s := by
  refine ⟨?_, ?_⟩
  · intro i hi _
    unfold numIn at h2
    have : true ∈ d.active := List.count_pos_iff.1 h2
    obtain ⟨j, hj, e⟩ := (mem_getD false).1 this
    rw [hlen] at hj
    exact ⟨j, hj, e, by rw [h j hj e]; exact hf i hi⟩
  · intro p hp q hq hpa hqa hs hc
    rw [h p hp hpa, h q hq hqa] at hc
    omega

/-- A pot is clear if only two are in, both put something in, and nobody who folded put in more. -/
theorem clear_of_two {p q : Nat} (hf : FoldsCovered d.cfg.numPlayers (inB d) (contribution d))
    (h : ∀ i < d.cfg.numPlayers, isIn d i → (i = p ∨ i = q) ∧ 0 < contribution d i) : ClearPot d s := by
  refine ⟨hf, ?_⟩
  intro i hi j hj hia hja hs hc _
  have h1 := h i hi hia
  have h2 := h j hj hja
  refine ⟨h1.2, fun r hr hra hne => ?_⟩
  have h3 := h r hr hra
  have hij : i ≠ j := by rintro rfl; omega
  have : r = j := by omega
  subst this
  omega

/-- **C25**, complete for two players: if both have put something in, the showdown never fails, at any position of the button, and both
receive exactly their share of every layer they win. -/
theorem C25_heads_up {res : Except Err StepOut} (h : InHand S d) (hn : NonNegative S d.cfg) (hrun : Running d)
    (hs : d.step bet = (d', res)) (hsh : AtShowdown d') (hr : Ranks d' s) (h2 : d'.cfg.numPlayers = 2)
    (hpos : ∀ i < 2, 0 < contribution d' i) :
    ∃ obs pays done, res = .ok (obs, pays, done) ∧ ∀ j < 2,
      (received d' pays j : Rat) = fairShare 2 (inB d') (contribution d') s j := by
  obtain ⟨x, hd, -, -, -, -, -, e1, e2, e3, e4, e5, e6, -⟩ := step_showdown h hn hrun hs hsh
  have hlen : d'.active.length = 2 := by rw [e2, hd.active, ← e1, h2]
  have hall : ∀ i < 2, inB d' i = true := by
    intro i hi
    have h3 : d'.active.count true = d'.active.length := by
      have h4 := hsh.2
      have h5 := List.count_le_length (a := true) (l := d'.active)
      unfold numIn at h4
      omega
    unfold inB
    have h6 := List.count_eq_length.1 h3
    exact (h6 _ ((mem_getD false).2 ⟨i, by omega, rfl⟩)).symm
  have hf : FoldsCovered d'.cfg.numPlayers (inB d') (contribution d') := by
    intro i hi ho
    rw [hall i (by omega)] at ho
    simp at ho
  have hc : ClearPot d' s := clear_of_two (p := 0) (q := 1) hf fun i hi _ => ⟨by omega, hpos i (by omega)⟩
  have h0 : oddAt d' s = 0 := odd_two (by omega) hf
  obtain ⟨x, hp, e, hd, -, h7⟩ := step_paid h hn hrun hs hsh hr hc
  cases hp with
  | even p h1 h3 h4 =>
    rcases h7 with ⟨er, h8, -⟩ | ⟨obs', p', h8, h9⟩
    · rw [h1] at h8; simp at h8
    · subst h9
      refine ⟨obs', p', x.done, rfl, fun j hj => ?_⟩
      have := C25_exact_partial h hn hrun hs hsh hr hc h0 (j := j) (by omega)
      rwa [h2] at this
  | odd p k h1 h3 => rw [e.odd] at h3; exact absurd h0 h3
  | raises h1 h3 hf => rw [e.odd] at h3; exact absurd h0 h3

/-- **C25**: at tables whose antes differ by at most one chip and where nobody has too few chips for blind and ante, the part of `ClearPot` about
folded players always holds. -/
theorem C25_folds_covered (h : InHand S d) (hn : NonNegative S d.cfg) (hcov : Covers S d.cfg) (he : CloseAntes d.cfg) :
    FoldsCovered d.cfg.numPlayers (inB d) (contribution d) := covered_folds h hn hcov he

/-- **C25** (part): at such tables, a showdown between different hands pays every player exactly the layers they win. -/
theorem C25_distinct_partial {res : Except Err StepOut} (h : InHand S d) (hn : NonNegative S d.cfg) (hcov : Covers S d.cfg)
    (he : CloseAntes d.cfg) (hrun : Running d) (hs : d.step bet = (d', res)) (hsh : AtShowdown d') (hr : Ranks d' s)
    (hdist : NoTies d' s) :
    ∃ obs pays done, res = .ok (obs, pays, done) ∧ ∀ j < d'.cfg.numPlayers,
      (received d' pays j : Rat) = fairShare d'.cfg.numPlayers (inB d') (contribution d') s j := by
  have hin : InHand S d' := by have := InHand.step bet h; rwa [hs] at this
  have hcfg : d'.cfg = d.cfg := by have := step_cfg d bet; rwa [hs] at this
  have hf := C25_folds_covered hin (by rw [hcfg]; exact hn) (by rw [hcfg]; exact hcov) (by rw [hcfg]; exact he)
  have hc := clear_of_distinct hf hdist
  have h0 : oddAt d' s = 0 := by
    by_contra h0
    obtain ⟨i, j, t, hij, hi, hj⟩ := two_winners hf h0
    apply hij
    unfold winners at hi hj
    rw [Finset.mem_filter, Finset.mem_range] at hi hj
    have h1 := hi.2.2.2 j hj.1 hj.2.1 hj.2.2.1
    have h2 := hj.2.2.2 i hi.1 hi.2.1 hi.2.2.1
    exact hdist i hi.1 j hj.1 hi.2.1 hj.2.1 (by omega)
  obtain ⟨x, hp, e, hd, -, h7⟩ := step_paid h hn hrun hs hsh hr hc
  cases hp with
  | even p h1 h3 h4 =>
    rcases h7 with ⟨er, h8, -⟩ | ⟨obs', p', h8, h9⟩
    · rw [h1] at h8; simp at h8
    · subst h9
      exact ⟨obs', p', x.done, rfl, fun j hj => C25_exact_partial h hn hrun hs hsh hr hc h0 hj⟩
  | odd p k h1 h3 => rw [e.odd] at h3; exact absurd h0 h3
  | raises h1 h3 hf => rw [e.odd] at h3; exact absurd h0 h3

/-- **C25 is false in general**: seats 0 and 1 are all in with 8 chips, seat 2 put in 14, and all have the same hand. The 6 chips nobody matched
belong to seat 2 (its share is 14), but it gets only 11: seat 1 receives 3 of them. -/
theorem C25_false : ∃ S d d' out, InHand S d ∧ Reachable d ∧ d.step (.fin 6) = (d', .ok out) ∧ NonNegative S d.cfg ∧
    Covers S d.cfg ∧ CloseAntes d.cfg ∧ Running d ∧ AtShowdown d' ∧ Ranks d' (fun _ => 1) ∧ oddAt d' (fun _ => 1) = 0 ∧
    d'.potCommits = [8, 8, 14] ∧ received d' out.2.1 2 = 11 ∧ received d' out.2.1 1 = 11 ∧
    dueAt d' (fun _ => 1) 2 = 14 ∧ dueAt d' (fun _ => 1) 1 = 8 :=
  step_exists (ties 3 [1, 2, 0] 10) [.bet 2, .bet 1, .bet 4, .bet (-1), .bet (-1), .deal, .bet 8, .bet 13] (.fin 6)
    (by decide +kernel)

/-- the hypotheses of `C25_shares_partial`, `C25_exact_partial` and `C25_distinct_partial`: three players all in with different stacks, each wins one
of the three layers -/
example : ∃ S d d' out, InHand S d ∧ Reachable d ∧ d.step (.fin 60) = (d', .ok out) ∧ NonNegative S d.cfg ∧ Covers S d.cfg ∧
    CloseAntes d.cfg ∧ Running d ∧ AtShowdown d' ∧ Ranks d' (strength [5, 4, 3]) ∧ ClearPot d' (strength [5, 4, 3]) ∧
    oddAt d' (strength [5, 4, 3]) = 0 ∧ d'.potCommits = [62, 20, 8] ∧ out.2.1 = [-20, 4, 16] ∧
    NoTies d' (strength [5, 4, 3]) :=
  step_exists (small 3 [1, 2, 0] 30)
    [.bet 10, .bet 9, .bet 20, .bet 20, .bet (-1), .bet (-1), .deal, .bet 20, .bet 7] (.fin 60) (by decide +kernel)

/-- the hypotheses of `C25_heads_up` -/
example : ∃ S d d' out, InHand S d ∧ Reachable d ∧ d.step (.fin 5) = (d', .ok out) ∧ NonNegative S d.cfg ∧ Running d ∧
    AtShowdown d' ∧ Ranks d' (fun _ => 1) ∧ d'.cfg.numPlayers = 2 ∧ (∀ i < 2, 0 < contribution d' i) ∧ out.2.1 = [0, 0] :=
  step_exists (ties 2 [1, 2] 30) [.bet 1, .bet 0, .bet 5] (.fin 5) (by decide +kernel)

/-- a tie with different contributions: seats 0 and 1 tie, all in with 8 and 14, and get their shares -/
example : ∃ S d d' out, InHand S d ∧ Reachable d ∧ d.step (.fin (-1)) = (d', .ok out) ∧ NonNegative S d.cfg ∧ Covers S d.cfg ∧
    CloseAntes d.cfg ∧ Running d ∧ AtShowdown d' ∧ Ranks d' (fun _ => 1) ∧ ClearPot d' (fun _ => 1) ∧ ¬ isIn d' 0 ∧
    d'.potCommits = [2, 8, 14] ∧ out.2.1 = [-2, 1, 1] :=
  step_exists (ties 3 [1, 2, 0] 10) [.bet 2, .bet 1, .bet 4, .bet (-1), .bet (-1), .deal, .bet 8, .bet 13] (.fin (-1))
    (by decide +kernel)

/-! ## C24 -/

/-- **C24** (part): if the pot is clear, nobody receives more than all the others put in against their own chips; the odd chips, which
go to one seat, apart. -/
theorem C24_side_pots_partial (h : InHand S d) (hn : NonNegative S d.cfg) (hrun : Running d)
    (hs : d.step bet = (d', .ok (obs, pays, done))) (hsh : AtShowdown d') (hr : Ranks d' s) (hc : ClearPot d' s) :
    ∃ k < d'.cfg.numPlayers, ∀ j < d'.cfg.numPlayers, received d' pays j ≤
      (∑ i ∈ Finset.range d'.cfg.numPlayers, min (contribution d' i) (contribution d' j)) + if k = j then oddAt d' s else 0 := by
  obtain ⟨x, -, e, hd, hpos, -⟩ := step_paid h hn hrun hs hsh hr hc
  obtain ⟨k, hk, h1⟩ := C25_shares_partial h hn hrun hs hsh hr hc
  refine ⟨k, hk, fun j hj => ?_⟩
  obtain ⟨h2, h3, -⟩ := h1 j hj
  rw [h2]
  have hpos' : ∀ i < d'.cfg.numPlayers, 0 ≤ contribution d' i := by
    intro i hi
    have := hpos i (by rw [← e.cfg]; exact hi)
    unfold contribution at *
    rwa [e.potCommits]
  have h4 := le_trans h3 (fair_le_matched (act := inB d') (s := s) hpos' hj)
  have h5 : dueAt d' s j ≤ ∑ i ∈ Finset.range d'.cfg.numPlayers, min (contribution d' i) (contribution d' j) := by
    exact_mod_cast h4
  omega

/-- **C24 is false in general**: seat 0 is all in with 2 chips, so it can win 8 at most. It receives 32. (Seat 3 has the best hand and is all in with 50,
the other three tie.) -/
theorem C24_false : ∃ S d d' out, InHand S d ∧ Reachable d ∧ d.step (.fin 48) = (d', .ok out) ∧ NonNegative S d.cfg ∧
    Covers S d.cfg ∧ CloseAntes d.cfg ∧ Running d ∧ AtShowdown d' ∧ Ranks d' (strength [1, 1, 1, 0]) ∧
    oddAt d' (strength [1, 1, 1, 0]) = 0 ∧ d'.potCommits = [2, 98, 98, 50] ∧ received d' out.2.1 0 = 32 ∧
    ∑ i ∈ Finset.range d'.cfg.numPlayers, min (contribution d' i) (contribution d' 0) = 8 :=
  step_exists (mixed 4 3 2 [0, 0, 0, 0] [1, 2, 0, 0] 100)
    [.bet 50, .bet 98, .bet 99, .bet (-1), .bet (-1), .bet (-1), .deal, .bet 2, .bet 98, .bet 97] (.fin 48) (by decide +kernel)

/-- the hypotheses of `C24_side_pots_partial`: seat 2 is all in with 8 and wins 24, the most it can -/
example : ∃ S d d' out, InHand S d ∧ Reachable d ∧ d.step (.fin 60) = (d', .ok out) ∧ NonNegative S d.cfg ∧ Running d ∧
    AtShowdown d' ∧ Ranks d' (strength [5, 4, 3]) ∧ ClearPot d' (strength [5, 4, 3]) ∧ received d' out.2.1 2 = 24 ∧
    ∑ i ∈ Finset.range d'.cfg.numPlayers, min (contribution d' i) (contribution d' 2) = 24 :=
  step_exists (small 3 [1, 2, 0] 30)
    [.bet 10, .bet 9, .bet 20, .bet 20, .bet (-1), .bet (-1), .deal, .bet 20, .bet 7] (.fin 60) (by decide +kernel)

/-! ## C26 -/

/-- folded players get no share -/
theorem folded_base {n : Nat} {worst : Int} {C T : List Int} {act : Nat → Bool} (D : Deal n worst C T act)
    (hcov : FoldsCovered n act (fun i => C.getD i 0)) {j : Nat} (hj : j < n) (ha : act j = false) :
    (baseList n worst (handList C T)).getD j 0 = 0 := by
  have f := showdown_facts (worst := worst) D.len D.clen D.pos
  rw [f.base j hj]
  apply List.sum_eq_zero
  intro y hy
  obtain ⟨i, hi, rfl⟩ := List.mem_map.1 hy
  rw [List.mem_range] at hi
  have hi' : i < (handList C T).length := by rw [handList_length, D.len]; exact hi
  split
  · next hm =>
    by_cases hw : wAt (handList C T) i = 0
    · rw [hw]; simp
    · exfalso
      have h1 := active_at D hcov hi' hw
      obtain ⟨i1, i2, -⟩ := hand_at D hi'
      have h2 := D.better _ i1 h1
      obtain ⟨l, hl, rfl, h3⟩ := (mem_eAt hi' j).1 hm
      obtain ⟨l1, l2, -⟩ := hand_at D hl
      have h4 := D.folded _ l1 ha
      split at h3
      · omega
      · omega
  · rfl

/-- **C26**: if the hand ends without a showdown, everybody who folded loses what they put in. -/
theorem C26_no_showdown (h : InHand S d) (ha : d.action ≠ none) (hs : d.step bet = (d', .ok (obs, pays, done)))
    (he : d'.action = none) (hsh : ¬ AtShowdown d') {j : Nat} (hj : j < d'.cfg.numPlayers) (hout : ¬ isIn d' j) :
    pays.getD j 0 = - contribution d' j := by
  obtain ⟨a, ha⟩ := Option.ne_none_iff_exists'.1 ha
  cases step_cases h ha bet with
  | refused e h1 => rw [h1] at hs; simp at hs
  | stuck b c lo hi e x hb hbs hx hlx hp h1 => rw [h1] at hs; simp at hs
  | goesOn b c lo hi p x obs hb hbs hx hlx hp hd ho h1 =>
    rw [h1] at hs
    obtain ⟨rfl, -⟩ := Prod.mk.inj hs
    obtain ⟨a', h2, -⟩ := hlx.action
    rw [he] at h2; simp at h2
  | ended b c lo hi p x obs hb hbs hx hlx hp hd ho h1 =>
    rw [h1] at hs
    simp only [Prod.mk.injEq, Except.ok.injEq] at hs
    obtain ⟨rfl, rfl, rfl, rfl⟩ := hs
    have hcl := hlx.seated.potCommits
    have hal := hlx.seated.active
    have hjn : j < x.cfg.numPlayers := hj
    have hout' : x.active.getD j false = false := by
      have : ¬ x.active.getD j false = true := hout
      simpa using this
    have hlost : (lostList x).getD j 0 = - contribution x j := by
      unfold lostList
      rw [getD_zipWith _ _ _ _ 0 false _ (by omega) (by omega), hout']
      simp [contribution]
    show p.getD j 0 = - contribution x j
    rcases payouts_cases hp with ⟨-, rfl⟩ | ⟨h2, h3, -⟩ | ⟨-, -, rfl⟩
    · rw [getD_zipWith _ _ _ _ 0 0 _ (by simp [lostList, hcl, hal]; omega) (by simp [hcl, hal]; omega), hlost,
        getD_zipWith _ _ _ _ false 0 _ (by omega) (by omega), hout']
      simp
    · exfalso
      apply hsh
      refine ⟨h3, ?_⟩
      have := hlx.one
      show 2 ≤ x.active.count true
      unfold countTrue at this h2
      omega
    · exact hlost

/-- **C26** (part): at a showdown with the button at seat 0 where nobody who folded put in more than everybody else, everybody who
folded loses what they put in. -/
theorem C26_showdown_partial (h : InHand S d) (hn : NonNegative S d.cfg) (hrun : Running d)
    (hs : d.step bet = (d', .ok (obs, pays, done))) (hsh : AtShowdown d')
    (hc : FoldsCovered d'.cfg.numPlayers (inB d') (contribution d')) (hb : d'.button = 0)
    {j : Nat} (hj : j < d'.cfg.numPlayers) (hout : ¬ isIn d' j) : pays.getD j 0 = - contribution d' j := by
  obtain ⟨s, hr⟩ := C25_ranked h hn hrun hs hsh
  obtain ⟨x, hd, h2, h3, h4, h5, h6, e1, e2, e3, e4, e5, e6, -, h7⟩ := step_showdown h hn hrun hs hsh
  have e : SameTable x d' := ⟨e1, e2, e3, e4, e5, e6⟩
  rcases h7 with ⟨er, -, h9, -⟩ | ⟨obs', p', h8, h9, -⟩
  · simp at h9
  simp only [Except.ok.injEq, Prod.mk.injEq] at h9
  obtain ⟨rfl, rfl, rfl⟩ := h9
  rcases payouts_cases h8 with ⟨h9, -⟩ | ⟨-, -, q, hq, rfl⟩ | ⟨-, h9, -⟩
  · exact absurd h9 h5
  · obtain ⟨T, hT1, hT2, hT3⟩ := evalHands_of_ranks h2 (e.ranks hr)
    have D := deal_of hd h4 (e.ranks hr) hT2 hT3
    rw [e1] at hj
    have hout' : inB x j = false := by
      unfold isIn at hout
      rw [e2] at hout
      unfold inB
      simpa using hout
    have hcov : FoldsCovered x.cfg.numPlayers (inB x) (fun i => x.potCommits.getD i 0) := by
      unfold FoldsCovered inB contribution at *
      rw [e1, e2, e3] at hc
      exact hc
    have hb0 := folded_base D hcov hj hout'
    have f := showdown_facts (worst := x.worstHand) hT2 hd.potCommits D.pos
    unfold Dealer.evalRound at hq
    rw [hT1, h3] at hq
    simp only [] at hq
    rw [potPayouts_eq _ _ _ _ _ (by rw [hT2, hd.potCommits]) D.pos] at hq
    have hql := f.length
    have key : q.length = x.cfg.numPlayers ∧ q.getD j 0 = 0 := by
      split at hq
      · rcases remainderLoop_spec (button := x.button) (r := oddChips x.cfg.numPlayers x.worstHand (handList x.potCommits T))
          x.cfg.numPlayers 1 _ f.length (le_refl _) (by omega) with ⟨k, k1, k2, k3, k4, k5⟩ | ⟨k1, k2 | ⟨k2, k3⟩⟩
        · rw [k5] at hq
          simp only [Except.ok.injEq] at hq
          subst hq
          refine ⟨by rw [List.length_modify, hql], ?_⟩
          rw [getD_modify _ _ _ _ _ (by rw [hql]; exact hj), hb0, if_neg]
          rintro rfl
          rw [← e4, hb, Nat.zero_mod, Nat.add_zero] at k3
          exact k3 hb0
        · rw [k2] at hq; simp at hq
        · have := hd.two; omega
      · simp only [Except.ok.injEq] at hq
        subst hq
        exact ⟨hql, hb0⟩
    rw [getD_zipWith _ _ _ _ 0 0 _ (by omega) (by rw [hd.potCommits]; exact hj), key.2]
    unfold contribution
    rw [e3]; ring
  · omega

/-- without ties there are no odd chips -/
theorem odd_distinct {n : Nat} {act : Nat → Bool} {c : Nat → Int} (hf : FoldsCovered n act c)
    (h : ∀ i < n, ∀ j < n, act i = true → act j = true → s i = s j → i = j) : Spec.odd n act c s = 0 := by
  by_contra h0
  obtain ⟨i, j, t, hij, hi, hj⟩ := two_winners hf h0
  apply hij
  unfold winners at hi hj
  rw [Finset.mem_filter, Finset.mem_range] at hi hj
  have h1 := hi.2.2.2 j hj.1 hj.2.1 hj.2.2.1
  have h2 := hj.2.2.2 i hi.1 hi.2.1 hi.2.2.1
  exact h i hi.1 j hj.1 hi.2.1 hj.2.1 (by omega)

theorem due_folded {n : Nat} {act : Nat → Bool} {c : Nat → Int} (hc : ∀ i < n, 0 ≤ c i) {j : Nat} (ha : act j = false) :
    due n act c s j = 0 := by
  by_contra h0
  obtain ⟨t, ht⟩ := (due_pos_iff hc j).1 h0
  have := (winners_act ht).2
  rw [ha] at this
  simp at this

/-- **C26** (part): at a showdown without ties where nobody who folded put in more than everybody else, everybody who
folded loses what they put in, wherever the button is. -/
theorem C26_no_ties_partial (h : InHand S d) (hn : NonNegative S d.cfg) (hrun : Running d)
    (hs : d.step bet = (d', .ok (obs, pays, done))) (hsh : AtShowdown d') (hr : Ranks d' s)
    (hc : FoldsCovered d'.cfg.numPlayers (inB d') (contribution d'))
    (hd : NoTies d' s)
    {j : Nat} (hj : j < d'.cfg.numPlayers) (hout : ¬ isIn d' j) : pays.getD j 0 = - contribution d' j := by
  have hcl := clear_of_distinct hc hd
  obtain ⟨x, -, e, -, hpos, -⟩ := step_paid h hn hrun hs hsh hr hcl
  obtain ⟨k, -, h1⟩ := C25_shares_partial h hn hrun hs hsh hr hcl
  have h2 := (h1 j hj).1
  have hpos' : ∀ i < d'.cfg.numPlayers, 0 ≤ contribution d' i := by
    intro i hi
    have := hpos i (by rw [← e.cfg]; exact hi)
    unfold contribution at *
    rwa [e.potCommits]
  rw [show oddAt d' s = 0 from odd_distinct hc hd, show dueAt d' s j = 0 from due_folded hpos' (by
    unfold inB
    unfold isIn at hout
    simpa using hout)] at h2
  unfold received at h2
  simp only [ite_self, add_zero] at h2
  omega

/-- **C26** (part): the same at all tables with equal antes where nobody has too few chips for blind and ante, if the button is at seat 0 or
no two hands tie. -/
theorem C26_standard_partial (h : InHand S d) (hn : NonNegative S d.cfg) (hcov : Covers S d.cfg) (he : CloseAntes d.cfg)
    (hrun : Running d) (hs : d.step bet = (d', .ok (obs, pays, done))) (hsh : AtShowdown d') (hr : Ranks d' s)
    (hc : d'.button = 0 ∨
      NoTies d' s)
    {j : Nat} (hj : j < d'.cfg.numPlayers) (hout : ¬ isIn d' j) : pays.getD j 0 = - contribution d' j := by
  have hin : InHand S d' := by have := InHand.step bet h; rwa [hs] at this
  have hcfg : d'.cfg = d.cfg := by have := step_cfg d bet; rwa [hs] at this
  have hf := C25_folds_covered hin (by rw [hcfg]; exact hn) (by rw [hcfg]; exact hcov) (by rw [hcfg]; exact he)
  rcases hc with hb | hdist
  · exact C26_showdown_partial h hn hrun hs hsh hf hb hj hout
  · exact C26_no_ties_partial h hn hrun hs hsh hr hf hdist hj hout

/-- **C26 is false in general**: seat 2 folded, the other three tie, the button is at seat 1, and seat 2 gets the odd chip. -/
theorem C26_false : ∃ S d d' out, InHand S d ∧ Reachable d ∧ d.step (.fin 0) = (d', .ok out) ∧ NonNegative S d.cfg ∧
    Covers S d.cfg ∧ CloseAntes d.cfg ∧ Running d ∧ AtShowdown d' ∧ ¬ isIn d' 2 ∧ contribution d' 2 = 1 ∧ out.2.1.getD 2 0 = 0 :=
  step_exists (ties 4 [1, 2, 0, 0] 10)
    [.bet (-1), .bet (-1), .bet (-1), .deal, .bet 2, .bet 2, .bet (-1), .bet 0, .bet 0, .bet 0] (.fin 0) (by decide +kernel)

/-- **C26 is also false** if a player who folded paid a larger ante than everybody else: seat 0 folded after paying 100 and gets 46 back. -/
theorem C26_false_antes : ∃ S d d' out, InHand S d ∧ Reachable d ∧ d.step (.fin 0) = (d', .ok out) ∧ NonNegative S d.cfg ∧
    Covers S d.cfg ∧ Running d ∧ AtShowdown d' ∧ d'.button = 0 ∧ ¬ isIn d' 0 ∧ contribution d' 0 = 100 ∧
    out.2.1.getD 0 0 = -54 :=
  step_exists (mixed 3 1 6 [5, 5, 100] [0, 2, 0] 200) [.bet (-1), .bet 2, .bet 0, .bet 0] (.fin 0) (by decide +kernel)

/-- the hypotheses of `C26_no_showdown` -/
example : ∃ S d d' out, InHand S d ∧ Reachable d ∧ d.step (.fin (-1)) = (d', .ok out) ∧ d.action ≠ none ∧ d'.action = none ∧
    ¬ AtShowdown d' ∧ ¬ isIn d' 2 ∧ out.2.1 = [3, -1, -2] :=
  step_exists (small 3 [1, 2, 0] 30) [.bet 20, .bet (-1)] (.fin (-1)) (by decide +kernel)

/-- the hypotheses of `C26_showdown_partial`, `C26_no_ties_partial` and `C26_standard_partial` -/
example : ∃ S d d' out, InHand S d ∧ Reachable d ∧ d.step (.fin 0) = (d', .ok out) ∧ NonNegative S d.cfg ∧ Covers S d.cfg ∧
    CloseAntes d.cfg ∧ Running d ∧ AtShowdown d' ∧ Ranks d' (strength [5, 4, 3]) ∧
    FoldsCovered d'.cfg.numPlayers (inB d') (contribution d') ∧ d'.button = 0 ∧
    NoTies d' (strength [5, 4, 3]) ∧
    ¬ isIn d' 1 ∧ out.2.1 = [-3, -2, 5] :=
  step_exists (mixed 3 1 6 [1, 1, 1] [1, 2, 0] 30) [.bet 2, .bet (-1), .bet 0, .bet 0] (.fin 0) (by decide +kernel)

/-! ## C27 -/

/-- **C27**: what happens with the odd chips of a clear pot, whatever the position of the button: with `w` the first winner
whose seat number is above the button's, they go to seat `w - button`. If there is no such winner the step
raises `IndexError`. -/
theorem C27_exact {res : Except Err StepOut} (h : InHand S d) (hn : NonNegative S d.cfg) (hrun : Running d)
    (hs : d.step bet = (d', res)) (hsh : AtShowdown d') (hr : Ranks d' s) (hc : ClearPot d' s) (h0 : oddAt d' s ≠ 0) :
    (res = .error .indexError ∧ ∀ w, d'.button < w → ¬ Wins d' s w) ∨
    (∃ obs pays done w, res = .ok (obs, pays, done) ∧ d'.button < w ∧ Wins d' s w ∧
      (∀ v, d'.button < v → v < w → ¬ Wins d' s v) ∧
      ∀ j < d'.cfg.numPlayers, received d' pays j = dueAt d' s j + if w - d'.button = j then oddAt d' s else 0) := by
  obtain ⟨x, hp, e, hd, hpos, h7⟩ := step_paid h hn hrun hs hsh hr hc
  have hpos' : ∀ i < d'.cfg.numPlayers, 0 ≤ contribution d' i := by
    intro i hi
    have := hpos i (by rw [← e.cfg]; exact hi)
    unfold contribution at *
    rwa [e.potCommits]
  have hwin : ∀ j, Wins d' s j ↔ dueAt d' s j ≠ 0 := fun j => (due_pos_iff hpos' j).symm
  have hlt : ∀ j, Wins d' s j → j < d'.cfg.numPlayers := fun j ⟨t, ht⟩ => (winners_act ht).1
  cases hp with
  | even p h1 h2 h3 => rw [e.odd] at h2; exact absurd h2 h0
  | odd p k h1 h2 hk hkn hw hf h3 =>
    right
    rcases h7 with ⟨er, h8, -⟩ | ⟨obs', p', h8, h9⟩
    · rw [h1] at h8; simp at h8
    · rw [h1] at h8
      obtain rfl : p = p' := by simpa using h8
      rw [e.due, ← e.button] at hw
      refine ⟨obs', p, x.done, d'.button + k, h9, by omega, (hwin _).2 hw, ?_, ?_⟩
      · intro v hv1 hv2
        rw [hwin, not_not]
        have := hf (v - x.button) (by rw [← e.button]; omega) (by rw [← e.button]; omega)
        rw [e.due, ← e.button, show d'.button + (v - d'.button) = v by omega] at this
        exact this
      · intro j hj
        rw [← e.received, h3 j (by rw [← e.cfg]; exact hj), e.due, e.odd, Nat.add_sub_cancel_left]
  | raises h1 h2 hf =>
    left
    rcases h7 with ⟨er, h8, h9⟩ | ⟨obs', p', h8, h9⟩
    · rw [h1] at h8
      obtain rfl : er = .indexError := by simpa using h8.symm
      refine ⟨h9, fun w hw hwi => ?_⟩
      have := hf w (by rw [← e.button]; exact hw) (by rw [← e.cfg]; exact hlt w hwi)
      rw [e.due] at this
      exact (hwin w).1 hwi this
    · rw [h1] at h8; simp at h8

/-- **C27** (part): with the button at seat 0 and a clear pot the showdown always completes, and the odd chips go to the first winner
clockwise from the button. -/
theorem C27_first_winner_partial {res : Except Err StepOut} (h : InHand S d) (hn : NonNegative S d.cfg) (hrun : Running d)
    (hs : d.step bet = (d', res)) (hsh : AtShowdown d') (hr : Ranks d' s) (hc : ClearPot d' s) (h0 : oddAt d' s ≠ 0)
    (hb : d'.button = 0) :
    ∃ obs pays done w, res = .ok (obs, pays, done) ∧ FirstAfter d'.cfg.numPlayers (Wins d' s) d'.button w ∧
      ∀ j < d'.cfg.numPlayers, received d' pays j = dueAt d' s j + if w = j then oddAt d' s else 0 := by
  have hlt : ∀ j, Wins d' s j → j < d'.cfg.numPlayers := fun j ⟨t, ht⟩ => (winners_act ht).1
  rcases C27_exact h hn hrun hs hsh hr hc h0 with ⟨-, h2⟩ | ⟨obs, pays, done, w, h1, h2, h3, h4, h5⟩
  · exfalso
    obtain ⟨i, j, t, hij, hi, hj⟩ := two_winners hc.folds h0
    have h3 := h2 i
    have h4 := h2 j
    rw [hb] at h3 h4
    by_cases hi0 : 0 < i
    · exact h3 hi0 ⟨t, hi⟩
    · exact h4 (by omega) ⟨t, hj⟩
  · refine ⟨obs, pays, done, w, h1, ⟨w, by omega, ?_, ?_, h3, ?_⟩, ?_⟩
    · have := hlt w h3; omega
    · rw [hb, Nat.zero_add, Nat.mod_eq_of_lt (hlt w h3)]
    · intro v hv1 hv2
      rw [hb, Nat.zero_add, Nat.mod_eq_of_lt (by have := hlt w h3; omega)]
      exact h4 v (by omega) hv2
    · intro j hj
      have := h5 j hj
      rwa [hb, Nat.sub_zero] at this

/-- **C27**: without odd chips a clear pot is paid out completely at every button position. -/
theorem C27_even {res : Except Err StepOut} (h : InHand S d) (hn : NonNegative S d.cfg) (hrun : Running d)
    (hs : d.step bet = (d', res)) (hsh : AtShowdown d') (hr : Ranks d' s) (hc : ClearPot d' s) (h0 : oddAt d' s = 0) :
    ∃ obs pays done, res = .ok (obs, pays, done) ∧ ∀ j < d'.cfg.numPlayers, received d' pays j = dueAt d' s j := by
  obtain ⟨x, hp, e, hd, hpos, h7⟩ := step_paid h hn hrun hs hsh hr hc
  cases hp with
  | even p h1 h2 h3 =>
    rcases h7 with ⟨er, h8, -⟩ | ⟨obs', p', h8, h9⟩
    · rw [h1] at h8; simp at h8
    · rw [h1] at h8
      obtain rfl : p = p' := by simpa using h8
      exact ⟨obs', p, x.done, h9, fun j hj => by
        rw [← e.received, h3 j (by rw [← e.cfg]; exact hj), e.due]⟩
  | odd p k h1 h2 => rw [e.odd] at h2; exact absurd h0 h2
  | raises h1 h2 hf => rw [e.odd] at h2; exact absurd h0 h2

/-- **C27 is false in general**: with the button at seat 1 the odd chip goes to seat 2, who folded and wins nothing. -/
theorem C27_false : ∃ S d d' out, InHand S d ∧ Reachable d ∧ d.step (.fin 0) = (d', .ok out) ∧ NonNegative S d.cfg ∧
    Covers S d.cfg ∧ CloseAntes d.cfg ∧ Running d ∧ AtShowdown d' ∧ Ranks d' (fun _ => 1) ∧ ClearPot d' (fun _ => 1) ∧
    d'.button = 1 ∧ oddAt d' (fun _ => 1) = 1 ∧ ¬ isIn d' 2 ∧ dueAt d' (fun _ => 1) 2 = 0 ∧ received d' out.2.1 2 = 1 :=
  step_exists (ties 4 [1, 2, 0, 0] 10)
    [.bet (-1), .bet (-1), .bet (-1), .deal, .bet 2, .bet 2, .bet (-1), .bet 0, .bet 0, .bet 0] (.fin 0) (by decide +kernel)

/-- **C27 is false in general**: with the button at seat 1 and seats 0 and 1 tied, the showdown raises `IndexError`. -/
theorem C27_false_raises : ∃ S d, InHand S d ∧ Reachable d ∧ NonNegative S d.cfg ∧ Covers S d.cfg ∧ CloseAntes d.cfg ∧ Running d ∧
    (d.step (.fin 0)).2 = .error .indexError ∧ AtShowdown (d.step (.fin 0)).1 ∧ Ranks (d.step (.fin 0)).1 (fun _ => 1) ∧
    ClearPot (d.step (.fin 0)).1 (fun _ => 1) ∧ oddAt (d.step (.fin 0)).1 (fun _ => 1) = 1 := by
  obtain ⟨S, d, h1, h2, h3, h4, h5, h6, h7, h8⟩ := hand_exists (ties 3 [1, 2, 0] 10)
    [.bet (-1), .bet (-1), .deal, .bet 2, .bet (-1), .bet 0, .bet 0]
    (P := fun S d => NonNegative S d.cfg ∧ Covers S d.cfg ∧ CloseAntes d.cfg ∧ Running d ∧
      (match (d.step (.fin 0)).2 with | .error .indexError => true | _ => false) = true ∧ AtShowdown (d.step (.fin 0)).1 ∧
      Ranks (d.step (.fin 0)).1 (fun _ => 1) ∧ ClearPot (d.step (.fin 0)).1 (fun _ => 1) ∧
      oddAt (d.step (.fin 0)).1 (fun _ => 1) = 1) (by decide +kernel)
  refine ⟨S, d, h1, h2, h3, h4, h5, h6, ?_, h8⟩
  split at h7
  · next h => exact h
  · simp at h7

/-- the hypotheses of `C27_exact` and `C27_first_winner_partial`: three of four tie for 7 chips -/
example : ∃ S d d' out, InHand S d ∧ Reachable d ∧ d.step (.fin 0) = (d', .ok out) ∧ NonNegative S d.cfg ∧ Running d ∧
    AtShowdown d' ∧ Ranks d' (fun _ => 1) ∧ ClearPot d' (fun _ => 1) ∧ oddAt d' (fun _ => 1) ≠ 0 ∧ d'.button = 0 ∧
    out.2.1 = [0, -1, 1, 0] :=
  step_exists (ties 4 [1, 2, 0, 0] 10) [.bet 2, .bet 2, .bet (-1), .bet 0, .bet 0, .bet 0] (.fin 0) (by decide +kernel)

/-- the hypotheses of `C27_even`, with the button at seat 1 -/
example : ∃ S d d' out, InHand S d ∧ Reachable d ∧ d.step (.fin 0) = (d', .ok out) ∧ NonNegative S d.cfg ∧ Running d ∧
    AtShowdown d' ∧ Ranks d' (fun _ => 1) ∧ ClearPot d' (fun _ => 1) ∧ oddAt d' (fun _ => 1) = 0 ∧ d'.button = 1 :=
  step_exists (ties 4 [1, 2, 0, 0] 10)
    [.bet (-1), .bet (-1), .bet (-1), .deal, .bet 2, .bet 2, .bet 1, .bet 0, .bet 0, .bet 0, .bet 0] (.fin 0) (by decide +kernel)

end Clubs

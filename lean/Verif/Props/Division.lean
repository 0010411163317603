import Verif.Lemmas.Division
import Verif.Lemmas.Better
import Verif.Props.NumpyShow

/-!
# The exact rule by which pots are divided (C25), the best hand (C96) and comparing two players (C97)
-/

namespace Clubs

open Spec Finset

/-! ## the rule, for the best hands -/

section rule

variable {n : Nat} {act : Nat → Bool} {c s : Nat → Int}

theorem reached_nonneg (i : Nat) : 0 ≤ reached n act c s i := by unfold reached; omega

theorem le_reached {i k : Nat} (hk : k < n) (h : Before act c s k i) : c k ≤ reached n act c s i := by
  have h1 : (c k).toNat ≤ ((range n).filter fun k => Before act c s k i).sup fun k => (c k).toNat :=
    Finset.le_sup (f := fun k => (c k).toNat) (by rw [mem_filter, mem_range]; exact ⟨hk, h⟩)
  have h2 := Int.self_le_toNat (c k)
  unfold reached
  omega

theorem reached_le {i : Nat} {m : Int} (hm : 0 ≤ m) (h : ∀ k < n, Before act c s k i → c k ≤ m) :
    reached n act c s i ≤ m := by
  have h1 : ((range n).filter fun k => Before act c s k i).sup (fun k => (c k).toNat) ≤ m.toNat := by
    apply Finset.sup_le
    intro k hk
    rw [mem_filter, mem_range] at hk
    have := h k hk.1 hk.2
    omega
  unfold reached
  omega

theorem piece_zero {i : Nat} (h : ¬ Served n act c s i) : piece n act c s i = 0 := by
  unfold Served at h
  unfold piece
  apply Finset.sum_eq_zero
  intro k _
  rw [max_eq_right (by omega), sub_self]

theorem piece_first {i : Nat} (hc : ∀ k < n, 0 ≤ c k) (hi : i < n) (h : ∀ k < n, ¬ Before act c s k i) :
    piece n act c s i = winnable n c i := by
  have h0 : reached n act c s i = 0 :=
    le_antisymm (reached_le (le_refl _) fun k hk hb => absurd hb (h k hk)) (reached_nonneg i)
  unfold piece winnable
  rw [h0]
  apply Finset.sum_congr rfl
  intro k hk
  have h1 := hc k (mem_range.1 hk)
  have h2 := hc i hi
  rw [max_eq_left h2, min_eq_right h1, sub_zero]

theorem piece_nonneg (i : Nat) : 0 ≤ piece n act c s i := by
  unfold piece
  apply Finset.sum_nonneg
  intro k _
  omega

/-- of players with equally good hands, all the best, who all put in the same: the first of them -/
theorem first_best {i : Nat} (hi : i < n) (ha : act i = true) (hb : ∀ k < n, act k = true → s i ≤ s k)
    (he : ∀ k < n, act k = true → s k = s i → c k = c i) :
    ∃ f < n, act f = true ∧ s f = s i ∧ c f = c i ∧ ∀ k < n, ¬ Before act c s k f := by
  have hex : ∃ f, f < n ∧ act f = true ∧ s f = s i := ⟨i, hi, ha, rfl⟩
  classical
  let f := Nat.find hex
  obtain ⟨f1, f2, f3⟩ : f < n ∧ act f = true ∧ s f = s i := Nat.find_spec hex
  refine ⟨f, f1, f2, f3, he f f1 f2 f3, ?_⟩
  rintro k hk (⟨h1, h2⟩ | ⟨⟨h1, h2⟩, h3⟩)
  · have := hb k hk h1
    have := h2 f2
    omega
  · rw [f2] at h1
    have h4 := h2 h1
    have h5 := he k hk h1 (by omega)
    have h6 := he f f1 f2 f3
    rcases h3 with h3 | ⟨-, h3⟩
    · omega
    · exact Nat.find_min hex h3 ⟨hk, h1, by omega⟩

/-- the shares of the best hands -/
theorem shares_best (hc : ∀ k < n, 0 ≤ c k) {i : Nat} (hi : i < n) (ha : act i = true)
    (hb : ∀ k < n, act k = true → s i ≤ s k) (he : ∀ k < n, act k = true → s k = s i → c k = c i) :
    winnable n c i / (((range n).filter fun k => act k = true ∧ s k = s i).card : Int) ≤ shares n act c s i ∧
    (FoldsCovered n act c →
      shares n act c s i = winnable n c i / (((range n).filter fun k => act k = true ∧ s k = s i).card : Int)) := by
  obtain ⟨f, f1, f2, f3, f4, f5⟩ := first_best hi ha hb he
  have hp : piece n act c s f = winnable n c i := by
    rw [piece_first hc f1 f5]; unfold winnable; rw [f4]
  have hsh : sharers n act c s f = (range n).filter fun k => act k = true ∧ s k = s i := by
    unfold sharers
    apply Finset.filter_congr
    intro k hk
    rw [if_pos f2, f3]
    constructor
    · rintro ⟨h1, h2, -⟩; exact ⟨h1, h2⟩
    · rintro ⟨h1, h2⟩; exact ⟨h1, h2, fun h => f5 k (mem_range.1 hk) h.1⟩
  have hmem : i ∈ sharers n act c s f := by
    rw [hsh, mem_filter, mem_range]; exact ⟨hi, ha, rfl⟩
  have hterm : (if i ∈ sharers n act c s f then piece n act c s f / ((sharers n act c s f).card : Int) else 0) =
      winnable n c i / (((range n).filter fun k => act k = true ∧ s k = s i).card : Int) := by
    rw [if_pos hmem, hp, hsh]
  constructor
  · rw [← hterm]
    unfold shares
    refine Finset.single_le_sum (f := fun k => if i ∈ sharers n act c s k then
      piece n act c s k / ((sharers n act c s k).card : Int) else 0) ?_ (mem_range.2 f1)
    intro k _
    split
    · exact Int.ediv_nonneg (piece_nonneg k) (by omega)
    · exact le_refl _
  · intro hf
    rw [← hterm]
    unfold shares
    apply Finset.sum_eq_single f
    · intro k hk hkf
      rw [mem_range] at hk
      by_cases hsv : Served n act c s k
      · rw [if_neg]
        intro hm
        unfold sharers at hm
        rw [mem_filter] at hm
        obtain ⟨-, hm⟩ := hm
        cases ak : act k
        · -- chips of those who folded are covered
          obtain ⟨q, q1, q2, q3⟩ := hf k hk ak
          have := le_reached (n := n) (c := c) (s := s) (i := k) q1 (.inl ⟨q2, by rw [ak]; simp⟩)
          unfold Served at hsv
          omega
        · rw [if_pos ak] at hm
          -- a tied player comes after the first one, and finds nothing
          have e1 := he k hk ak hm.2.1.symm
          have hbef : Before act c s f k := by
            refine .inr ⟨⟨by rw [f2, ak], fun _ => by rw [f3]; exact hm.2.1⟩, .inr ⟨by rw [f4, e1], ?_⟩⟩
            rcases Nat.lt_trichotomy f k with h | h | h
            · exact h
            · exact absurd h.symm hkf
            · exfalso
              refine f5 k hk (.inr ⟨⟨by rw [f2, ak], fun _ => ?_⟩, .inr ⟨by rw [f4, e1], h⟩⟩)
              rw [f3]; exact hm.2.1.symm
          have := le_reached (n := n) f1 hbef
          unfold Served at hsv
          omega
      · rw [piece_zero hsv, Int.zero_ediv, ite_self]
    · intro h
      exact absurd (mem_range.2 f1) h

/-- the player with the best hand who put in as much as everybody gets all -/
theorem shares_all (hc : ∀ k < n, 0 ≤ c k) {i : Nat} (hi : i < n) (ha : act i = true)
    (hb : ∀ k < n, act k = true → k ≠ i → s i < s k) (hm : ∀ k < n, c k ≤ c i) :
    left n act c s = 0 ∧ ∀ j < n, shares n act c s j = if j = i then ∑ k ∈ range n, c k else 0 := by
  have hfirst : ∀ k < n, ¬ Before act c s k i := by
    rintro k hk (⟨h1, h2⟩ | ⟨⟨h1, h2⟩, h3⟩)
    · have h4 := h2 ha
      have : k ≠ i := by rintro rfl; omega
      have := hb k hk h1 this
      omega
    · rw [ha] at h1
      have h4 := h2 h1
      have : k ≠ i := by rintro rfl; omega
      have := hb k hk h1 this
      omega
  have hpi : piece n act c s i = ∑ k ∈ range n, c k := by
    rw [piece_first hc hi hfirst]
    unfold winnable
    apply Finset.sum_congr rfl
    intro k hk
    exact min_eq_left (hm k (mem_range.1 hk))
  have hsi : sharers n act c s i = {i} := by
    unfold sharers
    ext k
    rw [mem_filter, mem_range, mem_singleton, if_pos ha]
    constructor
    · rintro ⟨h1, h2, h3, -⟩
      by_contra hk
      have := hb k h1 h2 hk
      omega
    · rintro rfl
      exact ⟨hi, ha, rfl, fun h => hfirst k hi h.1⟩
  have hpk : ∀ k < n, k ≠ i → piece n act c s k = 0 := by
    intro k hk hki
    apply piece_zero
    have hbef : Before act c s i k := .inl ⟨ha, fun h => hb k hk h hki⟩
    have h1 := le_reached (n := n) hi hbef
    have h2 := hm k hk
    unfold Served
    omega
  constructor
  · unfold left
    apply Finset.sum_eq_zero
    intro k hk
    by_cases hki : k = i
    · rw [hki, hsi, card_singleton, Nat.cast_one, Int.emod_one]
    · rw [hpk k (mem_range.1 hk) hki, Int.zero_emod]
  · intro j hj
    unfold shares
    rw [Finset.sum_eq_single i]
    · rw [hsi, hpi, card_singleton, Nat.cast_one, Int.ediv_one]
      simp only [mem_singleton]
    · intro k hk hki
      rw [hpk k (mem_range.1 hk) hki, Int.zero_ediv, ite_self]
    · intro h
      exact absurd (mem_range.2 hi) h

/-- of two players who are in, the one with at least as good a hand who put in at least as much is not due less -/
theorem due_compare {i j : Nat} (hi : i < n) (ai : act i = true) (hs : s i ≤ s j) (hcc : c j ≤ c i) :
    due n act c s j ≤ due n act c s i := by
  unfold due
  apply Finset.sum_le_sum
  intro W _
  by_cases hj : j ∈ W
  · rw [if_pos hj]
    by_cases hw : i ∈ W
    · rw [if_pos hw]
    · rw [if_neg hw]
      have : potOf n act c s W = 0 := by
        unfold potOf
        apply Finset.sum_eq_zero
        intro t _
        rw [if_neg]
        rintro rfl
        apply hw
        obtain ⟨j1, j2, j3, j4⟩ := mem_winners.1 hj
        exact mem_winners.2 ⟨hi, ai, by omega, fun k k1 k2 k3 => le_trans hs (j4 k k1 k2 k3)⟩
      rw [this, Int.zero_ediv]
  · rw [if_neg hj]
    split
    · refine Int.ediv_nonneg ?_ (by omega)
      unfold potOf
      apply Finset.sum_nonneg
      intro t _
      split
      · unfold layer; omega
      · exact le_refl _
    · exact le_refl _

/-- the layers up to the chips of player `j` -/
theorem layers_winnable (hc : ∀ i < n, 0 ≤ c i) {j : Nat} (hj : j < n) :
    ∑ t ∈ range (numLayers n c), (if (t : Int) < c j then layer n c t else 0) = winnable n c j := by
  have h2 : ∀ t : Nat, (if (t : Int) < c j then layer n c t else 0) =
      ∑ i ∈ range n, if (t : Int) < min (c i) (c j) then (1 : Int) else 0 := by
    intro t
    rw [layer_eq]
    split
    · next h =>
      apply Finset.sum_congr rfl
      intro i _
      by_cases h' : (t : Int) < c i
      · rw [if_pos h', if_pos (by omega)]
      · rw [if_neg h', if_neg (by omega)]
    · next h =>
      symm
      apply Finset.sum_eq_zero
      intro i _
      rw [if_neg (by omega)]
  simp only [h2]
  rw [Finset.sum_comm]
  unfold winnable
  apply Finset.sum_congr rfl
  intro i hi
  rw [Finset.mem_range] at hi
  have h3 : ((range (numLayers n c)).filter fun t : Nat => (t : Int) < min (c i) (c j)) = range (min (c i) (c j)).toNat := by
    ext t
    rw [Finset.mem_filter, Finset.mem_range, Finset.mem_range]
    constructor
    · omega
    · intro h
      exact ⟨lt_numLayers hc hi (by omega), by omega⟩
  rw [Finset.sum_ite, Finset.sum_const_zero, add_zero, Finset.sum_const, h3, Finset.card_range, nsmul_eq_mul, mul_one]
  have := hc i hi
  have := hc j hj
  omega

/-- what the best hands are due -/
theorem due_best (hc : ∀ k < n, 0 ≤ c k) {i : Nat} (hi : i < n) (ha : act i = true)
    (hb : ∀ k < n, act k = true → s i ≤ s k) (he : ∀ k < n, act k = true → s k = s i → c k = c i) :
    due n act c s i = winnable n c i / (((range n).filter fun k => act k = true ∧ s k = s i).card : Int) := by
  have hw : ∀ t : Nat, (t : Int) < c i → winners n act c s t = (range n).filter fun k => act k = true ∧ s k = s i := by
    intro t ht
    ext k
    rw [mem_winners, mem_filter, mem_range]
    constructor
    · rintro ⟨h1, h2, h3, h4⟩
      exact ⟨h1, h2, le_antisymm (h4 i hi ha ht) (hb k h1 h2)⟩
    · rintro ⟨h1, h2, h3⟩
      exact ⟨h1, h2, by rw [he k h1 h2 h3]; exact ht, fun q q1 q2 _ => by rw [h3]; exact hb q q1 q2⟩
  have hB : i ∈ (range n).filter fun k => act k = true ∧ s k = s i := by
    rw [mem_filter, mem_range]; exact ⟨hi, ha, rfl⟩
  have hpot : potOf n act c s ((range n).filter fun k => act k = true ∧ s k = s i) = winnable n c i := by
    rw [← layers_winnable hc hi]
    unfold potOf
    apply Finset.sum_congr rfl
    intro t _
    by_cases ht : (t : Int) < c i
    · rw [if_pos ht, if_pos (hw t ht)]
    · rw [if_neg ht, if_neg]
      intro h
      rw [← h] at hB
      exact ht (winners_lt hB)
  unfold due
  rw [Finset.sum_eq_single ((range n).filter fun k => act k = true ∧ s k = s i), if_pos hB, hpot]
  · intro W _ hW
    by_cases hiW : i ∈ W
    · rw [if_pos hiW]
      have : potOf n act c s W = 0 := by
        unfold potOf
        apply Finset.sum_eq_zero
        intro t _
        rw [if_neg]
        rintro rfl
        exact hW (hw t (winners_lt hiW))
      rw [this, Int.zero_ediv]
    · rw [if_neg hiW]
  · intro h
    exact absurd (mem_powerset.2 (filter_subset _ _)) h

end rule

/-! ## at a table -/

variable {S : List Int} {d d' : Dealer} {bet : PyNum} {obs : Observation} {pays : List Int} {done : List Bool} {s : Nat → Int}
  {res : Except Err StepOut}

theorem SameTable.inB {x d' : Dealer} (e : SameTable x d') : inB d' = inB x := by funext i; unfold Spec.inB; rw [e.active]

theorem SameTable.contribution {x d' : Dealer} (e : SameTable x d') : contribution d' = contribution x := by
  funext i; unfold Spec.contribution; rw [e.potCommits]

theorem SameTable.shares {x d' : Dealer} (e : SameTable x d') (j : Nat) : sharesAt x s j = sharesAt d' s j := by
  unfold sharesAt; rw [e.inB, e.contribution, e.cfg]

theorem SameTable.left {x d' : Dealer} (e : SameTable x d') : leftAt x s = leftAt d' s := by
  unfold leftAt; rw [e.inB, e.contribution, e.cfg]

/-- **C25** (the exact rule, for all pots): what the division of the pot by `engine.py` comes to. Everybody gets the shares that
`sharesAt` describes. If chips are left over, they go to seat `w - button`, with `w` the first seat with a share whose number is above
the button's; if there is none, the step raises `IndexError`. -/
theorem C25_division (h : InHand S d) (hn : NonNegative S d.cfg) (hrun : Running d)
    (hs : d.step bet = (d', res)) (hsh : AtShowdown d') (hr : Ranks d' s) :
    0 ≤ leftAt d' s ∧ (∀ j < d'.cfg.numPlayers, 0 ≤ sharesAt d' s j ∧ 0 ≤ contribution d' j) ∧
    ((leftAt d' s = 0 ∧ ∃ obs pays done, res = .ok (obs, pays, done) ∧
        ∀ j < d'.cfg.numPlayers, received d' pays j = sharesAt d' s j) ∨
      (leftAt d' s ≠ 0 ∧ ∃ obs pays done w, res = .ok (obs, pays, done) ∧ d'.button < w ∧ w < d'.cfg.numPlayers ∧
        sharesAt d' s w ≠ 0 ∧ (∀ v, d'.button < v → v < w → sharesAt d' s v = 0) ∧
        ∀ j < d'.cfg.numPlayers, received d' pays j = sharesAt d' s j + if w - d'.button = j then leftAt d' s else 0) ∨
      (leftAt d' s ≠ 0 ∧ res = .error .indexError ∧ ∀ w, d'.button < w → w < d'.cfg.numPlayers → sharesAt d' s w = 0)) := by
  obtain ⟨x, h1, h2, h3, h4, h5, h6, e1, e2, e3, e4, e5, e6, -, h7⟩ := step_showdown h hn hrun hs hsh
  have e : SameTable x d' := ⟨e1, e2, e3, e4, e5, e6⟩
  obtain ⟨hp, hl, hsh'⟩ := showdown_paidOut h1 h2 h3 h4 (e.ranks hr) h5 h6
  refine ⟨by rw [← e.left]; exact hl, ?_, ?_⟩
  · intro j hj
    rw [← e.shares, e.contribution]
    exact ⟨hsh' j (by rw [← e.cfg]; exact hj), h4 j (by rw [← e.cfg]; exact hj)⟩
  rw [← e.left, e.cfg, e.button]
  cases hp with
  | even p hp h0 h8 =>
    rcases h7 with ⟨er, h9, -⟩ | ⟨obs, q, h9, h10, -⟩
    · rw [h9] at hp; simp at hp
    · rw [h9] at hp
      obtain rfl : q = p := by simpa using hp
      refine .inl ⟨h0, obs, q, x.done, h10, fun j hj => ?_⟩
      rw [← e.received, ← e.shares]
      exact h8 j hj
  | odd p k hp h0 hk hkn hw hf h8 =>
    rcases h7 with ⟨er, h9, -⟩ | ⟨obs, q, h9, h10, -⟩
    · rw [h9] at hp; simp at hp
    · rw [h9] at hp
      obtain rfl : q = p := by simpa using hp
      refine .inr (.inl ⟨h0, obs, q, x.done, x.button + k, h10, by omega, hkn, by rw [← e.shares]; exact hw, ?_, fun j hj => ?_⟩)
      · intro v v1 v2
        have := hf (v - x.button) (by omega) (by omega)
        rwa [show x.button + (v - x.button) = v by omega, e.shares] at this
      · rw [← e.received, ← e.shares, Nat.add_sub_cancel_left]
        exact h8 j hj
  | raises hp h0 hf =>
    rcases h7 with ⟨er, h9, h10, -⟩ | ⟨obs, q, h9, -⟩
    · rw [h9] at hp
      obtain rfl : er = .indexError := by simpa using hp
      refine .inr (.inr ⟨h0, h10, fun w w1 w2 => ?_⟩)
      rw [← e.shares]
      exact hf w w1 w2
    · rw [h9] at hp; simp at hp

/-- the shares, and the rest to one seat -/
theorem shares_received (h : InHand S d) (hn : NonNegative S d.cfg) (hrun : Running d)
    (hs : d.step bet = (d', .ok (obs, pays, done))) (hsh : AtShowdown d') (hr : Ranks d' s) {j : Nat} (hj : j < d'.cfg.numPlayers) :
    sharesAt d' s j ≤ received d' pays j ∧ received d' pays j ≤ sharesAt d' s j + leftAt d' s := by
  obtain ⟨h1, -, ⟨h2, obs', pays', done', h3, h4⟩ | ⟨h2, obs', pays', done', w, h3, -, -, -, -, h4⟩ | ⟨-, h3, -⟩⟩ :=
    C25_division h hn hrun hs hsh hr
  · simp only [Except.ok.injEq, Prod.mk.injEq] at h3
    obtain ⟨-, rfl, -⟩ := h3
    rw [h4 j hj]; omega
  · simp only [Except.ok.injEq, Prod.mk.injEq] at h3
    obtain ⟨-, rfl, -⟩ := h3
    rw [h4 j hj]
    split <;> omega
  · simp at h3

/-! ## C96 -/

/-- **C96**: nobody loses more at a showdown than they put in. -/
theorem C96_loss (h : InHand S d) (hn : NonNegative S d.cfg) (hrun : Running d)
    (hs : d.step bet = (d', .ok (obs, pays, done))) (hsh : AtShowdown d') {j : Nat} (hj : j < d'.cfg.numPlayers) :
    -contribution d' j ≤ pays.getD j 0 := by
  obtain ⟨s, hr⟩ := C25_ranked h hn hrun hs hsh
  have h1 := (shares_received h hn hrun hs hsh hr hj).1
  have h2 := ((C25_division h hn hrun hs hsh hr).2.1 j hj).1
  unfold received at h1
  omega

/-- **C96**: the players with the best hand, if they all put in the same, get an equal part, rounded down, of all chips they can win: of
everybody's chips as many as they put in themselves. On top of that there are at most the chips left over, unless somebody who
folded put in more than everybody who did not. -/
theorem C96_best (h : InHand S d) (hn : NonNegative S d.cfg) (hrun : Running d)
    (hs : d.step bet = (d', .ok (obs, pays, done))) (hsh : AtShowdown d') (hr : Ranks d' s) {i : Nat} (hi : i < d'.cfg.numPlayers)
    (ha : isIn d' i) (hb : ∀ k < d'.cfg.numPlayers, isIn d' k → s i ≤ s k)
    (he : ∀ k < d'.cfg.numPlayers, isIn d' k → s k = s i → contribution d' k = contribution d' i) :
    winnableAt d' i / (((range d'.cfg.numPlayers).filter fun k => inB d' k = true ∧ s k = s i).card : Int) ≤ received d' pays i ∧
    (FoldsCovered d'.cfg.numPlayers (inB d') (contribution d') → received d' pays i ≤
      winnableAt d' i / (((range d'.cfg.numPlayers).filter fun k => inB d' k = true ∧ s k = s i).card : Int) + leftAt d' s) := by
  have hc : ∀ k < d'.cfg.numPlayers, 0 ≤ contribution d' k := fun k hk => ((C25_division h hn hrun hs hsh hr).2.1 k hk).2
  obtain ⟨h1, h2⟩ := shares_best (act := inB d') (s := s) hc hi ha hb he
  obtain ⟨h3, h4⟩ := shares_received h hn hrun hs hsh hr hi
  refine ⟨le_trans h1 h3, fun hf => ?_⟩
  have := h2 hf
  unfold sharesAt at h4
  unfold winnableAt
  omega

/-- **C96**: a player with a better hand than everybody else who is in gets at least all chips they can win. -/
theorem C96_single (h : InHand S d) (hn : NonNegative S d.cfg) (hrun : Running d)
    (hs : d.step bet = (d', .ok (obs, pays, done))) (hsh : AtShowdown d') (hr : Ranks d' s) {i : Nat} (hi : i < d'.cfg.numPlayers)
    (hb : Best d' s i) :
    winnableAt d' i ≤ received d' pays i ∧
    (FoldsCovered d'.cfg.numPlayers (inB d') (contribution d') → received d' pays i ≤ winnableAt d' i + leftAt d' s) := by
  have hcard : (range d'.cfg.numPlayers).filter (fun k => inB d' k = true ∧ s k = s i) = {i} := by
    ext k
    rw [mem_filter, mem_range, mem_singleton]
    constructor
    · rintro ⟨h1, h2, h3⟩
      by_contra hk
      have := hb.2 k h1 h2 hk
      omega
    · rintro rfl
      exact ⟨hi, hb.1, rfl⟩
  have h1 := C96_best h hn hrun hs hsh hr hi hb.1
    (fun k hk hk1 => by
      by_cases hki : k = i
      · rw [hki]
      · exact le_of_lt (hb.2 k hk hk1 hki))
    (fun k hk hk1 hk2 => by
      by_cases hki : k = i
      · rw [hki]
      · have := hb.2 k hk hk1 hki
        omega)
  rw [hcard, card_singleton, Nat.cast_one, Int.ediv_one] at h1
  exact h1

/-- **C96**: a player with a better hand than everybody else who is in, who put in as much as everybody, gets the whole pot, and
the showdown cannot fail: whatever the others put in, ties among them included. -/
theorem C96_all (h : InHand S d) (hn : NonNegative S d.cfg) (hrun : Running d)
    (hs : d.step bet = (d', res)) (hsh : AtShowdown d') (hr : Ranks d' s) {i : Nat} (hi : i < d'.cfg.numPlayers)
    (hb : Best d' s i) (hm : ∀ k < d'.cfg.numPlayers, contribution d' k ≤ contribution d' i) :
    ∃ obs pays done, res = .ok (obs, pays, done) ∧ ∀ j < d'.cfg.numPlayers,
      received d' pays j = if j = i then ∑ k ∈ range d'.cfg.numPlayers, contribution d' k else 0 := by
  obtain ⟨-, h2, h3⟩ := C25_division h hn hrun hs hsh hr
  obtain ⟨h4, h5⟩ := shares_all (act := inB d') (s := s) (fun k hk => (h2 k hk).2) hi hb.1 hb.2 hm
  rcases h3 with ⟨-, obs, pays, done, h6, h7⟩ | ⟨h0, -⟩ | ⟨h0, -⟩
  · exact ⟨obs, pays, done, h6, fun j hj => (h7 j hj).trans (h5 j hj)⟩
  · exact absurd h4 h0
  · exact absurd h4 h0

/-! ## C97 -/

/-- **C97** (part): if the pot is clear, of two players the one who is in, has at least as good a hand and put in at least as much does
not get less, odd chips apart. -/
theorem C97_compare_partial (h : InHand S d) (hn : NonNegative S d.cfg) (hrun : Running d)
    (hs : d.step bet = (d', .ok (obs, pays, done))) (hsh : AtShowdown d') (hr : Ranks d' s) (hc : ClearPot d' s) {i j : Nat}
    (hi : i < d'.cfg.numPlayers) (hj : j < d'.cfg.numPlayers) (ha : isIn d' i) (hle : s i ≤ s j)
    (hcc : contribution d' j ≤ contribution d' i) : received d' pays j ≤ received d' pays i + oddAt d' s := by
  obtain ⟨k, -, h1⟩ := C25_shares_partial h hn hrun hs hsh hr hc
  have h2 : dueAt d' s j ≤ dueAt d' s i := due_compare hi ha hle hcc
  have h3 : 0 ≤ oddAt d' s := odd_nonneg
  have h4 := (h1 i hi).1
  have h5 := (h1 j hj).1
  rw [h4, h5]
  split <;> split <;> omega

/-- **C97 is false in general**: seats 0 and 3 are all in with 2 chips each, seat 3 has the best hand of all. Seat 3 gets 8 chips, seat
0 with the worse hand gets 64. -/
theorem C97_false : ∃ S d d' out, InHand S d ∧ Reachable d ∧ d.step (.fin 48) = (d', .ok out) ∧ NonNegative S d.cfg ∧
    Covers S d.cfg ∧ CloseAntes d.cfg ∧ Running d ∧ AtShowdown d' ∧ Ranks d' (strength [1, 1, 1, 0]) ∧
    oddAt d' (strength [1, 1, 1, 0]) = 0 ∧ d'.potCommits = [2, 98, 98, 2] ∧ isIn d' 3 ∧ isIn d' 0 ∧
    received d' out.2.1 3 = 8 ∧ received d' out.2.1 0 = 64 :=
  step_exists (mixed 4 3 2 [0, 0, 0, 0] [1, 2, 0, 0] 100)
    [.bet 98, .bet 98, .bet 99, .bet (-1), .bet (-1), .bet (-1), .deal, .bet 2, .bet 98, .bet 97] (.fin 48) (by decide +kernel)

instance (d : Dealer) (s : Nat → Int) (i : Nat) : Decidable (Best d s i) := by unfold Best; infer_instance

/-- the hypotheses of `C25_division` and `C96_single` in the case of `C97_false`: the rule gives the shares that are paid, and the
best hand gets what it can win -/
example : ∃ S d d' out, InHand S d ∧ Reachable d ∧ d.step (.fin 48) = (d', .ok out) ∧ NonNegative S d.cfg ∧
    Running d ∧ AtShowdown d' ∧ Ranks d' (strength [1, 1, 1, 0]) ∧ Best d' (strength [1, 1, 1, 0]) 3 ∧
    FoldsCovered d'.cfg.numPlayers (inB d') (contribution d') ∧ winnableAt d' 3 = 8 ∧ leftAt d' (strength [1, 1, 1, 0]) = 0 ∧
    (List.range 4).map (sharesAt d' (strength [1, 1, 1, 0])) = [64, 64, 64, 8] :=
  step_exists (mixed 4 3 2 [0, 0, 0, 0] [1, 2, 0, 0] 100)
    [.bet 98, .bet 98, .bet 99, .bet (-1), .bet (-1), .bet (-1), .deal, .bet 2, .bet 98, .bet 97] (.fin 48) (by decide +kernel)

set_option synthInstance.maxSize 1024 in
/-- the second case of `C25_division`, and the hypotheses of `C96_best`: three of four tie for 7 chips, one is left over -/
example : ∃ S d d' out, InHand S d ∧ Reachable d ∧ d.step (.fin 0) = (d', .ok out) ∧ NonNegative S d.cfg ∧ Running d ∧
    AtShowdown d' ∧ Ranks d' (fun _ => 1) ∧ leftAt d' (fun _ => 1) = 1 ∧ winnableAt d' 0 = 7 ∧
    (List.range 4).map (sharesAt d' (fun _ => 1)) = [2, 0, 2, 2] ∧ out.2.1 = [0, -1, 1, 0] ∧ isIn d' 0 ∧
    (∀ k < 4, isIn d' k → contribution d' k = contribution d' 0) ∧
    FoldsCovered d'.cfg.numPlayers (inB d') (contribution d') :=
  step_exists (ties 4 [1, 2, 0, 0] 10) [.bet 2, .bet 2, .bet (-1), .bet 0, .bet 0, .bet 0] (.fin 0) (by decide +kernel)

/-- the third case of `C25_division`: the step raises -/
example : ∃ S d, InHand S d ∧ Reachable d ∧ NonNegative S d.cfg ∧ Running d ∧ AtShowdown (d.step (.fin 0)).1 ∧
    Ranks (d.step (.fin 0)).1 (fun _ => 1) ∧ leftAt (d.step (.fin 0)).1 (fun _ => 1) = 1 ∧
    (List.range 3).map (sharesAt (d.step (.fin 0)).1 (fun _ => 1)) = [2, 2, 0] ∧ (d.step (.fin 0)).1.button = 1 :=
  hand_exists (ties 3 [1, 2, 0] 10) [.bet (-1), .bet (-1), .deal, .bet 2, .bet (-1), .bet 0, .bet 0] (by decide +kernel)

/-- the hypotheses of `C96_all`: the other three tie -/
example : ∃ S d d' out, InHand S d ∧ Reachable d ∧ d.step (.fin 0) = (d', .ok out) ∧ NonNegative S d.cfg ∧ Running d ∧
    AtShowdown d' ∧ Ranks d' (strength [1, 1, 1, 0]) ∧ Best d' (strength [1, 1, 1, 0]) 3 ∧
    (∀ k < 4, contribution d' k ≤ contribution d' 3) ∧ d'.potCommits = [2, 2, 2, 2] ∧ out.2.1 = [-2, -2, -2, 6] :=
  step_exists (mixed 4 3 2 [0, 0, 0, 0] [1, 2, 0, 0] 100) [.bet 2, .bet 2, .bet 1, .bet 0, .bet 0, .bet 0, .bet 0] (.fin 0)
    (by decide +kernel)

/-- the hypotheses of `C97_compare_partial`: three players with different chips, no odd chips -/
example : ∃ S d d' out, InHand S d ∧ Reachable d ∧ d.step (.fin 60) = (d', .ok out) ∧ NonNegative S d.cfg ∧
    Running d ∧ AtShowdown d' ∧ Ranks d' (strength [5, 4, 3]) ∧ ClearPot d' (strength [5, 4, 3]) ∧
    oddAt d' (strength [5, 4, 3]) = 0 ∧ d'.potCommits = [62, 20, 8] :=
  step_exists (small 3 [1, 2, 0] 30)
    [.bet 10, .bet 9, .bet 20, .bet 20, .bet (-1), .bet (-1), .deal, .bet 20, .bet 7] (.fin 60) (by decide +kernel)

end Clubs

namespace Clubs.Numpy

open Spec Finset

variable {S : List Int} {d d' : Dealer} {bet : PyNum} {s : Nat → Int} {res : Except Err StepOut}

/-- shares of the array engine, and the odd chips to one seat -/
theorem due_received (h : ArrayInHand S d) (hn : NonNegative S d.cfg) (hz : SizesOk d.cfg) (hrun : Running d)
    (hs : step d bet = (d', res)) (hsh : AtShowdown d') (hr : Ranks d' s)
    (hc : FoldsCovered d'.cfg.numPlayers (inB d') (contribution d')) :
    (∀ k < d'.cfg.numPlayers, 0 ≤ contribution d' k) ∧
    ∃ obs pays done w, res = .ok (obs, pays, done) ∧ ∀ j < d'.cfg.numPlayers,
      received d' pays j = dueAt d' s j + if w = j then oddAt d' s else 0 := by
  obtain ⟨x, -, -, -, e, hpos, -⟩ := step_paid h hn hz hrun hs hsh hr hc
  refine ⟨fun k hk => ?_, ?_⟩
  · rw [e.contribution]; exact hpos k (by rw [← e.cfg]; exact hk)
  obtain ⟨obs, pays, done, h1, -, ⟨h2, h3⟩ | ⟨h2, w, h3, -, -, h4⟩⟩ := C71_shares h hn hz hrun hs hsh hr hc
  · refine ⟨obs, pays, done, 0, h1, fun j hj => ?_⟩
    rw [h3 j hj, h2, ite_self, add_zero]
  · exact ⟨obs, pays, done, w, h1, h4⟩

/-- **C96** for the array engine. -/
theorem C96_best (h : ArrayInHand S d) (hn : NonNegative S d.cfg) (hz : SizesOk d.cfg) (hrun : Running d)
    (hs : step d bet = (d', res)) (hsh : AtShowdown d') (hr : Ranks d' s)
    (hc : FoldsCovered d'.cfg.numPlayers (inB d') (contribution d')) {i : Nat} (hi : i < d'.cfg.numPlayers)
    (ha : isIn d' i) (hb : ∀ k < d'.cfg.numPlayers, isIn d' k → s i ≤ s k)
    (he : ∀ k < d'.cfg.numPlayers, isIn d' k → s k = s i → contribution d' k = contribution d' i) :
    ∃ obs pays done, res = .ok (obs, pays, done) ∧
      winnableAt d' i / (((range d'.cfg.numPlayers).filter fun k => inB d' k = true ∧ s k = s i).card : Int) ≤ received d' pays i ∧
      received d' pays i ≤
        winnableAt d' i / (((range d'.cfg.numPlayers).filter fun k => inB d' k = true ∧ s k = s i).card : Int) + oddAt d' s := by
  obtain ⟨h0, obs, pays, done, w, h1, h2⟩ := due_received h hn hz hrun hs hsh hr hc
  have h3 : dueAt d' s i = _ := due_best (s := s) h0 hi ha hb he
  have h4 : 0 ≤ oddAt d' s := odd_nonneg
  refine ⟨obs, pays, done, h1, ?_⟩
  rw [h2 i hi, h3]
  unfold winnableAt
  split <;> omega

/-- **C96** for the array engine: a player with a better hand than everybody else who is in gets all chips they can win. -/
theorem C96_single (h : ArrayInHand S d) (hn : NonNegative S d.cfg) (hz : SizesOk d.cfg) (hrun : Running d)
    (hs : step d bet = (d', res)) (hsh : AtShowdown d') (hr : Ranks d' s)
    (hc : FoldsCovered d'.cfg.numPlayers (inB d') (contribution d')) {i : Nat} (hi : i < d'.cfg.numPlayers) (hb : Best d' s i) :
    ∃ obs pays done, res = .ok (obs, pays, done) ∧ winnableAt d' i ≤ received d' pays i ∧
      received d' pays i ≤ winnableAt d' i + oddAt d' s := by
  have hcard : (range d'.cfg.numPlayers).filter (fun k => inB d' k = true ∧ s k = s i) = {i} := by
    ext k
    rw [mem_filter, mem_range, mem_singleton]
    constructor
    · rintro ⟨h1, h2, h3⟩
      by_contra hk
      have := hb.2 k h1 h2 hk
      omega
    · rintro rfl
      exact ⟨hi, hb.1, rfl⟩
  have h1 := C96_best h hn hz hrun hs hsh hr hc hi hb.1
    (fun k hk hk1 => by
      by_cases hki : k = i
      · rw [hki]
      · exact le_of_lt (hb.2 k hk hk1 hki))
    (fun k hk hk1 hk2 => by
      by_cases hki : k = i
      · rw [hki]
      · have := hb.2 k hk hk1 hki
        omega)
  rw [hcard, card_singleton, Nat.cast_one, Int.ediv_one] at h1
  exact h1

/-- **C96** for the array engine: nobody loses more at a showdown than they put in. -/
theorem C96_loss (h : ArrayInHand S d) (hn : NonNegative S d.cfg) (hz : SizesOk d.cfg) (hrun : Running d)
    (hs : step d bet = (d', res)) (hsh : AtShowdown d') (hr : Ranks d' s)
    (hc : FoldsCovered d'.cfg.numPlayers (inB d') (contribution d')) {j : Nat} (hj : j < d'.cfg.numPlayers) :
    ∃ obs pays done, res = .ok (obs, pays, done) ∧ -contribution d' j ≤ pays.getD j 0 := by
  obtain ⟨-, obs, pays, done, w, h1, h2⟩ := due_received h hn hz hrun hs hsh hr hc
  refine ⟨obs, pays, done, h1, ?_⟩
  have h3 : 0 ≤ dueAt d' s j := due_nonneg j
  have h4 : 0 ≤ oddAt d' s := odd_nonneg
  have h5 := h2 j hj
  unfold received at h5
  split at h5 <;> omega

/-- **C96** for the array engine: a player with a better hand than everybody else who is in, who put in as much as everybody, gets
the whole pot. -/
theorem C96_all (h : ArrayInHand S d) (hn : NonNegative S d.cfg) (hz : SizesOk d.cfg) (hrun : Running d)
    (hs : step d bet = (d', res)) (hsh : AtShowdown d') (hr : Ranks d' s) {i : Nat} (hi : i < d'.cfg.numPlayers)
    (hb : Best d' s i) (hm : ∀ k < d'.cfg.numPlayers, contribution d' k ≤ contribution d' i) :
    ∃ obs pays done, res = .ok (obs, pays, done) ∧ ∀ j < d'.cfg.numPlayers,
      received d' pays j = if j = i then ∑ k ∈ range d'.cfg.numPlayers, contribution d' k else 0 := by
  have hc : FoldsCovered d'.cfg.numPlayers (inB d') (contribution d') := fun k hk _ => ⟨i, hi, hb.1, hm k hk⟩
  obtain ⟨h0, obs, pays, done, w, h1, h2⟩ := due_received h hn hz hrun hs hsh hr hc
  have only : ∀ t j, j ∈ winners d'.cfg.numPlayers (inB d') (contribution d') s t → j = i := by
    intro t j hj
    obtain ⟨j1, j2, j3, j4⟩ := mem_winners.1 hj
    by_contra hji
    have h3 := hb.2 j j1 j2 hji
    have h4 := j4 i hi hb.1 (lt_of_lt_of_le j3 (hm j j1))
    omega
  have hodd : oddAt d' s = 0 := by
    by_contra hne
    obtain ⟨a, b, t, hab, ha, hb'⟩ := two_winners hc hne
    exact hab ((only t a ha).trans (only t b hb').symm)
  refine ⟨obs, pays, done, h1, fun j hj => ?_⟩
  rw [h2 j hj, hodd, ite_self, add_zero]
  split
  · next hji =>
    subst hji
    have hcard : (range d'.cfg.numPlayers).filter (fun k => inB d' k = true ∧ s k = s j) = {j} := by
      ext k
      rw [mem_filter, mem_range, mem_singleton]
      constructor
      · rintro ⟨h1, h2, h3⟩
        by_contra hk
        have := hb.2 k h1 h2 hk
        omega
      · rintro rfl
        exact ⟨hi, hb.1, rfl⟩
    have h3 : dueAt d' s j = _ := due_best (act := inB d') (s := s) h0 hi hb.1
      (fun k hk hk1 => by
        by_cases hki : k = j
        · rw [hki]
        · exact le_of_lt (hb.2 k hk hk1 hki))
      (fun k hk hk1 hk2 => by
        by_cases hki : k = j
        · rw [hki]
        · have := hb.2 k hk hk1 hki
          omega)
    rw [h3, hcard, card_singleton, Nat.cast_one, Int.ediv_one]
    unfold winnable
    apply Finset.sum_congr rfl
    intro k hk
    exact min_eq_left (hm k (mem_range.1 hk))
  · next hji =>
    by_contra hne
    obtain ⟨t, ht⟩ := (due_pos_iff h0 j).1 hne
    exact hji (only t j ht)

/-- **C97** for the array engine: of two players the one who is in, has at least as good a hand and put in at least as much does
not get less, odd chips apart. -/
theorem C97_compare (h : ArrayInHand S d) (hn : NonNegative S d.cfg) (hz : SizesOk d.cfg) (hrun : Running d)
    (hs : step d bet = (d', res)) (hsh : AtShowdown d') (hr : Ranks d' s)
    (hc : FoldsCovered d'.cfg.numPlayers (inB d') (contribution d')) {i j : Nat}
    (hi : i < d'.cfg.numPlayers) (hj : j < d'.cfg.numPlayers) (ha : isIn d' i) (hle : s i ≤ s j)
    (hcc : contribution d' j ≤ contribution d' i) :
    ∃ obs pays done, res = .ok (obs, pays, done) ∧ received d' pays j ≤ received d' pays i + oddAt d' s := by
  obtain ⟨h0, obs, pays, done, w, h1, h2⟩ := due_received h hn hz hrun hs hsh hr hc
  have h3 : dueAt d' s j ≤ dueAt d' s i := due_compare hi ha hle hcc
  have h4 : 0 ≤ oddAt d' s := odd_nonneg
  refine ⟨obs, pays, done, h1, ?_⟩
  rw [h2 i hi, h2 j hj]
  split <;> split <;> omega

/-- the hypotheses of the theorems above, in the hand of `Clubs.C97_false`: the best hand gets 8, the other one with 2 chips nothing -/
example : ∃ S d d' out, ArrayInHand S d ∧ ArrayReachable d ∧ step d (.fin 48) = (d', .ok out) ∧ NonNegative S d.cfg ∧
    SizesOk d.cfg ∧ Running d ∧ AtShowdown d' ∧ Ranks d' (strength [1, 1, 1, 0]) ∧ Best d' (strength [1, 1, 1, 0]) 3 ∧
    FoldsCovered d'.cfg.numPlayers (inB d') (contribution d') ∧ d'.potCommits = [2, 98, 98, 2] ∧ out.2.1 = [-2, -2, -2, 6] :=
  step_exists (mixed 4 3 2 [0, 0, 0, 0] [1, 2, 0, 0] 100)
    [.bet 98, .bet 98, .bet 99, .bet (-1), .bet (-1), .bet (-1), .deal, .bet 2, .bet 98, .bet 97] (.fin 48) (by decide +kernel)

/-- the hypotheses of `C96_all` -/
example : ∃ S d d' out, ArrayInHand S d ∧ ArrayReachable d ∧ step d (.fin 0) = (d', .ok out) ∧ NonNegative S d.cfg ∧
    SizesOk d.cfg ∧ Running d ∧ AtShowdown d' ∧ Ranks d' (strength [1, 1, 1, 0]) ∧ Best d' (strength [1, 1, 1, 0]) 3 ∧
    (∀ k < 4, contribution d' k ≤ contribution d' 3) ∧ out.2.1 = [-2, -2, -2, 6] :=
  step_exists (mixed 4 3 2 [0, 0, 0, 0] [1, 2, 0, 0] 100) [.bet 2, .bet 2, .bet 1, .bet 0, .bet 0, .bet 0, .bet 0] (.fin 0)
    (by decide +kernel)

end Clubs.Numpy

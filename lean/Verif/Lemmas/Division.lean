import Verif.Lemmas.Showdown
import Verif.Spec.Division

/-! # The exact division of a pot by `engine.py` -/

namespace Clubs

open Spec Finset

/-! ## the sort is stable -/

/-- order of the sort, with the seat -/
def keyLt (a b : Hand) : Prop :=
  a.strength < b.strength ∨ (a.strength = b.strength ∧ (a.commit < b.commit ∨ (a.commit = b.commit ∧ a.idx < b.idx)))

theorem insertByKey_stable (h : Hand) (l : List Hand) (hl : l.Pairwise keyLt) (hi : ∀ g ∈ l, h.idx < g.idx) :
    (insertByKey h l).Pairwise keyLt := by
  induction l with
  | nil => simp [insertByKey]
  | cons g l ih =>
    rw [insertByKey]
    rw [List.pairwise_cons] at hl
    have hg := hi g (by simp)
    split
    · next hlt =>
      refine List.Pairwise.cons ?_ (List.pairwise_cons.2 hl)
      intro x hx
      rcases List.mem_cons.1 hx with rfl | hx
      · unfold keyLt; omega
      · have := hl.1 x hx
        have := hi x (by simp [hx])
        unfold keyLt at *; omega
    · next hlt =>
      refine List.Pairwise.cons ?_ (ih hl.2 fun x hx => hi x (by simp [hx]))
      intro x hx
      rcases List.mem_cons.1 ((insertByKey_perm h l).mem_iff.1 hx) with rfl | hx
      · unfold keyLt; omega
      · exact hl.1 x hx

theorem sortByKey_stable (l : List Hand) (hl : l.Pairwise fun a b => a.idx < b.idx) : (sortByKey l).Pairwise keyLt := by
  induction l with
  | nil => simp [sortByKey]
  | cons h l ih =>
    rw [List.pairwise_cons] at hl
    refine insertByKey_stable h _ (ih hl.2) ?_
    intro g hg
    exact hl.1 g ((sortByKey_perm l).mem_iff.1 hg)

variable {n : Nat} {worst : Int} {C T : List Int} {act : Nat → Bool} {s : Nat → Int}

theorem stable_at {i j : Nat} (hij : i < j) (hj : j < (handList C T).length) :
    keyLt ((handList C T)[i]'(by omega)) (handList C T)[j] := by
  have := sortByKey_stable ((T.zipIdx).map fun (s, i) => ({ idx := i, strength := s, commit := C.getD i 0 } : Hand)) (by
    rw [List.pairwise_map, List.pairwise_iff_getElem]
    intro a b ha hb hab
    simp
    exact hab)
  exact List.pairwise_iff_getElem.1 this i j (Nat.lt_trans hij hj) hj hij

/-- the strengths of a deal are `s` for those who are in -/
def Strengths (n : Nat) (T : List Int) (act : Nat → Bool) (s : Nat → Int) : Prop :=
  ∀ i < n, act i = true → s i = T.getD i 0

/-- contributions as a function -/
abbrev fn (C : List Int) (i : Nat) : Int := C.getD i 0

theorem keyLt_before (D : Deal n worst C T act) (hs : Strengths n T act s) {i j : Nat} (hi : i < (handList C T).length)
    (hj : j < (handList C T).length) :
    keyLt (handList C T)[i] (handList C T)[j] ↔ Before act (fn C) s (handList C T)[i].idx (handList C T)[j].idx := by
  obtain ⟨i1, i2, i3⟩ := hand_at D hi
  obtain ⟨j1, j2, j3⟩ := hand_at D hj
  unfold keyLt Before Beats Equals fn
  rw [i2, i3, j2, j3]
  cases ai : act (handList C T)[i].idx <;> cases aj : act (handList C T)[j].idx
  · rw [D.folded _ i1 ai, D.folded _ j1 aj]; simp
  · have h := D.better _ j1 aj
    rw [D.folded _ i1 ai]
    simp only [Bool.false_eq_true, false_and, false_or, iff_false]
    omega
  · have h := D.better _ i1 ai
    rw [D.folded _ j1 aj]
    simp only [Bool.false_eq_true, false_implies, and_true, true_or, iff_true]
    omega
  · rw [hs _ i1 ai, hs _ j1 aj]; simp

theorem before_iff (D : Deal n worst C T act) (hs : Strengths n T act s) {i j : Nat} (hi : i < (handList C T).length)
    (hj : j < (handList C T).length) :
    Before act (fn C) s (handList C T)[i].idx (handList C T)[j].idx ↔ i < j := by
  rw [← keyLt_before D hs hi hj]
  constructor
  · intro h
    rcases Nat.lt_trichotomy i j with h1 | rfl | h1
    · exact h1
    · unfold keyLt at h; omega
    · have := stable_at h1 hi
      unfold keyLt at h this; omega
  · intro h
    exact stable_at h hj

theorem fn_nonneg (D : Deal n worst C T act) {i : Nat} (hi : i < n) : 0 ≤ fn C i :=
  D.pos _ ((mem_getD 0).2 ⟨i, by rw [D.clen]; exact hi, rfl⟩)

theorem lvl_reached (D : Deal n worst C T act) (hs : Strengths n T act s) {i : Nat} (hi : i < (handList C T).length) :
    lvl (handList C T) i = reached n act (fn C) s (handList C T)[i].idx := by
  have hle : ∀ k ∈ (range n).filter fun k => Before act (fn C) s k (handList C T)[i].idx,
      (fn C k).toNat ≤ (lvl (handList C T) i).toNat := by
    intro k hk
    rw [mem_filter, mem_range] at hk
    obtain ⟨j, hj, rfl⟩ := seat_at D hk.1
    have := le_lvl (handList C T) hj ((before_iff D hs hj hi).1 hk.2)
    rw [(hand_at D hj).2.2] at this
    exact Int.toNat_le_toNat this
  have h0 := lvl_nonneg (handList C T) i
  unfold reached
  apply le_antisymm
  · rcases lvl_mem (handList C T) i with h | ⟨j, hj, hji, h⟩
    · omega
    · obtain ⟨j1, -, j3⟩ := hand_at D hj
      have : (fn C (handList C T)[j].idx).toNat ≤
          ((range n).filter fun k => Before act (fn C) s k (handList C T)[i].idx).sup fun k => (fn C k).toNat :=
        Finset.le_sup (f := fun k => (fn C k).toNat) (by
          rw [mem_filter, mem_range]
          exact ⟨j1, (before_iff D hs hj hi).2 hji⟩)
      rw [h, j3]
      show fn C _ ≤ _
      have := Int.self_le_toNat (fn C (handList C T)[j].idx)
      omega
  · have := Finset.sup_le hle
    omega

theorem sum_handList (D : Deal n worst C T act) (f : Nat → Int) :
    ((handList C T).map fun h => f h.idx).sum = ∑ k ∈ range n, f k := by
  have h1 : ((handList C T).map fun h => f h.idx) = ((handList C T).map (·.idx)).map f := by
    rw [List.map_map]; rfl
  rw [h1, ((handList_idx C T).map f).sum_eq, D.len]
  rfl

theorem wAt_piece (D : Deal n worst C T act) (hs : Strengths n T act s) {i : Nat} (hi : i < (handList C T).length) :
    wAt (handList C T) i = piece n act (fn C) s (handList C T)[i].idx := by
  obtain ⟨-, -, i3⟩ := hand_at D hi
  unfold wAt piece
  rw [← sum_handList D, ← lvl_reached D hs hi]
  congr 1
  apply List.map_congr_left
  intro h hh
  rw [(handList_mem hh).2.2, lvl_succ _ _ hi, i3]
  show min (fn C _) (max _ (fn C _)) - _ = _
  rw [max_comm]

theorem served_at (D : Deal n worst C T act) (hs : Strengths n T act s) {i : Nat} (hi : i < (handList C T).length) :
    lvl (handList C T) i < (handList C T)[i].commit ↔ Served n act (fn C) s (handList C T)[i].idx := by
  unfold Served
  rw [lvl_reached D hs hi, (hand_at D hi).2.2]

theorem eAt_sharers (D : Deal n worst C T act) (hs : Strengths n T act s) {i : Nat} (hi : i < (handList C T).length) :
    (eAt worst (handList C T) i).toFinset = sharers n act (fn C) s (handList C T)[i].idx := by
  obtain ⟨i1, i2, i3⟩ := hand_at D hi
  ext q
  rw [List.mem_toFinset, mem_eAt hi]
  unfold sharers
  rw [mem_filter, mem_range]
  constructor
  · rintro ⟨j, hj, rfl, h⟩
    obtain ⟨j1, j2, j3⟩ := hand_at D hj
    refine ⟨j1, ?_⟩
    rw [before_iff D hs hj hi, ← served_at D hs hj]
    cases ai : act (handList C T)[i].idx
    · rw [if_neg (by simp)]
      intro aj
      by_contra hno
      rw [if_neg (fun hx => hno hx.2)] at h
      have := D.better _ j1 aj
      have := D.folded _ i1 ai
      omega
    · rw [if_pos rfl]
      have hb := D.better _ i1 ai
      by_cases hx : j < i ∧ lvl (handList C T) j < (handList C T)[j].commit
      · rw [if_pos hx] at h; omega
      · rw [if_neg hx] at h
        have aj : act (handList C T)[j].idx = true := by
          by_contra hcon
          rw [Bool.not_eq_true] at hcon
          have := D.folded _ j1 hcon
          omega
        refine ⟨aj, ?_, hx⟩
        rw [hs _ i1 ai, hs _ j1 aj, ← j2, ← i2, h]
  · rintro ⟨hq, h⟩
    obtain ⟨j, hj, rfl⟩ := seat_at D hq
    obtain ⟨j1, j2, j3⟩ := hand_at D hj
    rw [before_iff D hs hj hi, ← served_at D hs hj] at h
    refine ⟨j, hj, rfl, ?_⟩
    cases ai : act (handList C T)[i].idx
    · rw [ai, if_neg (by simp)] at h
      have hf := D.folded _ i1 ai
      cases aj : act (handList C T)[j].idx
      · have := D.folded _ j1 aj
        rw [i2, j2, hf, this, ite_self]
      · have hji : j < i := by
          rw [← before_iff D hs hj hi]
          exact .inl ⟨aj, by rw [ai]; simp⟩
        rw [if_pos ⟨hji, h aj⟩, i2, hf]
    · rw [ai, if_pos rfl] at h
      rw [if_neg h.2.2, i2, j2, ← hs _ i1 ai, ← hs _ j1 h.1, h.2.1]

theorem eAt_card (D : Deal n worst C T act) (hs : Strengths n T act s) {i : Nat} (hi : i < (handList C T).length) :
    (eAt worst (handList C T) i).length = (sharers n act (fn C) s (handList C T)[i].idx).card := by
  have hn : ((handList C T).map (·.idx)).Nodup := (handList_idx C T).nodup_iff.2 List.nodup_range
  rw [← eAt_sharers D hs hi, List.toFinset_card_of_nodup (eAt_props hn hi).1]

/-- a sum over the positions of the sorted list is one over the players -/
theorem sum_positions (D : Deal n worst C T act) (f : Nat → Int) (g : Nat → Int)
    (h : ∀ i, ∀ hi : i < (handList C T).length, f i = g (handList C T)[i].idx) :
    ((List.range n).map f).sum = ∑ k ∈ range n, g k := by
  rw [← sum_handList D]
  congr 1
  have hl : (handList C T).length = n := by rw [handList_length, D.len]
  apply List.ext_getElem
  · simp [hl]
  · intro i h1 h2
    rw [List.length_map] at h2
    simp only [List.getElem_map, List.getElem_range]
    exact h i h2

theorem base_shares (D : Deal n worst C T act) (hs : Strengths n T act s) {j : Nat} (hj : j < n) :
    (baseList n worst (handList C T)).getD j 0 = shares n act (fn C) s j := by
  rw [(showdown_facts (worst := worst) D.len D.clen D.pos).base j hj]
  unfold shares
  apply sum_positions D
  intro i hi
  rw [wAt_piece D hs hi, eAt_card D hs hi, ← eAt_sharers (worst := worst) D hs hi]
  simp only [List.mem_toFinset]

theorem odd_left (D : Deal n worst C T act) (hs : Strengths n T act s) :
    oddChips n worst (handList C T) = left n act (fn C) s := by
  rw [(showdown_facts (worst := worst) D.len D.clen D.pos).odd]
  unfold left
  apply sum_positions D
  intro i hi
  rw [wAt_piece D hs hi, eAt_card D hs hi]

/-! ## at a table -/

/-- what a showdown pays, for every button and every pot -/
inductive PaidOut (d : Dealer) (s : Nat → Int) : Prop
  | even (p : List Int) (h : d.payouts = .ok p) (h0 : leftAt d s = 0)
      (hp : ∀ j < d.cfg.numPlayers, received d p j = sharesAt d s j)
  | odd (p : List Int) (k : Nat) (h : d.payouts = .ok p) (h0 : leftAt d s ≠ 0) (hk : 1 ≤ k)
      (hn : d.button + k < d.cfg.numPlayers) (hw : sharesAt d s (d.button + k) ≠ 0)
      (hf : ∀ j, 1 ≤ j → j < k → sharesAt d s (d.button + j) = 0)
      (hp : ∀ j < d.cfg.numPlayers, received d p j = sharesAt d s j + if k = j then leftAt d s else 0)
  | raises (h : d.payouts = .error .indexError) (h0 : leftAt d s ≠ 0)
      (hf : ∀ i, d.button < i → i < d.cfg.numPlayers → sharesAt d s i = 0)

theorem showdown_paidOut {d : Dealer} (hd : Seated d) (hh : d.holeCards.length = d.cfg.numPlayers)
    (hpot : d.pot = d.potCommits.sum)
    (hpos : ∀ i < d.cfg.numPlayers, 0 ≤ contribution d i) (hr : Ranks d s)
    (hone : countTrue d.active ≠ 1) (hst : d.cfg.numStreets ≤ d.street) :
    PaidOut d s ∧ 0 ≤ leftAt d s ∧ (∀ j < d.cfg.numPlayers, 0 ≤ sharesAt d s j) := by
  obtain ⟨T, hT1, hT2, hT3⟩ := evalHands_of_ranks hh hr
  have D := deal_of hd hpos hr hT2 hT3
  have hcongr : Strengths d.cfg.numPlayers T (inB d) s := by
    intro i hi ha
    rw [hT3 i hi, ha, if_pos rfl]
  have hbase : ∀ j < d.cfg.numPlayers,
      (baseList d.cfg.numPlayers d.worstHand (handList d.potCommits T)).getD j 0 = sharesAt d s j :=
    fun j hj => base_shares D hcongr hj
  have hodd : oddChips d.cfg.numPlayers d.worstHand (handList d.potCommits T) = leftAt d s := odd_left D hcongr
  have f := showdown_facts (worst := d.worstHand) hT2 hd.potCommits D.pos
  refine ⟨?_, by rw [← hodd]; exact oddChips_nonneg f, fun j hj => by rw [← hbase j hj]; exact base_nonneg f j hj⟩
  have hpp := potPayouts_eq d.cfg.numPlayers d.button d.worstHand d.potCommits T (by rw [hT2, hd.potCommits]) D.pos
  have hev : d.evalRound = potPayouts d.cfg.numPlayers d.button d.worstHand d.potCommits.sum d.potCommits T := by
    unfold Dealer.evalRound
    rw [hT1, hpot]
  have hpay : ∀ q, d.evalRound = .ok q → d.payouts = .ok (List.zipWith (· - ·) q d.potCommits) := by
    intro q hq
    unfold Dealer.payouts
    simp only []
    rw [if_neg hone, if_pos hst, hq]
  have hrec : ∀ q : List Int, q.length = d.cfg.numPlayers → ∀ j < d.cfg.numPlayers,
      received d (List.zipWith (· - ·) q d.potCommits) j = q.getD j 0 := by
    intro q hq j hj
    unfold received
    rw [getD_zipWith _ _ _ _ 0 0 _ (by omega) (by rw [hd.potCommits]; exact hj)]
    show q.getD j 0 - d.potCommits.getD j 0 + d.potCommits.getD j 0 = _
    ring
  rw [hpp, hodd] at hev
  have hbtn : d.button % d.cfg.numPlayers = d.button := Nat.mod_eq_of_lt hd.button
  by_cases h0 : leftAt d s = 0
  · rw [if_neg (by simpa using h0)] at hev
    refine .even _ (hpay _ hev) h0 fun j hj => ?_
    rw [hrec _ f.length j hj, hbase j hj]
  · rw [if_pos h0] at hev
    rcases remainderLoop_spec (button := d.button) (r := leftAt d s) d.cfg.numPlayers 1 _ f.length (le_refl _) (by omega) with
      ⟨k, k1, k2, k3, k4, k5⟩ | ⟨k1, k2 | ⟨k2, k3⟩⟩
    · rw [k5] at hev
      rw [hbtn] at k2 k3 k4
      refine .odd _ k (hpay _ hev) h0 k1 (by omega) ?_ ?_ ?_
      · rw [hbase _ k2] at k3
        rwa [Nat.add_comm]
      · intro j h1 h2
        have := k4 j h1 h2
        rw [hbase _ (by omega)] at this
        rwa [Nat.add_comm]
      · intro j hj
        rw [hrec _ (by rw [List.length_modify, f.length]) j hj, getD_modify _ _ _ _ _ (by rw [f.length]; exact hj), hbase j hj]
        split
        · rfl
        · rw [add_zero]
    · rw [k2] at hev
      refine .raises ?_ h0 ?_
      · unfold Dealer.payouts
        simp only []
        rw [if_neg hone, if_pos hst, hev]
      · intro i h1 h2
        rw [hbtn] at k1
        have := k1 (i - d.button) (by omega) (by omega)
        rwa [show i - d.button + d.button = i by omega, hbase i h2] at this
    · have := hd.two; omega

end Clubs

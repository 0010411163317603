import Verif.Lemmas.Kinds
import Verif.Lemmas.Ncr
import Verif.Lemmas.Ranking

/-! Helper lemmas: the keys stored by the table are those of the patterns. -/

namespace Clubs

open Spec

/-- `r` ranks from `off` upwards, highest first -/
def descRanks (r off : Nat) : List Nat := (List.range r).map fun i => off + r - 1 - i

theorem descRanks_succ (r off : Nat) : descRanks (r + 1) off = (off + r) :: descRanks r off := by
  unfold descRanks
  rw [List.range_succ_eq_map, List.map_cons, List.map_map]
  congr 1
  apply List.map_congr_left
  intro i _
  simp; omega

theorem backwardsRanks_eq (r : Nat) (hr : r ≤ 13) : backwardsRanks r = descRanks r (13 - r) := by
  unfold backwardsRanks descRanks
  rw [Int.toNat_natCast]
  apply List.map_congr_left
  intro i hi
  have := List.mem_range.1 hi
  omega

theorem masks_combos (r k off : Nat) :
    ((masks r k).map (· <<< off)).reverse = (combinations k (descRanks r off)).map bitsOf := by
  induction r generalizing k with
  | zero => cases k <;> simp [masks, descRanks, combinations, bitsOf]
  | succ r ih =>
    cases k with
    | zero => simp [masks, combinations, bitsOf]
    | succ k =>
      rw [descRanks_succ]
      simp only [masks, combinations, List.map_append, List.reverse_append, ih]
      congr 1
      rw [List.map_map, List.map_map, ← List.map_reverse]
      have : (fun x => x <<< off) ∘ (fun x => x + 2 ^ r) = (fun y => y + 2 ^ (r + off)) ∘ (fun x => x <<< off) := by
        funext x
        simp only [Function.comp, Nat.shiftLeft_eq, Nat.add_mul, Nat.pow_add]
      rw [this, ← List.map_map, List.map_reverse, ih, List.map_map]
      apply List.map_congr_left
      intro l _
      simp only [Function.comp, bitsOf, List.map_cons, List.sum_cons]
      rw [Nat.add_comm, Nat.add_comm r off]

theorem binVal_ones (c : Nat) : binVal (List.replicate c true) = 2 ^ c - 1 := by
  have h : ∀ c a, (List.replicate c true).foldl (fun acc b => 2 * acc + (if b then 1 else 0)) a
      = 2 ^ c * (a + 1) - 1 := by
    intro c
    induction c with
    | zero => intro a; simp
    | succ c ih =>
      intro a
      rw [List.replicate_succ, List.foldl_cons, ih]
      simp only [if_true]
      congr 1
      ring
  have := h c 0
  simpa [binVal] using this

theorem genFlush_eq (r c : Nat) (hr : r ≤ 13) (hcr : c ≤ r) (sf : List Nat) :
    genFlush c r sf = ((combinations c (backwardsRanks r)).map bitsOf).filter fun f => !sf.contains f := by
  unfold genFlush
  simp only [ncr_eq_choose r c hcr, Int.toNat_natCast, binVal_ones]
  rw [genBits_eq_masks r c hcr, ← List.filter_reverse]
  have : ((13 : Int) - r).toNat = 13 - r := by omega
  rw [this, masks_combos, backwardsRanks_eq r hr]

theorem bitsOf_inj {l l' : List Nat} (h : l.Nodup) (h' : l'.Nodup) (e : bitsOf l = bitsOf l') :
    l.Perm l' := by
  rw [List.perm_ext_iff_of_nodup h h']
  intro x
  have h1 := bitsOf_or l h x
  have h2 := bitsOf_or l' h' x
  rw [e, h2] at h1
  simpa using h1.symm

theorem bitsOf_perm {l l' : List Nat} (h : l.Perm l') : bitsOf l = bitsOf l' :=
  (h.map _).sum_eq

theorem primeFromBits_bitsOf (l : List Nat) (hn : l.Nodup) (hlt : ∀ x ∈ l, x < 13) :
    primeFromBits (bitsOf l) = prodKey l :=
  primeFromBits_eq l hn hlt _ (fun x _ => bitsOf_or l hn x)

theorem straight_bits_table : ∀ r < 14, ∀ c < 6, ∀ low : Bool, ¬ (3 ≤ c ∧ c ≤ r ∧ StraightOK r c low) ∨
    genStraightFlush c r low = (straightPatterns r c low).map bitsOf := by
  decide +kernel

theorem straight_bits {r c : Nat} {low : Bool} (hr : r ≤ 13) (hc : c ≤ 5) (h3 : 3 ≤ c) (hcr : c ≤ r)
    (hs : StraightOK r c low) : genStraightFlush c r low = (straightPatterns r c low).map bitsOf :=
  (straight_bits_table r (by omega) c (by omega) low).resolve_left (fun h => h ⟨h3, hcr, hs⟩)

theorem straightPatterns_ok {r c : Nat} {low : Bool} (hr : r ≤ 13) (hc : c ≤ 5) (h3 : 3 ≤ c) (hcr : c ≤ r)
    (hs : StraightOK r c low) : straightChecks r c low :=
  (straightPatterns_table r (by omega) c (by omega) low).resolve_left (fun h => h ⟨h3, hcr, hs⟩)

/-- case 3 ≤ cards ≤ ranks -/
theorem flush_bits {r c : Nat} {low : Bool} (hr : r ≤ 13) (hc : c ≤ 5) (h3 : 3 ≤ c) (hcr : c ≤ r)
    (hs : StraightOK r c low) :
    genFlush c r (genStraightFlush c r low) = (highPatterns r c low).map bitsOf := by
  rw [genFlush_eq r c hr hcr, straight_bits hr hc h3 hcr hs, highPatterns, List.filter_map]
  congr 1
  apply List.filter_congr
  intro l hl
  have hl' := (mem_combinations _ _ _).1 hl
  have hld : l.Pairwise (· > ·) := (backwardsRanks_desc r hr).sublist hl'.1
  have hln : l.Nodup := hld.imp (fun h => Nat.ne_of_gt h)
  have hch := straightPatterns_ok hr hc h3 hcr hs
  rw [Bool.eq_iff_iff]
  simp only [Function.comp, Bool.not_eq_true', decide_eq_true_eq]
  rw [← Bool.not_eq_true, List.contains_iff_mem, not_iff_not, List.mem_map]
  constructor
  · rintro ⟨l', h1, h2⟩
    obtain ⟨-, -, h5, h6, -⟩ := hch.1 l' h1
    exact (isStraight_perm (bitsOf_inj h5 hln h2) r low).1 h6
  · intro h
    obtain ⟨l', h1, h2⟩ := exists_straight hr hl'.2 (fun x hx => hl'.1.subset hx) h
    exact ⟨l', h1, bitsOf_perm h2⟩

/-- case cards ≤ 2 -/
theorem flush_bits_small {r c : Nat} {low : Bool} (hr : r ≤ 13) (h2 : c ≤ 2) (hcr : c ≤ r) :
    genFlush c r [] = (highPatterns r c low).map bitsOf := by
  rw [genFlush_eq r c hr hcr, highPatterns]
  have e1 : (combinations c (backwardsRanks r)).filter (fun l => decide (¬ IsStraight r low l))
      = combinations c (backwardsRanks r) := by
    rw [List.filter_eq_self]
    intro l hl
    have := combinations_length_of_mem hl
    rw [decide_eq_true_eq]
    intro h
    have := h.1
    omega
  rw [e1]
  simp

theorem map_primeFromBits (L : List (List Nat)) (h : ∀ l ∈ L, l.Nodup ∧ ∀ x ∈ l, x < 13) :
    (L.map bitsOf).map primeFromBits = L.map prodKey := by
  rw [List.map_map]
  apply List.map_congr_left
  intro l hl
  exact primeFromBits_bitsOf l (h l hl).1 (h l hl).2

theorem highPatterns_mem {r c : Nat} {low : Bool} (hr : r ≤ 13) {l : List Nat}
    (h : l ∈ highPatterns r c low) : l.Nodup ∧ ∀ x ∈ l, x < 13 := by
  simp only [highPatterns, List.mem_filter, mem_combinations] at h
  have hld : l.Pairwise (· > ·) := (backwardsRanks_desc r hr).sublist h.1.1
  exact ⟨hld.imp (fun h => Nat.ne_of_gt h),
    fun x hx => ((mem_backwardsRanks r x hr).1 (h.1.1.subset hx)).2⟩

/-- case ranks = cards - 1: the entries made for straights and high cards are products of too few
primes -/
theorem bogus_table : ∀ (r : Nat), r < 5 → ∀ low : Bool,
    ((∀ b ∈ genStraightFlush ((r + 1 : Nat) : Int) r low, primeFromBits b = prodKey (backwardsRanks r)) ∧
     (∀ b ∈ genFlush ((r + 1 : Nat) : Int) r (genStraightFlush ((r + 1 : Nat) : Int) r low),
        primeFromBits b = prodKey (backwardsRanks r)) ∧
     (∀ b ∈ genFlush ((r + 1 : Nat) : Int) r [], primeFromBits b = prodKey (backwardsRanks r))) := by
  decide +kernel

theorem multipleProducts_neg (r c : Nat) (ms : List Nat) (h : c < ms.sum) (l : List Nat)
    (hl : multipleProducts r c ms = .ok l) : l = [] := by
  unfold multipleProducts at hl
  simp only [] at hl
  generalize (if (distinct ms).length > 1 then permutations ms.length (backwardsRanks r)
    else combinations ms.length (backwardsRanks r)) = combs at hl
  cases combs with
  | nil =>
    have : (Except.ok ([] : List (List Nat)) : Except Err _) >>= (fun parts => Except.ok parts.flatten) = .ok l := hl
    simpa [bind, Except.bind, eq_comm] using this
  | cons cr combs =>
    exfalso
    rw [List.mapM_cons] at hl
    rw [if_pos (by omega)] at hl
    simp only [combinationsInt] at hl
    rw [if_pos (by omega)] at hl
    simp [bind, Except.bind] at hl

end Clubs

import Verif.Model.Evaluator
import Verif.Spec.Hands
import Verif.Lemmas.Card
import Mathlib.Data.Nat.Factors
import Mathlib.Data.Nat.Bitwise
import Mathlib.Tactic.NormNum.Prime

/-! Helper lemmas: prime products. -/

namespace Clubs

open Spec

/-- the product of the primes of the ranks -/
def prodKey (rs : List Nat) : Nat := (rs.map primeOf).prod

theorem card_all : ∀ k < 13, ∀ u < 4, Card.new [rankSymbol k, suitLetter u] = .ok (mkCard k u) := by
  decide +kernel

theorem denotes_eq {ps : List (Nat × Nat)} {h : List Card} (ha : AreCards ps) (hd : Denotes ps h) :
    h = ps.map fun p => mkCard p.1 p.2 := by
  induction hd with
  | nil => rfl
  | cons h1 _ ih =>
    next p c ps h _ =>
    have := ha p (by simp)
    rw [card_all _ this.1 _ this.2] at h1
    simp only [Except.ok.injEq] at h1
    rw [List.map_cons, ← ih (fun q hq => ha q (by simp [hq])), h1]

theorem denotes_mk (ps : List (Nat × Nat)) (ha : AreCards ps) :
    Denotes ps (ps.map fun p => mkCard p.1 p.2) := by
  induction ps with
  | nil => exact .nil
  | cons p ps ih =>
    have := ha p (by simp)
    exact .cons (card_all _ this.1 _ this.2) (ih (fun q hq => ha q (by simp [hq])))

theorem foldl_mul_map {α : Type} (f : α → Nat) (l : List α) (a : Nat) :
    l.foldl (fun p c => p * f c) a = a * (l.map f).prod := by
  induction l generalizing a with
  | nil => simp
  | cons x l ih => simp [ih, Nat.mul_assoc]

theorem mkCard_prime (r s : Nat) (hr : r < 13) (hs : s < 4) :
    (mkCard r s).int &&& 0xFF = primeOf r := by
  have : ∀ r < 13, ∀ s < 4, (mkCard r s).int &&& 0xFF = primeOf r := by decide +kernel
  exact this r hr s hs

theorem primeFromHand_eq (ps : List (Nat × Nat)) (ha : AreCards ps) :
    primeFromHand (ps.map fun p => mkCard p.1 p.2) = prodKey (ps.map (·.1)) := by
  unfold primeFromHand prodKey
  rw [foldl_mul_map (fun c : Card => c.int &&& 0xFF)]
  simp only [List.map_map, Nat.one_mul]
  congr 1
  apply List.map_congr_left
  intro p hp
  exact mkCard_prime _ _ (ha p hp).1 (ha p hp).2

theorem primeOf_prime (r : Nat) : Nat.Prime (primeOf r) := by
  unfold primeOf
  split <;> norm_num

/-- the rank of a prime -/
def rankOfPrime : Nat → Nat
  | 2 => 0 | 3 => 1 | 5 => 2 | 7 => 3 | 11 => 4 | 13 => 5 | 17 => 6 | 19 => 7 | 23 => 8 | 29 => 9
  | 31 => 10 | 37 => 11 | _ => 12

theorem rankOfPrime_primeOf (r : Nat) (h : r < 13) : rankOfPrime (primeOf r) = r := by
  have : ∀ r < 13, rankOfPrime (primeOf r) = r := by decide
  exact this r h

theorem prodKey_perm {l l' : List Nat} (h : l.Perm l') : prodKey l = prodKey l' :=
  (h.map primeOf).prod_eq

theorem prodKey_inj {l l' : List Nat} (h : ∀ x ∈ l, x < 13) (h' : ∀ x ∈ l', x < 13)
    (e : prodKey l = prodKey l') : l.Perm l' := by
  have p1 : (l.map primeOf).Perm (l'.map primeOf) := by
    refine (Nat.primeFactorsList_unique (l := l.map primeOf) e ?_).trans
      (Nat.primeFactorsList_unique (l := l'.map primeOf) rfl ?_).symm <;>
    · intro p hp
      obtain ⟨r, -, rfl⟩ := List.mem_map.1 hp
      exact primeOf_prime r
  have inv : ∀ l : List Nat, (∀ x ∈ l, x < 13) → (l.map primeOf).map rankOfPrime = l := by
    intro l hl
    rw [List.map_map]
    conv_rhs => rw [← List.map_id l]
    apply List.map_congr_left
    intro x hx
    exact rankOfPrime_primeOf x (hl x hx)
  have := p1.map rankOfPrime
  rwa [inv l h, inv l' h'] at this

/-- the bit pattern of a set of ranks -/
def bitsOf (rs : List Nat) : Nat := (rs.map (2 ^ ·)).sum

theorem testBit_add_pow (a y : Nat) (h : y.testBit a = false) (x : Nat) :
    (y + 2 ^ a).testBit x = (y.testBit x || decide (a = x)) := by
  induction a generalizing y x with
  | zero =>
    have h0 : y % 2 = 0 := by simpa [Nat.testBit_zero] using h
    cases x with
    | zero => simp [Nat.testBit_zero]; omega
    | succ x =>
      rw [Nat.testBit_succ, Nat.testBit_succ]
      have : (y + 2 ^ 0) / 2 = y / 2 := by simp; omega
      rw [this]; simp
  | succ a ih =>
    rw [Nat.testBit_succ] at h
    cases x with
    | zero => simp [Nat.testBit_zero, Nat.pow_succ]
    | succ x =>
      rw [Nat.testBit_succ, Nat.testBit_succ]
      have : (y + 2 ^ (a + 1)) / 2 = y / 2 + 2 ^ a := by rw [Nat.pow_succ]; omega
      rw [this, ih _ h]; simp

theorem bitsOf_or (rs : List Nat) (hn : rs.Nodup) (x : Nat) : (bitsOf rs).testBit x = decide (x ∈ rs) := by
  induction rs generalizing x with
  | nil => simp [bitsOf]
  | cons a rs ih =>
    simp only [List.nodup_cons] at hn
    have ih := ih hn.2
    have e : bitsOf (a :: rs) = bitsOf rs + 2 ^ a := by
      simp only [bitsOf, List.map_cons, List.sum_cons]; omega
    rw [e, testBit_add_pow _ _ (by rw [ih a]; simp [hn.1]), ih]
    simp only [List.mem_cons]
    by_cases h : x ∈ rs <;> by_cases h2 : x = a <;> simp [h, h2, eq_comm]
    · intro h3; exact h2 h3.symm

theorem primeFromBits_eq (rs : List Nat) (hn : rs.Nodup) (hlt : ∀ x ∈ rs, x < 13) (b : Nat)
    (hb : ∀ x < 13, b.testBit x = decide (x ∈ rs)) : primeFromBits b = prodKey rs := by
  unfold primeFromBits
  have h1 : ∀ (l : List Nat) (a : Nat), (∀ x ∈ l, x < 13) →
      l.foldl (fun product i => if b &&& (1 <<< i) ≠ 0 then product * PRIMES.getD i 0 else product) a
        = a * prodKey (l.filter fun x => decide (x ∈ rs)) := by
    intro l
    induction l with
    | nil => intro a _; simp [prodKey]
    | cons x l ih =>
      intro a hl
      have hx := hl x (by simp)
      rw [List.foldl_cons, ih _ (fun y hy => hl y (by simp [hy]))]
      have hc : b &&& (1 <<< x) ≠ 0 ↔ x ∈ rs := by
        rw [Nat.shiftLeft_eq, Nat.one_mul, Nat.and_two_pow, hb x hx]
        by_cases hm : x ∈ rs <;> simp [hm]
      have hp : PRIMES.getD x 0 = primeOf x := by
        have : ∀ x < 13, PRIMES.getD x 0 = primeOf x := by decide
        exact this x hx
      rw [List.filter_cons]
      by_cases hm : x ∈ rs
      · rw [if_pos (hc.2 hm), if_pos (by simpa using hm), hp]
        simp [prodKey, Nat.mul_assoc]
      · rw [if_neg (fun h => hm (hc.1 h)), if_neg (by simpa using hm)]
  rw [h1 INT_RANKS 1 (by simp [INT_RANKS]), Nat.one_mul]
  apply prodKey_perm
  rw [List.perm_iff_count]
  intro x
  have n2 : (INT_RANKS.filter fun x => decide (x ∈ rs)).Nodup :=
    List.Nodup.filter _ (by unfold INT_RANKS; exact List.nodup_range)
  rw [List.Nodup.count n2, List.Nodup.count hn]
  congr 1
  simp only [List.mem_filter, INT_RANKS, List.mem_range, decide_eq_true_eq, eq_iff_iff]
  exact ⟨fun h => h.2, fun h => ⟨hlt x h, h⟩⟩

theorem testBit_foldl_or (l : List Card) (a x : Nat) :
    (l.foldl (fun a c => a ||| c.int) a).testBit x = (a.testBit x || l.any fun c => c.int.testBit x) := by
  induction l generalizing a with
  | nil => simp
  | cons c l ih => simp [ih, Bool.or_assoc]

theorem mkCard_testBit (r s x : Nat) (hr : r < 13) (hs : s < 4) (hx : x < 13) :
    (mkCard r s).int.testBit (16 + x) = decide (x = r) := by
  have : ∀ r < 13, ∀ s < 4, ∀ x < 13, (mkCard r s).int.testBit (16 + x) = decide (x = r) := by
    decide +kernel
  exact this r hr s hs x hx

/-- the key of a suited hand, read off the rank bits (`evaluator.py:340-341`) -/
theorem primeFromBits_hand (p : Nat × Nat) (ps : List (Nat × Nat)) (ha : AreCards (p :: ps))
    (hn : ((p :: ps).map (·.1)).Nodup) :
    primeFromBits (((ps.map fun p => mkCard p.1 p.2).foldl (fun a c => a ||| c.int)
      (mkCard p.1 p.2).int) >>> 16) = prodKey ((p :: ps).map (·.1)) := by
  apply primeFromBits_eq _ hn
  · intro x hx
    obtain ⟨q, hq, rfl⟩ := List.mem_map.1 hx
    exact (ha q hq).1
  · intro x hx
    rw [Nat.testBit_shiftRight, testBit_foldl_or, List.any_map]
    have hp := ha p (by simp)
    rw [mkCard_testBit _ _ _ hp.1 hp.2 hx, Bool.eq_iff_iff]
    simp only [Bool.or_eq_true, List.any_eq_true, Function.comp, decide_eq_true_eq, List.map_cons,
      List.mem_cons, List.mem_map]
    constructor
    · rintro (h | ⟨q, hq, h⟩)
      · exact .inl h
      · rw [mkCard_testBit _ _ _ (ha q (by simp [hq])).1 (ha q (by simp [hq])).2 hx] at h
        exact .inr ⟨q, hq, by simpa [eq_comm] using h⟩
    · rintro (h | ⟨q, hq, h⟩)
      · exact .inl h
      · refine .inr ⟨q, hq, ?_⟩
        rw [mkCard_testBit _ _ _ (ha q (by simp [hq])).1 (ha q (by simp [hq])).2 hx]
        simp [h]

end Clubs

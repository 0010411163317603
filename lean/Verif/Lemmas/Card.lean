import Verif.Model.Card
import Verif.Spec.Cards

/-! Helper lemmas about `Card.new`. -/

namespace Clubs

open Spec

theorem char_eq_iff (c d : Char) : c = d ↔ c.val.toNat = d.val.toNat := by
  constructor
  · rintro rfl; rfl
  · intro h; exact Char.ext (UInt32.toNat.inj h)

/-- The card with rank number `r` and suit number `s`, as `Card.new` builds it. -/
def mkCard (r s : Nat) : Card :=
  { int := ((1 <<< r) <<< 16) ||| ((1 <<< s) <<< 12) ||| (r <<< 8) ||| primeOf r
    suit := suitSymbol s
    rank := rankSymbol r }

theorem pyUpper_toNat (c : Char) :
    (pyUpper c).val.toNat =
      if c.val.toNat = 0x17F then 83
      else if 97 ≤ c.val.toNat ∧ c.val.toNat ≤ 122 then c.val.toNat - 32 else c.val.toNat := by
  unfold pyUpper
  by_cases h1 : c = Char.ofNat 0x17F
  · subst h1; decide
  · rw [if_neg h1]
    have h1' : ¬ c.val.toNat = 0x17F := by
      intro h; apply h1; rw [char_eq_iff]; exact h
    rw [if_neg h1']
    unfold Char.toUpper
    have e1 : ('a'.val ≤ c.val ∧ c.val ≤ 'z'.val) ↔ (97 ≤ c.val.toNat ∧ c.val.toNat ≤ 122) := by
      rw [UInt32.le_iff_toNat_le, UInt32.le_iff_toNat_le]; rfl
    by_cases h2 : 'a'.val ≤ c.val ∧ c.val ≤ 'z'.val
    · rw [dif_pos h2, if_pos (e1.1 h2)]
      have := e1.1 h2
      show (c.val + ('A'.val - 'a'.val)).toNat = _
      rw [UInt32.toNat_add]
      have : ('A'.val - 'a'.val).toNat = 4294967264 := by decide
      rw [this]; omega
    · rw [dif_neg h2, if_neg (fun h => h2 (e1.2 h))]

theorem pyUpper_big (c : Char) (h : 384 ≤ c.val.toNat) : pyUpper c = c := by
  rw [char_eq_iff, pyUpper_toNat, if_neg (by omega), if_neg (by omega)]

theorem small_char (c : Char) (h : c.val.toNat < 384) : ∃ n, n < 384 ∧ c = Char.ofNat n := by
  refine ⟨c.val.toNat, h, ?_⟩
  rw [show c.val.toNat = c.toNat from rfl, Char.ofNat_toNat]

theorem rank_lookup (c : Char) : dictGet CHAR_RANK_TO_INT_RANK (pyUpper c) = rankOf c := by
  by_cases h : c.val.toNat < 384
  · obtain ⟨n, hn, rfl⟩ := small_char c h
    have : ∀ n < 384, dictGet CHAR_RANK_TO_INT_RANK (pyUpper (Char.ofNat n)) = rankOf (Char.ofNat n) := by
      decide +kernel
    exact this n hn
  · have h' : 384 ≤ c.val.toNat := by omega
    rw [pyUpper_big c h']
    have ne : ∀ d : Char, d.val.toNat < 384 → (c == d) = false := by
      intro d hd
      rw [beq_eq_false_iff_ne]
      rintro rfl; omega
    have hr : rankOf c = none := by
      unfold rankOf
      split <;> first | rfl | (exfalso; revert h'; decide)
    rw [hr]
    simp only [dictGet, CHAR_RANK_TO_INT_RANK, STR_RANKS, INT_RANKS, List.range, List.range.loop,
      List.zip_cons_cons, List.zip_nil_left, List.lookup_cons, List.lookup_nil]
    simp [ne]

theorem suit_lookup (c : Char) :
    dictGet CHAR_SUIT_TO_INT_SUIT (pyUpper c) = (suitOf c).map (fun s => 1 <<< s) := by
  by_cases h : c.val.toNat < 384
  · obtain ⟨n, hn, rfl⟩ := small_char c h
    have : ∀ n < 384, dictGet CHAR_SUIT_TO_INT_SUIT (pyUpper (Char.ofNat n))
        = (suitOf (Char.ofNat n)).map (fun s => 1 <<< s) := by
      decide +kernel
    exact this n hn
  · have h' : 384 ≤ c.val.toNat := by omega
    rw [pyUpper_big c h']
    have ne : ∀ d : Char, d.val.toNat < 384 → (c == d) = false := by
      intro d hd
      rw [beq_eq_false_iff_ne]
      rintro rfl; omega
    have hr : suitOf c = none := by
      unfold suitOf
      split <;> first | rfl | (exfalso; revert h'; decide)
    rw [hr]
    simp [dictGet, CHAR_SUIT_TO_INT_SUIT, List.lookup_cons, ne]

theorem rankOf_lt {c : Char} {r : Nat} (h : rankOf c = some r) : r < 13 := by
  unfold rankOf at h
  split at h <;> simp at h <;> omega

theorem suitOf_lt {c : Char} {s : Nat} (h : suitOf c = some s) : s < 4 := by
  unfold suitOf at h
  split at h <;> simp at h <;> omega

/-- `Card.new` in terms of the specification tables. -/
theorem Card.new_cons (c0 c1 : Char) (rest : List Char) :
    Card.new (c0 :: c1 :: rest) =
      match rankOf c0, suitOf c1 with
      | none, _ => .error .invalidRank
      | some _, none => .error .invalidSuit
      | some r, some s => .ok (mkCard r s) := by
  unfold Card.new
  simp only [rank_lookup, suit_lookup]
  cases hr : rankOf c0 with
  | none => rfl
  | some r =>
    cases hs : suitOf c1 with
    | none => rfl
    | some s =>
      have h1 := rankOf_lt hr
      have h2 := suitOf_lt hs
      simp only [Option.map_some]
      have e1 : PRIMES[r]? = some (primeOf r) := by
        have : ∀ r < 13, PRIMES[r]? = some (primeOf r) := by decide
        exact this r h1
      have e2 : dictGet PRETTY_SUITS (1 <<< s) = some (suitSymbol s) := by
        have : ∀ s < 4, dictGet PRETTY_SUITS (1 <<< s) = some (suitSymbol s) := by decide
        exact this s h2
      have e3 : STR_RANKS[r]? = some (rankSymbol r) := by
        have : ∀ r < 13, STR_RANKS[r]? = some (rankSymbol r) := by decide
        exact this r h1
      rw [e1, e2, e3]
      rfl

end Clubs

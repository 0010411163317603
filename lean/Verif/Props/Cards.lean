import Verif.Lemmas.Card

/-! # C01 and C02: card parsing and card integers -/

namespace Clubs

open Spec

/-! ## C01 -/

/-- C01: `Card(s)` succeeds exactly for a rank character followed by a suit character (in either
letter case), followed by anything. -/
theorem C01_accepts (s : List Char) :
    (∃ c, Card.new s = .ok c) ↔
      ∃ c0 c1 rest, s = c0 :: c1 :: rest ∧ (rankOf c0).isSome ∧ (suitOf c1).isSome := by
  constructor
  · rintro ⟨c, hc⟩
    match s, hc with
    | [], hc => simp [Card.new] at hc
    | [_], hc => simp [Card.new] at hc
    | c0 :: c1 :: rest, hc =>
      refine ⟨c0, c1, rest, rfl, ?_⟩
      rw [Card.new_cons] at hc
      cases hr : rankOf c0 <;> cases hs : suitOf c1 <;> simp [hr, hs] at hc ⊢
  · rintro ⟨c0, c1, rest, rfl, h0, h1⟩
    obtain ⟨r, hr⟩ := Option.isSome_iff_exists.1 h0
    obtain ⟨u, hu⟩ := Option.isSome_iff_exists.1 h1
    exact ⟨mkCard r u, by rw [Card.new_cons, hr, hu]⟩

example : (rankOf 'a').isSome ∧ (suitOf 'D').isSome := by decide

/-- C01: the exception: too short, then a bad rank, then a bad suit; there is no other. -/
theorem C01_rejects (s : List Char) (e : Err) :
    Card.new s = .error e ↔
      (s.length < 2 ∧ e = .indexError) ∨
      (∃ c0 c1 rest, s = c0 :: c1 :: rest ∧
        ((rankOf c0 = none ∧ e = .invalidRank) ∨
         ((rankOf c0).isSome ∧ suitOf c1 = none ∧ e = .invalidSuit))) := by
  match s with
  | [] => simp [Card.new, eq_comm (a := Err.indexError)]
  | [_] => simp [Card.new, eq_comm (a := Err.indexError)]
  | c0 :: c1 :: rest =>
    rw [Card.new_cons]
    have key : ∀ P : Char → Char → Prop,
        (∃ a b l, c0 :: c1 :: rest = a :: b :: l ∧ P a b) ↔ P c0 c1 := by
      intro P
      constructor
      · rintro ⟨a, b, l, h, hp⟩
        simp only [List.cons.injEq] at h
        obtain ⟨rfl, rfl, -⟩ := h
        exact hp
      · intro hp; exact ⟨c0, c1, rest, rfl, hp⟩
    rw [key (fun a b => (rankOf a = none ∧ e = .invalidRank) ∨
         ((rankOf a).isSome ∧ suitOf b = none ∧ e = .invalidSuit))]
    have hlen : ¬ (c0 :: c1 :: rest).length < 2 := by simp
    cases hr : rankOf c0 <;> cases hs : suitOf c1 <;> simp [hlen, -List.length_cons] <;> exact eq_comm

example : Card.new ['1', 'x'] = .error .invalidRank ∧ Card.new ['2', 'x'] = .error .invalidSuit ∧
    Card.new ['2'] = .error .indexError := by decide

/-- C01: letter case and the characters after the second do not matter; different ranks or suits
give different cards. -/
theorem C01_same_card (c0 c1 d0 d1 : Char) (rest rest' : List Char)
    (hc0 : (rankOf c0).isSome) (hc1 : (suitOf c1).isSome)
    (hd0 : (rankOf d0).isSome) (hd1 : (suitOf d1).isSome) :
    Card.new (c0 :: c1 :: rest) = Card.new (d0 :: d1 :: rest') ↔
      rankOf c0 = rankOf d0 ∧ suitOf c1 = suitOf d1 := by
  obtain ⟨r, hr⟩ := Option.isSome_iff_exists.1 hc0
  obtain ⟨u, hu⟩ := Option.isSome_iff_exists.1 hc1
  obtain ⟨r', hr'⟩ := Option.isSome_iff_exists.1 hd0
  obtain ⟨u', hu'⟩ := Option.isSome_iff_exists.1 hd1
  have inj : ∀ r < 13, ∀ u < 4, ∀ r' < 13, ∀ u' < 4,
      ¬ (mkCard r u).int = (mkCard r' u').int ∨ (r = r' ∧ u = u') := by decide +kernel
  rw [Card.new_cons, Card.new_cons, hr, hu, hr', hu']
  simp only [Except.ok.injEq, Option.some.injEq]
  constructor
  · intro h
    exact (inj r (rankOf_lt hr) u (suitOf_lt hu) r' (rankOf_lt hr') u' (suitOf_lt hu')).resolve_left
      (fun hn => hn (congrArg Card.int h))
  · rintro ⟨rfl, rfl⟩; rfl

example : rankOf 'T' = rankOf 't' ∧ suitOf 'h' = suitOf 'H' := by decide

/-! ## C02 -/

/-- C02: bit layout. The low byte is the prime, then four bits of rank number, four bits of suit, and
a one-hot rank field of 13 bits; nothing above. Rank and suit can be read back. -/
theorem C02_layout (s : List Char) (c : Card) (h : Card.new s = .ok c) :
    ∃ c0 c1 rest r u, s = c0 :: c1 :: rest ∧ rankOf c0 = some r ∧ suitOf c1 = some u ∧
      c.int % 2 ^ 8 = primeOf r ∧
      c.int / 2 ^ 8 % 2 ^ 4 = r ∧
      c.int / 2 ^ 12 % 2 ^ 4 = 2 ^ u ∧
      c.int / 2 ^ 16 = 2 ^ r ∧
      c.int < 2 ^ 29 ∧
      c.str = [rankSymbol r, suitSymbol u] := by
  obtain ⟨c0, c1, rest, rfl, h0, h1⟩ := (C01_accepts s).1 ⟨c, h⟩
  obtain ⟨r, hr⟩ := Option.isSome_iff_exists.1 h0
  obtain ⟨u, hu⟩ := Option.isSome_iff_exists.1 h1
  rw [Card.new_cons, hr, hu] at h
  simp only [Except.ok.injEq] at h
  subst h
  refine ⟨c0, c1, rest, r, u, rfl, hr, hu, ?_⟩
  have all : ∀ r < 13, ∀ u < 4,
      (mkCard r u).int % 2 ^ 8 = primeOf r ∧
      (mkCard r u).int / 2 ^ 8 % 2 ^ 4 = r ∧
      (mkCard r u).int / 2 ^ 12 % 2 ^ 4 = 2 ^ u ∧
      (mkCard r u).int / 2 ^ 16 = 2 ^ r ∧
      (mkCard r u).int < 2 ^ 29 ∧
      (mkCard r u).str = [rankSymbol r, suitSymbol u] := by decide +kernel
  exact all r (rankOf_lt hr) u (suitOf_lt hu)

/-- C02: two cards compare equal (`==`) iff their rank and suit symbols agree. -/
theorem C02_eq (s t : List Char) (c d : Card) (hc : Card.new s = .ok c) (hd : Card.new t = .ok d) :
    c.eq d = true ↔ c.rank = d.rank ∧ c.suit = d.suit := by
  obtain ⟨c0, c1, rest, rfl, h0, h1⟩ := (C01_accepts s).1 ⟨c, hc⟩
  obtain ⟨d0, d1, rest', rfl, k0, k1⟩ := (C01_accepts t).1 ⟨d, hd⟩
  obtain ⟨r, hr⟩ := Option.isSome_iff_exists.1 h0
  obtain ⟨u, hu⟩ := Option.isSome_iff_exists.1 h1
  obtain ⟨r', hr'⟩ := Option.isSome_iff_exists.1 k0
  obtain ⟨u', hu'⟩ := Option.isSome_iff_exists.1 k1
  rw [Card.new_cons, hr, hu] at hc
  rw [Card.new_cons, hr', hu'] at hd
  simp only [Except.ok.injEq] at hc hd
  subst hc; subst hd
  have all : ∀ r < 13, ∀ u < 4, ∀ r' < 13, ∀ u' < 4,
      ((mkCard r u).eq (mkCard r' u') = true ↔
        (mkCard r u).rank = (mkCard r' u').rank ∧ (mkCard r u).suit = (mkCard r' u').suit) := by
    decide +kernel
  exact all r (rankOf_lt hr) u (suitOf_lt hu) r' (rankOf_lt hr') u' (suitOf_lt hu')

/-- the ace of spades -/
example : Card.new ['A', 'S'] = .ok { int := 268442665, suit := '♠', rank := 'A' } := by decide

end Clubs

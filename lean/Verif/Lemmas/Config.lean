import Verif.Lemmas.Dealing
import Verif.Lemmas.Steps
import Verif.Spec.Config

/-!
# Helper lemmas for the constructor properties
-/

namespace Clubs

open Spec

theorem checkInp_ok {α : Type} {l : ListOr α} {n : Int} (h : Fits1 l n) :
    ∃ x, checkInp l n = .ok x ∧ Expands l n x := by
  cases l with
  | scalar v =>
    refine ⟨_, rfl, by simp, ?_⟩
    intro i x
    simp only [List.getElem?_replicate, SaysAt]
    constructor
    · intro h
      split at h
      · rename_i h1
        simp only [Option.some.injEq] at h
        exact ⟨by omega, h.symm⟩
      · simp at h
    · rintro ⟨h1, rfl⟩
      rw [if_pos (by omega)]
  | list l =>
    simp only [Fits1] at h
    refine ⟨l, by simp [checkInp, h], by omega, ?_⟩
    intro i x
    simp [SaysAt]

theorem checkInp_error {α : Type} {l : ListOr α} {n : Int} (h : ¬ Fits1 l n) :
    checkInp l n = .error .invalidConfig := by
  cases l with
  | scalar v => simp [Fits1] at h
  | list l =>
    simp only [Fits1] at h
    simp [checkInp, h]

theorem checkInp_replicate {α : Type} (v : α) (n : Int) (h : 0 ≤ n) :
    checkInp (.list (List.replicate n.toNat v)) n = checkInp (.scalar v) n := by
  simp [checkInp, h]

theorem cleanRs_ok {x : RawRaise} (h : x ≠ .other) : ∃ y, cleanRs x = .ok y := by
  cases x <;> simp_all [cleanRs]

theorem cleanNumRaises_ok {x : RawNumRaises} (h : x ≠ .badString) : ∃ y, cleanNumRaises x = .ok y := by
  cases x <;> simp_all [cleanNumRaises]

theorem pyGet_one {bl : List Int} (h : 2 ≤ bl.length) : pyGet bl 1 = .ok (bl[1]'(by omega)) :=
  pyGet_nat (i := 1) h

theorem mapM_mem {α β : Type} {f : α → Except Err β} {l : List α} {l' : List β} (h : l.mapM f = .ok l') {x : α}
    (hx : x ∈ l) : ∃ y, f x = .ok y := by
  have hf := (mapM_ok_iff _ _ _).1 h
  clear h
  induction hf with
  | nil => simp at hx
  | cons h1 _ ih =>
    rcases List.mem_cons.1 hx with rfl | hx
    · exact ⟨_, h1⟩
    · exact ih hx

/-- `POS_DICT` has an entry for two to ten players. -/
theorem posDict_iff (n : Nat) : (∃ p, dictGet POS_DICT n = some p) ↔ 2 ≤ n ∧ n ≤ 10 := by
  constructor
  · rintro ⟨p, hp⟩
    by_contra hn
    have : dictGet POS_DICT n = none := by
      unfold dictGet POS_DICT
      simp only [List.lookup]
      have h : ∀ k, 2 ≤ k → k ≤ 10 → (n == k) = false := by intro k h1 h2; simp; omega
      simp [h]
    rw [this] at hp; simp at hp
  · rintro ⟨h1, h2⟩
    have : ∀ n < 11, 2 ≤ n → (dictGet POS_DICT n).isSome = true := by decide
    exact Option.isSome_iff_exists.1 (this n (by omega) h1)

theorem new_cfg {a : DealerArgs} {shuf : Shuffle} {d : Dealer} (h : Dealer.new a shuf = .ok d) :
    d.cfg.mandatoryNumHoleCards = a.mandatoryNumHoleCards ∧ d.cfg.numCardsForHand = a.numCardsForHand := by
  unfold Dealer.new at h
  simp only [bind, Except.bind, pure, Except.pure] at h
  repeat' (split at h; · simp at h)
  simp only [Except.ok.injEq] at h
  subst h
  exact ⟨rfl, rfl⟩

/-- the constructor, once its lists have been expanded -/
theorem new_lists {a : DealerArgs} (shuf : Shuffle) (h : ListsFit a) :
    ∃ bl an rs nr nc, Expands a.blinds a.numPlayers bl ∧ Expands a.antes a.numPlayers an ∧
      Expands a.raiseSizes a.numStreets rs ∧ Expands a.numRaises a.numStreets nr ∧
      Expands a.numCommunityCards a.numStreets nc ∧
      Dealer.new a shuf = (do
        let bigBlind ← pyGet bl 1
        let rs' ← rs.mapM cleanRs
        let nr' ← nr.mapM cleanNumRaises
        let deck ← Deck.new a.numSuits a.numRanks shuf
        let evaluator ← Evaluator.new a.numSuits a.numRanks a.numCardsForHand a.mandatoryNumHoleCards
          a.lowEndStraight a.order
        let n := a.numPlayers.toNat
        let _ ← (match dictGet POS_DICT n with
          | some p => .ok p
          | none => .error .keyError : Except Err (List Nat))
        return {
          cfg := {
            numPlayers := n, numStreets := a.numStreets.toNat, blinds := bl, antes := an, bigBlind, raiseSizes := rs'
            numRaises := nr', numSuits := a.numSuits, numRanks := a.numRanks, numHoleCards := a.numHoleCards
            numCommunityCards := nc, numCardsForHand := a.numCardsForHand
            mandatoryNumHoleCards := a.mandatoryNumHoleCards, startStack := a.startStack, evaluator }
          action := none, active := List.replicate n false, button := 0, communityCards := [], deck
          history := [], holeCards := [], largestRaise := 0, pot := 0, potCommits := List.replicate n 0
          «stacks» := List.replicate n a.startStack, street := 0, streetCommits := List.replicate n 0
          streetOption := List.replicate n false, streetRaises := 0 }) := by
  obtain ⟨h1, h2, h3, h4, h5⟩ := h
  obtain ⟨bl, e1, x1⟩ := checkInp_ok h1
  obtain ⟨an, e2, x2⟩ := checkInp_ok h2
  obtain ⟨rs, e3, x3⟩ := checkInp_ok h3
  obtain ⟨nr, e4, x4⟩ := checkInp_ok h4
  obtain ⟨nc, e5, x5⟩ := checkInp_ok h5
  refine ⟨bl, an, rs, nr, nc, x1, x2, x3, x4, x5, ?_⟩
  unfold Dealer.new
  rw [e1, e2, e3, e4, e5]
  rfl

end Clubs

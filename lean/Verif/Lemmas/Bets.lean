import Verif.Lemmas.Inv

/-! # Bet sizes -/

namespace Clubs

open Spec

/-- `_bet_sizes` spelled out -/
theorem betSizes_spec {d : Dealer} {c lo hi : Int} (h : d.betSizes = .ok (c, lo, hi)) :
    ∃ rs nr, d.cfg.raiseSizes[d.street]? = some rs ∧ d.cfg.numRaises[d.street]? = some nr ∧
      c = min (pyMax d.streetCommits - streetBet d d.seat) (stack d d.seat) ∧
      ((nr.reached d.streetRaises = true ∨
          (d.streetRaises ≠ 0 ∧ pyMax d.streetCommits - streetBet d d.seat < d.largestRaise)) →
        lo = min 0 (stack d d.seat) ∧ hi = min 0 (stack d d.seat)) ∧
      (¬ (nr.reached d.streetRaises = true ∨
          (d.streetRaises ≠ 0 ∧ pyMax d.streetCommits - streetBet d d.seat < d.largestRaise)) →
        match rs with
        | .int n => lo = min (n + (pyMax d.streetCommits - streetBet d d.seat)) (stack d d.seat) ∧ hi = lo
        | .pot => lo = min (max d.cfg.bigBlind (d.largestRaise + (pyMax d.streetCommits - streetBet d d.seat)))
              (stack d d.seat) ∧
            hi = min (d.pot + (pyMax d.streetCommits - streetBet d d.seat) * 2) (stack d d.seat)
        | .inf => lo = min (max d.cfg.bigBlind (d.largestRaise + (pyMax d.streetCommits - streetBet d d.seat)))
              (stack d d.seat) ∧ hi = stack d d.seat) := by
  unfold Dealer.betSizes at h
  simp only [] at h
  cases hr : d.cfg.raiseSizes[d.street]? with
  | none => rw [hr] at h; simp at h
  | some rs =>
    cases hn : d.cfg.numRaises[d.street]? with
    | none => rw [hr, hn] at h; simp at h
    | some nr =>
      rw [hr, hn] at h
      simp only [Except.ok.injEq, Prod.mk.injEq] at h
      obtain ⟨h1, h2, h3⟩ := h
      refine ⟨rs, nr, rfl, rfl, h1.symm, ?_, ?_⟩
      · intro hc
        by_cases hx : d.streetRaises ≠ 0 ∧ pyMax d.streetCommits - d.streetCommits.getD d.seat 0 < d.largestRaise
        · rw [if_pos hx] at h2 h3
          exact ⟨h2.symm, h3.symm⟩
        · rw [if_neg hx] at h2 h3
          rw [if_pos (hc.resolve_right hx)] at h2 h3
          exact ⟨h2.symm, h3.symm⟩
      · intro hc
        rw [not_or] at hc
        unfold streetBet at hc
        rw [if_neg hc.2, if_neg hc.1] at h2 h3
        cases rs with
        | int n => exact ⟨h2.symm, h3.symm.trans h2⟩
        | pot => exact ⟨h2.symm, h3.symm⟩
        | inf => exact ⟨h2.symm, by rw [← h3]; simp [stack]⟩

theorem iabs_eq (x : Int) : iabs x = |x| := by
  unfold iabs
  split
  · next h => rw [abs_of_neg h]
  · next h => rw [abs_of_nonneg (by omega)]

/-- `_clean_bet` by cases -/
theorem cleanBet_cases (b c lo hi : Int) :
    (|0 - max 0 b| ≤ |c - max 0 b| ∧ |0 - max 0 b| ≤ |lo - max 0 b| ∧ |0 - max 0 b| ≤ |hi - max 0 b| ∧
      cleanBet b c lo hi = 0) ∨
    (|c - max 0 b| < |0 - max 0 b| ∧ |c - max 0 b| ≤ |lo - max 0 b| ∧ |c - max 0 b| ≤ |hi - max 0 b| ∧
      cleanBet b c lo hi = c) ∨
    (|lo - max 0 b| < |0 - max 0 b| ∧ |lo - max 0 b| < |c - max 0 b| ∧ |lo - max 0 b| ≤ |hi - max 0 b| ∧
      cleanBet b c lo hi = min hi (max lo (max 0 b))) ∨
    (|hi - max 0 b| < |0 - max 0 b| ∧ |hi - max 0 b| < |c - max 0 b| ∧ |hi - max 0 b| < |lo - max 0 b| ∧
      cleanBet b c lo hi = min hi (max lo (max 0 b))) := by
  unfold cleanBet argmin
  simp only [List.map_cons, List.map_nil, argminLoop, iabs_eq, if_true]
  generalize |0 - max 0 b| = a0
  generalize |c - max 0 b| = a1
  generalize |lo - max 0 b| = a2
  generalize |hi - max 0 b| = a3
  by_cases h1 : a1 < a0 <;> by_cases h2 : a2 < a0 <;> by_cases h3 : a2 < a1 <;> by_cases h4 : a3 < a0 <;>
    by_cases h5 : a3 < a1 <;> by_cases h6 : a3 < a2 <;> simp [h1, h2, h3, h4, h5, h6] <;> omega

/-- the chosen bet is not negative -/
theorem cleanBet_nonneg {b c lo hi : Int} (h : 0 ≤ lo → 0 ≤ hi) : 0 ≤ cleanBet b c lo hi := by
  have hB : 0 ≤ max 0 b := le_max_left _ _
  have key : ∀ v : Int, |v - max 0 b| < |0 - max 0 b| → 0 ≤ v := by
    intro v hv
    by_contra hneg
    rw [abs_of_neg (by omega), abs_of_nonpos (by omega)] at hv
    omega
  rcases cleanBet_cases b c lo hi with h1 | h1 | h1 | h1
  · rw [h1.2.2.2]
  · rw [h1.2.2.2]; exact key c h1.1
  · rw [h1.2.2.2]
    have := h (key lo h1.1)
    omega
  · rw [h1.2.2.2]
    have := key hi h1.1
    omega

/-- the maximum of the street commitments is at least the own one -/
theorem call_nonneg {d : Dealer} (h : Seated d) : 0 ≤ pyMax d.streetCommits - streetBet d d.seat := by
  have := pyMax_getD (l := d.streetCommits) (i := d.seat) (by rw [h.streetCommits]; exact seat_lt h)
  unfold streetBet; omega

theorem betSizes_le {d : Dealer} {c lo hi : Int} (h : d.betSizes = .ok (c, lo, hi)) :
    c ≤ stack d d.seat ∧ lo ≤ stack d d.seat ∧ hi ≤ stack d d.seat := by
  obtain ⟨rs, nr, -, -, h1, h2, h3⟩ := betSizes_spec h
  by_cases hc : nr.reached d.streetRaises = true ∨
          (d.streetRaises ≠ 0 ∧ pyMax d.streetCommits - streetBet d d.seat < d.largestRaise)
  · obtain ⟨h4, h5⟩ := h2 hc
    omega
  · have := h3 hc
    cases rs <;> simp only [] at this <;> omega

theorem betSizes_lo_hi {d : Dealer} (hd : Seated d) (hp : 0 ≤ d.pot) {c lo hi : Int} (h : d.betSizes = .ok (c, lo, hi)) :
    0 ≤ lo → 0 ≤ hi := by
  have hc0 := call_nonneg hd
  obtain ⟨rs, nr, -, -, h1, h2, h3⟩ := betSizes_spec h
  by_cases hc : nr.reached d.streetRaises = true ∨
          (d.streetRaises ≠ 0 ∧ pyMax d.streetCommits - streetBet d d.seat < d.largestRaise)
  · obtain ⟨h4, h5⟩ := h2 hc
    omega
  · have := h3 hc
    cases rs <;> simp only [] at this <;> omega

end Clubs

import Verif.Lemmas.Steps

/-! # Asking for the payouts again after a showdown: the pot is then 0, but the result is the same -/

namespace Clubs

open Spec

theorem minSum_nonneg (l : List Hand) (h : Hand) (hl : ∀ g ∈ l, 0 ≤ g.commit) (hh : 0 ≤ h.commit) :
    0 ≤ (l.map fun g => min g.commit h.commit).sum := by
  apply List.sum_nonneg
  intro x hx
  obtain ⟨g, hg, rfl⟩ := List.mem_map.1 hx
  have := hl g hg
  omega

theorem potStep_commits (worst : Int) (st : PotState) (i : Nat) (h : Hand) :
    (potStep worst st i h).hands.map (·.commit) = st.hands.map fun g => g.commit - min g.commit h.commit := by
  unfold potStep
  simp only []
  apply List.ext_getElem
  · simp
  · intro j h1 h2
    simp only [List.getElem_map, List.getElem_modify]
    split <;> rfl

/-- nothing left to distribute: the rest of the loop does nothing -/
theorem potLoop_zero (worst : Int) (fuel i : Nat) (st : PotState) (h0 : ∀ g ∈ st.hands, g.commit = 0) :
    potLoop worst fuel i st = st := by
  induction fuel generalizing i with
  | zero => rfl
  | succ fuel ih =>
    rw [potLoop]
    split
    · rfl
    · next h hh =>
      have hm : h ∈ st.hands := List.mem_of_getElem? hh
      have : (st.hands.map fun g => min g.commit h.commit).sum = 0 := by
        apply List.sum_eq_zero
        intro x hx
        obtain ⟨g, hg, rfl⟩ := List.mem_map.1 hx
        rw [h0 g hg, h0 h hm]; rfl
      rw [if_pos this]
      exact ih _

/-- The loop with the true pot, which stops when the pot is empty, and the loop with a pot of 0, which runs to the end. -/
theorem potLoop_pot (worst : Int) (fuel i : Nat) (st : PotState) (q : Int) (hq : q ≤ 0)
    (hpos : ∀ g ∈ st.hands, 0 ≤ g.commit) (hpot : st.pot = (st.hands.map (·.commit)).sum) :
    (potLoop worst fuel i { st with pot := q }).payouts = (potLoop worst fuel i st).payouts ∧
    (potLoop worst fuel i { st with pot := q }).remainder = (potLoop worst fuel i st).remainder := by
  induction fuel generalizing i st q with
  | zero => exact ⟨rfl, rfl⟩
  | succ fuel ih =>
    rw [potLoop, potLoop]
    simp only []
    cases hg : st.hands[i]? with
    | none => exact ⟨rfl, rfl⟩
    | some h =>
      simp only []
      have hm : h ∈ st.hands := List.mem_of_getElem? hg
      have hnn := minSum_nonneg st.hands h hpos (hpos h hm)
      by_cases hz : (st.hands.map fun g => min g.commit h.commit).sum = 0
      · rw [if_pos hz, if_pos hz]
        exact ih _ _ _ hq hpos hpot
      · rw [if_neg hz, if_neg hz]
        have e1 : potStep worst { st with pot := q } i h =
            { potStep worst st i h with pot := q - (st.hands.map fun g => min g.commit h.commit).sum } := rfl
        rw [e1]
        simp only []
        have e2 : (potStep worst st i h).pot = st.pot - (st.hands.map fun g => min g.commit h.commit).sum := rfl
        have hc := potStep_commits worst st i h
        have hpos' : ∀ g ∈ (potStep worst st i h).hands, 0 ≤ g.commit := by
          intro g hgm
          have : g.commit ∈ (potStep worst st i h).hands.map (·.commit) := List.mem_map.2 ⟨g, hgm, rfl⟩
          rw [hc] at this
          obtain ⟨g', hg', e⟩ := List.mem_map.1 this
          rw [← e]
          omega
        have hpot' : (potStep worst st i h).pot = ((potStep worst st i h).hands.map (·.commit)).sum := by
          rw [hc, e2, hpot]
          have : ∀ l : List Hand, (l.map (·.commit)).sum - (l.map fun g => min g.commit h.commit).sum =
              (l.map fun g => g.commit - min g.commit h.commit).sum := by
            intro l
            induction l with
            | nil => rfl
            | cons a l ih => simp only [List.map_cons, List.sum_cons]; omega
          exact this _
        rw [if_neg (show ¬ q - (st.hands.map fun g => min g.commit h.commit).sum = 0 by omega)]
        by_cases hend : (potStep worst st i h).pot = 0
        · rw [if_pos hend]
          rw [potLoop_zero]
          · exact ⟨rfl, rfl⟩
          · intro g hgm
            rw [hend] at hpot'
            have hnn2 : ∀ x ∈ (potStep worst st i h).hands.map (·.commit), 0 ≤ x := by
              intro x hx
              obtain ⟨g', h1, rfl⟩ := List.mem_map.1 hx
              exact hpos' g' h1
            have := List.single_le_sum hnn2 g.commit (List.mem_map.2 ⟨g, hgm, rfl⟩)
            have := hpos' g hgm
            omega
        · rw [if_neg hend]
          exact ih _ _ _ (by omega) hpos' hpot'

theorem insertByKey_commits (h : Hand) (l : List Hand) : (insertByKey h l).Perm (h :: l) := by
  induction l with
  | nil => exact List.Perm.refl _
  | cons g l ih =>
    rw [insertByKey]
    split
    · exact List.Perm.refl _
    · exact (ih.cons g).trans (List.Perm.swap _ _ _)

theorem sortByKey_commits (l : List Hand) : (sortByKey l).Perm l := by
  induction l with
  | nil => exact List.Perm.refl _
  | cons g l ih => exact (insertByKey_commits g _).trans (ih.cons g)

/-- `_eval_round` after the hand is over gives what it gave at the end of the hand. -/
theorem potPayouts_zero (n button : Nat) (worst : Int) (potCommits strengths : List Int)
    (hl : strengths.length = potCommits.length) (hpos : ∀ c ∈ potCommits, 0 ≤ c) :
    potPayouts n button worst 0 potCommits strengths = potPayouts n button worst potCommits.sum potCommits strengths := by
  unfold potPayouts
  simp only []
  generalize hH : sortByKey ((strengths.zipIdx).map fun (x : Int × Nat) => ({ idx := x.2, strength := x.1, commit := potCommits.getD x.2 0 } : Hand)) = H
  have hp := sortByKey_commits ((strengths.zipIdx).map fun (x : Int × Nat) => ({ idx := x.2, strength := x.1, commit := potCommits.getD x.2 0 } : Hand))
  rw [hH] at hp
  have hcom : ((strengths.zipIdx).map fun (x : Int × Nat) => ({ idx := x.2, strength := x.1, commit := potCommits.getD x.2 0 } : Hand)).map (·.commit) = potCommits := by
    apply List.ext_getElem
    · simp [hl]
    · intro j h1 h2
      simp [List.getElem?_eq_getElem h2]
  have hpc : (H.map (·.commit)).Perm potCommits := by
    have := hp.map (·.commit)
    rwa [hcom] at this
  have := potLoop_pot worst H.length 0 { hands := H, pot := potCommits.sum, remainder := 0, payouts := List.replicate n 0 } 0 (le_refl _)
    (by
      intro g hg
      exact hpos _ (hpc.mem_iff.1 (List.mem_map.2 ⟨g, hg, rfl⟩)))
    (by exact hpc.sum_eq.symm)
  simp only [] at this
  rw [this.1, this.2]

theorem settle_evalRound {S : List Int} {x : Dealer} (hl : Live S x) (hn : NN x) (p : List Int) :
    (x.settle p).evalRound = x.evalRound := by
  unfold Dealer.evalRound
  have : (x.settle p).evalHands (x.settle p).holeCards (x.settle p).communityCards = x.evalHands x.holeCards x.communityCards := rfl
  rw [this]
  cases he : x.evalHands x.holeCards x.communityCards with
  | error e => rfl
  | ok s =>
    simp only []
    show potPayouts x.cfg.numPlayers x.button x.worstHand 0 x.potCommits s = potPayouts x.cfg.numPlayers x.button x.worstHand x.pot x.potCommits s
    rw [hl.pot]
    apply potPayouts_zero
    · rw [evalHands_length he, hl.seated.potCommits]
    · intro c hc
      obtain ⟨i, hi, rfl⟩ := (mem_getD 0).1 hc
      exact hn.contrib i (by rw [← hl.seated.potCommits]; exact hi)

end Clubs

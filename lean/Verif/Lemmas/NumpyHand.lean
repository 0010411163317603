import Verif.Lemmas.NumpyPot
import Verif.Lemmas.Showdown

/-! # Hands of the array engine -/

namespace Clubs.Numpy

open Spec

/-! ## bets -/

/-- a negative number rounds to a negative one or zero -/
theorem isNeg_of_round {bet : PyNum} {b : Int} (h : pyRound bet = .ok b) (hb : b < 0) : bet.isNeg = true := by
  cases bet with
  | fin q =>
    simp only [pyRound, Except.ok.injEq] at h
    simp only [PyNum.isNeg, decide_eq_true_eq]
    by_contra hq
    rw [not_lt] at hq
    have h1 : 0 ≤ q.floor := Rat.le_floor_iff.mpr (by simpa using hq)
    unfold roundHalfEven at h
    simp only [] at h
    split at h
    · omega
    · split at h
      · omega
      · split at h <;> omega
  | posInf => simp [pyRound] at h
  | negInf => rfl
  | nan => simp [pyRound] at h

theorem acted_congr (d : Dealer) {fold : Bool} {c x y : Int}
    (h : (c ≠ 0 ∧ (x < c ∨ fold = true)) ∧ (c ≠ 0 ∧ (y < c ∨ fold = true)) ∨ x = y) :
    d.acted fold c x = d.acted fold c y := by
  rcases h with ⟨h1, h2⟩ | rfl
  · unfold Dealer.acted
    simp only [if_pos h1, if_pos h2]
  · rfl

/-- with sensible sizes both versions of `_clean_bet` choose the same bet, or the player folds anyway -/
theorem clean_same {d : Dealer} (hd : Seated d) (hp : 0 ≤ d.pot) (hs : SizesOk d.cfg) {c lo hi b : Int} {fold : Bool}
    (hb : d.betSizes = .ok (c, lo, hi)) (hf : b < 0 → fold = true) :
    (c ≠ 0 ∧ (cleanBet b c lo hi < c ∨ fold = true)) ∧ (c ≠ 0 ∧ (Clubs.cleanBet b c lo hi < c ∨ fold = true)) ∨
      cleanBet b c lo hi = Clubs.cleanBet b c lo hi := by
  by_cases hb0 : 0 ≤ b
  · right
    unfold cleanBet Clubs.cleanBet
    rw [max_eq_right hb0]
  · have hfold := hf (by omega)
    by_cases hc : c = 0
    · right
      have hc0 := call_nonneg hd
      obtain ⟨rs, nr, hrs, -, h1, h2, h3⟩ := betSizes_spec hb
      have : 0 ≤ lo ∧ 0 ≤ hi := by
        by_cases hcc : nr.reached d.streetRaises = true ∨
            (d.streetRaises ≠ 0 ∧ pyMax d.streetCommits - streetBet d d.seat < d.largestRaise)
        · obtain ⟨h4, h5⟩ := h2 hcc
          omega
        · have h4 := h3 hcc
          have hbb := hs.1
          cases rs with
          | int n =>
            have := hs.2 n (List.mem_of_getElem? hrs)
            simp only [] at h4; omega
          | pot => simp only [] at h4; omega
          | inf => simp only [] at h4; omega
      exact cleanBet_eq (by omega) this.1 this.2 b
    · left
      exact ⟨⟨hc, .inr hfold⟩, hc, .inr hfold⟩

/-- with sensible sizes `_clean_bet` makes no difference -/
theorem afterBet_clean {d : Dealer} (hd : Seated d) (hp : 0 ≤ d.pot) (hs : SizesOk d.cfg) {c lo hi b : Int} {fold : Bool}
    (hb : d.betSizes = .ok (c, lo, hi)) (hf : b < 0 → fold = true) :
    d.afterBet fold c (cleanBet b c lo hi) = d.afterBet fold c (Clubs.cleanBet b c lo hi) := by
  unfold Dealer.afterBet
  rw [act_eq, act_eq, acted_congr d (clean_same hd hp hs hb hf)]

/-! ## payouts -/

theorem lost_eq (d : Dealer) :
    List.zipWith (fun (c : Int) (a : Bool) => -1 * c * (if !a then 1 else 0)) d.potCommits d.active = lostList d := by
  unfold lostList
  congr 1
  funext c a
  cases a <;> simp

theorem won_eq (d : Dealer) :
    List.zipWith (fun (a : Bool) (c : Int) => (if a then 1 else 0) * (d.pot - c)) d.active d.potCommits =
      List.zipWith (fun (a : Bool) c => if a then d.pot - c else 0) d.active d.potCommits := by
  congr 1
  funext a c
  cases a <;> simp

/-- except at a showdown the payouts are the same -/
theorem payouts_shared {d : Dealer} (h : countTrue d.active = 1 ∨ d.street < d.cfg.numStreets) :
    payouts d = (atSeat d).payouts := by
  unfold payouts Dealer.payouts
  simp only [lost_eq, won_eq]
  by_cases h1 : countTrue d.active = 1
  · rw [if_pos h1, if_pos (show countTrue (atSeat d).active = 1 from h1)]; rfl
  · have h2 : ¬ d.street ≥ d.cfg.numStreets := by omega
    rw [if_neg h1, if_neg (show ¬ countTrue (atSeat d).active = 1 from h1), if_neg h2,
      if_neg (show ¬ (atSeat d).street ≥ (atSeat d).cfg.numStreets from h2)]; rfl

theorem payouts_cases {d : Dealer} {p : List Int} (h : payouts d = .ok p) :
    (countTrue d.active = 1 ∧ p = List.zipWith (· + ·) (lostList d)
      (List.zipWith (fun (a : Bool) c => if a then d.pot - c else 0) d.active d.potCommits)) ∨
    (countTrue d.active ≠ 1 ∧ d.cfg.numStreets ≤ d.street ∧ ∃ q, evalRound d = .ok q ∧
      p = List.zipWith (· - ·) q d.potCommits) ∨
    (countTrue d.active ≠ 1 ∧ d.street < d.cfg.numStreets ∧ p = lostList d) := by
  unfold payouts at h
  simp only [lost_eq, won_eq] at h
  split at h
  · next h1 =>
    simp only [Except.ok.injEq] at h
    exact .inl ⟨h1, h.symm⟩
  · next h1 =>
    right
    split at h
    · next h2 =>
      left
      cases hq : evalRound d with
      | error e => rw [hq] at h; simp at h
      | ok q =>
        rw [hq] at h
        simp only [Except.ok.injEq] at h
        exact ⟨h1, h2, q, rfl, h.symm⟩
    · next h2 =>
      right
      simp only [Except.ok.injEq] at h
      exact ⟨h1, by omega, h.symm⟩

theorem evalRound_cases {d : Dealer} {q : List Int} (h : evalRound d = .ok q) :
    ∃ s, d.evalHands d.holeCards d.communityCards = .ok s ∧
      potPayouts d.cfg.numPlayers d.button d.worstHand d.pot d.potCommits s = .ok q := by
  unfold evalRound evalHands at h
  cases hs : d.evalHands d.holeCards d.communityCards with
  | error e => rw [hs] at h; simp at h
  | ok s => rw [hs] at h; exact ⟨s, rfl, h⟩

theorem foldl_modify_length' (l : List Nat) (x : Int) (p : List Int) :
    (l.foldl (fun p k => p.modify k (· + x)) p).length = p.length := foldl_modify_length l x p

theorem potLoop_length (worst : Int) (fuel i : Nat) (st : PotState) :
    (potLoop worst fuel i st).payouts.length = st.payouts.length := by
  induction fuel generalizing i st with
  | zero => rfl
  | succ fuel ih =>
    rw [potLoop]
    split
    · rfl
    · simp only []
      split
      · exact foldl_modify_length _ _ _
      · rw [ih]; exact foldl_modify_length _ _ _

theorem oddChips_ok {n button : Nat} {r : Int} {p q : List Int} (h : oddChips n button r p = .ok q) :
    ∃ w, q = p.modify w (· + r) ∧
      w = ((List.range p.length).filter fun i => p.getD i 0 ≠ 0).getD
        (argmin (shifted n button ((List.range p.length).filter fun i => p.getD i 0 ≠ 0))) 0 ∧
      ((List.range p.length).filter fun i => p.getD i 0 ≠ 0) ≠ [] := by
  unfold oddChips at h
  simp only [] at h
  split at h
  · simp at h
  · next hne =>
    simp only [Except.ok.injEq] at h
    exact ⟨_, h.symm, rfl, hne⟩

theorem potPayouts_length {n button : Nat} {worst pot : Int} {pc s q : List Int}
    (h : potPayouts n button worst pot pc s = .ok q) : q.length = n := by
  unfold potPayouts at h
  simp only [] at h
  split at h
  · obtain ⟨w, rfl, -⟩ := oddChips_ok h
    rw [List.length_modify, potLoop_length]; simp
  · simp only [Except.ok.injEq] at h
    rw [← h, potLoop_length]; simp

theorem payouts_length {d : Dealer} (hd : Seated (atSeat d)) {p : List Int} (h : payouts d = .ok p) :
    p.length = d.cfg.numPlayers := by
  have h1 : d.potCommits.length = d.cfg.numPlayers := hd.potCommits
  have h2 : d.active.length = d.cfg.numPlayers := hd.active
  rcases payouts_cases h with ⟨-, rfl⟩ | ⟨-, -, q, hq, rfl⟩ | ⟨-, -, rfl⟩
  · simp [lostList, h1, h2]
  · obtain ⟨s, -, hp⟩ := evalRound_cases hq
    simp [potPayouts_length hp, h1]
  · simp [lostList, h1, h2]

/-! ## the position of the smallest number -/

theorem argminLoop_spec (l : List Int) (idx : Nat) (m : Int) (mi : Nat) (pre : List Int) (hpre : pre.length = idx)
    (hmi : ∃ h : mi < pre.length, pre[mi] = m) (hmin : ∀ x ∈ pre, m ≤ x) (hfirst : ∀ k < mi, ∀ h : k < pre.length, m < pre[k]) :
    ∃ h : argminLoop l idx (some m) mi < (pre ++ l).length,
      (∀ x ∈ pre ++ l, (pre ++ l)[argminLoop l idx (some m) mi] ≤ x) ∧
      ∀ k < argminLoop l idx (some m) mi, ∀ h' : k < (pre ++ l).length, (pre ++ l)[argminLoop l idx (some m) mi] < (pre ++ l)[k] := by
  induction l generalizing idx m mi pre with
  | nil =>
    simp only [argminLoop, List.append_nil]
    obtain ⟨h1, h2⟩ := hmi
    refine ⟨h1, ?_, ?_⟩
    · rw [h2]; exact hmin
    · rw [h2]; exact hfirst
  | cons v vs ih =>
    rw [argminLoop]
    have happ : pre ++ v :: vs = (pre ++ [v]) ++ vs := by simp
    by_cases hv : v < m
    · rw [if_pos (by simpa using hv)]
      have := ih (idx + 1) v idx (pre ++ [v]) (by simp [hpre]) ⟨by simp [hpre], by simp [← hpre]⟩ (by
        intro x hx
        rcases List.mem_append.1 hx with hx | hx
        · have := hmin x hx; omega
        · simp at hx; omega) (by
        intro k hk hk2
        have hkp : k < pre.length := by omega
        rw [List.getElem_append_left hkp]
        have := hmin _ (List.getElem_mem hkp)
        omega)
      simpa only [happ] using this
    · rw [if_neg (by simpa using hv)]
      obtain ⟨h1, h2⟩ := hmi
      have := ih (idx + 1) m mi (pre ++ [v]) (by simp [hpre]) ⟨by simp; omega, by rw [List.getElem_append_left h1]; exact h2⟩ (by
        intro x hx
        rcases List.mem_append.1 hx with hx | hx
        · exact hmin x hx
        · simp at hx; omega) (by
        intro k hk hk2
        have hkp : k < pre.length := by omega
        rw [List.getElem_append_left hkp]
        exact hfirst k hk hkp)
      simpa only [happ] using this

theorem argmin_spec {l : List Int} (hl : l ≠ []) :
    ∃ h : argmin l < l.length, (∀ x ∈ l, l[argmin l] ≤ x) ∧ ∀ k < argmin l, ∀ h' : k < l.length, l[argmin l] < l[k] := by
  cases l with
  | nil => exact absurd rfl hl
  | cons v vs =>
    have := argminLoop_spec vs 1 v 0 [v] rfl ⟨by simp, rfl⟩ (by simp) (by simp)
    exact this

/-- The seat that gets the odd chips: of all with a payout, the first one after the button if the number of the button
is that of a seat, and the first one of all otherwise. -/
theorem oddChips_seat {n button : Nat} {r : Int} {p : List Int} (hp : p.length = n)
    (hne : ∃ i < n, p.getD i 0 ≠ 0) :
    ∃ w < n, p.getD w 0 ≠ 0 ∧ oddChips n button r p = .ok (p.modify w (· + r)) ∧
      ∀ i < n, p.getD i 0 ≠ 0 → w + (if w ≤ button then n else 0) ≤ i + (if i ≤ button then n else 0) := by
  obtain ⟨i0, hi0, hp0⟩ := hne
  have hmem : ∀ i, i ∈ ((List.range p.length).filter fun i => p.getD i 0 ≠ 0) ↔ i < n ∧ p.getD i 0 ≠ 0 := by
    intro i; simp [hp]
  have hnil : ((List.range p.length).filter fun i => p.getD i 0 ≠ 0) ≠ [] := by
    intro h
    have := (hmem i0).2 ⟨hi0, hp0⟩
    rw [h] at this; simp at this
  generalize hinv : ((List.range p.length).filter fun i => p.getD i 0 ≠ 0) = inv at hmem hnil
  have hsn : shifted n button inv ≠ [] := by unfold shifted; simpa using hnil
  obtain ⟨h1, h2, -⟩ := argmin_spec hsn
  have hlen : (shifted n button inv).length = inv.length := by unfold shifted; simp
  have h1' : argmin (shifted n button inv) < inv.length := by rw [← hlen]; exact h1
  have hw := (hmem (inv.getD (argmin (shifted n button inv)) 0)).1 (by rw [getD_eq _ _ _ h1']; exact List.getElem_mem _)
  refine ⟨inv.getD (argmin (shifted n button inv)) 0, hw.1, hw.2, ?_, ?_⟩
  · unfold oddChips
    simp only []
    rw [hinv, if_neg hnil]
  · intro i hi hpi
    have h3 := h2 ((i : Int) + (if i ≤ button then 1 else 0) * (n : Int)) (by
      unfold shifted
      rw [List.mem_map]
      exact ⟨i, (hmem i).2 ⟨hi, hpi⟩, rfl⟩)
    have h4 : (shifted n button inv)[argmin (shifted n button inv)] =
        ((inv.getD (argmin (shifted n button inv)) 0 : Nat) : Int) +
          (if inv.getD (argmin (shifted n button inv)) 0 ≤ button then 1 else 0) * (n : Int) := by
      rw [getD_eq _ _ _ h1']
      have : ∀ (k : Nat) (hk : k < inv.length), (shifted n button inv)[k]'(by rw [hlen]; exact hk) =
          ((inv[k] : Nat) : Int) + (if inv[k] ≤ button then 1 else 0) * (n : Int) := by
        intro k hk
        unfold shifted
        simp
      exact this _ h1'
    rw [h4] at h3
    split_ifs at h3 ⊢ <;> omega

end Clubs.Numpy

import Verif.Lemmas.Numpy
import Verif.Lemmas.Layers
import Verif.Lemmas.Shares

/-! # The showdown of the array engine -/

namespace Clubs.Numpy

open Spec Finset

/-- the hands after `i` iterations -/
def drained (worst : Int) (H : List Hand) (i : Nat) : List Hand :=
  H.mapIdx fun j h =>
    { idx := h.idx
      strength := if j < i then worst else h.strength
      commit := max (h.commit - lvl H i) 0 }

theorem drained_length (worst : Int) (H : List Hand) (i : Nat) : (drained worst H i).length = H.length := by
  simp [drained]

theorem drained_get (worst : Int) (H : List Hand) (i j : Nat) (h : j < H.length) :
    (drained worst H i)[j]'(by rw [drained_length]; exact h) =
      { idx := H[j].idx, strength := if j < i then worst else H[j].strength,
        commit := max (H[j].commit - lvl H i) 0 } := by
  simp [drained]

/-- who shares in iteration `i` -/
def eAt (worst : Int) (H : List Hand) (i : Nat) : List Nat :=
  match (drained worst H i)[i]? with
  | none => []
  | some h => ((drained worst H i).filter fun g => g.strength == h.strength).map (·.idx)

/-- one iteration, without the `break` -/
def outAt (worst : Int) (H : List Hand) (i : Nat) (acc : List Int × Int) : List Int × Int :=
  ((eAt worst H i).foldl (fun p k => p.modify k (· + wAt H i / ((eAt worst H i).length : Int))) acc.1,
    acc.2 + wAt H i % ((eAt worst H i).length : Int))

theorem modify_add_zero (p : List Int) (k : Nat) : p.modify k (· + 0) = p := by
  have : (fun x : Int => x + 0) = id := by funext x; simp
  rw [this, List.modify_id]

theorem outAt_zero {worst : Int} {H : List Hand} {i : Nat} (hw : wAt H i = 0) (acc : List Int × Int) :
    outAt worst H i acc = acc := by
  unfold outAt
  rw [hw]
  simp only [Int.zero_ediv, Int.zero_emod, Int.add_zero]
  have : ∀ (l : List Nat) (p : List Int), l.foldl (fun p k => p.modify k fun x => x) p = p := by
    intro l
    induction l with
    | nil => intro p; rfl
    | cons a l ih =>
      intro p
      rw [List.foldl_cons, ih]
      exact List.modify_id a p
  rw [this]

variable {worst : Int} {H : List Hand}

theorem cut_sum (i : Nat) (hi : i < H.length) (hpos : ∀ h ∈ H, 0 ≤ h.commit) :
    ((drained worst H i).map fun g => min g.commit (max (H[i].commit - lvl H i) 0)).sum = wAt H i := by
  unfold wAt
  congr 1
  apply List.ext_getElem
  · simp [drained_length]
  · intro j h1 h2
    rw [List.length_map] at h2
    simp only [List.getElem_map, drained_get worst H i j h2]
    have := hpos H[j] (List.getElem_mem h2)
    have := hpos H[i] (List.getElem_mem hi)
    have := lvl_nonneg H i
    have := lvl_succ H i hi
    omega

theorem drained_zero (hpos : ∀ h ∈ H, 0 ≤ h.commit) : drained worst H 0 = H := by
  apply List.ext_getElem
  · simp [drained_length]
  · intro j h1 h2
    rw [drained_get worst H 0 j h2, lvl_zero]
    have := hpos H[j] (List.getElem_mem h2)
    simp [this]

theorem drained_succ {i : Nat} (hi : i < H.length) (hpos : ∀ h ∈ H, 0 ≤ h.commit) :
    drained worst H (i + 1) =
      ((drained worst H i).map fun g => { g with commit := g.commit - min g.commit (max (H[i].commit - lvl H i) 0) }).modify
        i (fun g => { g with strength := worst }) := by
  apply List.ext_getElem
  · simp [drained_length]
  · intro j h1 h2
    rw [drained_length] at h1
    rw [drained_get _ _ _ _ h1, List.getElem_modify]
    simp only [List.getElem_map, drained_get _ _ _ _ h1]
    have := hpos H[j] (List.getElem_mem h1)
    have hl := lvl_succ H i hi
    have hl0 := lvl_nonneg H i
    by_cases e : i = j
    · subst e
      have : i < i + 1 := by omega
      simp only [this, if_true]
      congr 1
      omega
    · rw [if_neg e]
      have : j < i + 1 ↔ j < i := by omega
      simp only [this]
      congr 1
      omega

/-- sum of what is left after `i` iterations -/
theorem drained_sum (i : Nat) (hpos : ∀ h ∈ H, 0 ≤ h.commit) :
    ((drained worst H (i + 1)).map (·.commit)).sum = ((drained worst H i).map (·.commit)).sum - wAt H i := by
  have : ∀ (f g k : Hand → Int) (l : List Hand), (∀ x ∈ l, f x = g x - k x) →
      (l.map f).sum = (l.map g).sum - (l.map k).sum := by
    intro f g k l
    induction l with
    | nil => simp
    | cons a l ih =>
      intro h
      simp only [List.map_cons, List.sum_cons, ih (fun x hx => h x (by simp [hx])), h a (by simp)]
      ring
  have e : ∀ i, (drained worst H i).map (·.commit) = H.map fun h => max (h.commit - lvl H i) 0 := by
    intro i
    apply List.ext_getElem
    · simp [drained_length]
    · intro j h1 h2
      rw [List.length_map] at h2
      simp only [List.getElem_map, drained_get worst H i j h2]
  rw [e, e]
  apply this
  intro x hx
  have := hpos x hx
  have := lvl_mono_succ H i
  have := lvl_nonneg H i
  omega

theorem drained_sum_zero {i : Nat} (hs : ((drained worst H i).map (·.commit)).sum = 0) {k : Nat} (hk : i ≤ k)
    (hkl : k < H.length) : wAt H k = 0 := by
  rw [wAt_zero hkl]
  have h0 := sum_nonneg_zero (l := (drained worst H i).map (·.commit)) (by
    intro x hx
    obtain ⟨g, hg, rfl⟩ := List.mem_map.1 hx
    obtain ⟨j, hj, rfl⟩ := List.mem_iff_getElem.1 hg
    rw [drained_length] at hj
    rw [drained_get _ _ _ _ hj]
    simp) hs
  have := h0 (max (H[k].commit - lvl H i) 0) (by
    rw [List.mem_map]
    exact ⟨(drained worst H i)[k]'(by rw [drained_length]; exact hkl), List.getElem_mem _, by
      rw [drained_get _ _ _ _ hkl]⟩)
  have := lvl_mono H hk
  omega

/-- The loop in closed form. -/
theorem potLoop_eq (hpos : ∀ h ∈ H, 0 ≤ h.commit) (fuel i : Nat) (hf : i + fuel = H.length) (st : PotState)
    (h1 : st.hands = drained worst H i) (h2 : st.pot = ((drained worst H i).map (·.commit)).sum) :
    (potLoop worst fuel i st).payouts =
      ((List.range' i fuel).foldl (fun a k => outAt worst H k a) (st.payouts, st.remainder)).1 ∧
    (potLoop worst fuel i st).remainder =
      ((List.range' i fuel).foldl (fun a k => outAt worst H k a) (st.payouts, st.remainder)).2 := by
  induction fuel generalizing i st with
  | zero => simp [potLoop]
  | succ fuel ih =>
    have hi : i < H.length := by omega
    rw [potLoop]
    have hget : st.hands[i]? = some { idx := H[i].idx, strength := H[i].strength, commit := max (H[i].commit - lvl H i) 0 } := by
      rw [h1, List.getElem?_eq_getElem (by rw [drained_length]; exact hi), drained_get _ _ _ _ hi]
      simp only [lt_irrefl, if_false]
    rw [hget]
    simp only []
    have hcut : (st.hands.map fun g => min g.commit (max (H[i].commit - lvl H i) 0)).sum = wAt H i := by
      rw [h1]; exact cut_sum i hi hpos
    rw [List.range'_succ, List.foldl_cons]
    have hE : eAt worst H i = ((st.hands.filter fun g => g.strength == H[i].strength).map (·.idx)) := by
      unfold eAt
      rw [← h1, hget]
    have hst : potStep worst st i { idx := H[i].idx, strength := H[i].strength, commit := max (H[i].commit - lvl H i) 0 } =
        { payouts := (outAt worst H i (st.payouts, st.remainder)).1
          remainder := (outAt worst H i (st.payouts, st.remainder)).2
          hands := drained worst H (i + 1)
          pot := st.pot - wAt H i } := by
      unfold potStep outAt
      simp only [hcut, hE]
      congr 1
      rw [drained_succ hi hpos, h1]
    rw [hst]
    simp only []
    have hpot : st.pot - wAt H i = ((drained worst H (i + 1)).map (·.commit)).sum := by
      rw [drained_sum i hpos, h2]
    by_cases hz : st.pot - wAt H i = 0
    · rw [if_pos hz]
      simp only []
      have hrest : ∀ (l : List Nat), (∀ k ∈ l, i + 1 ≤ k ∧ k < H.length) → ∀ acc,
          l.foldl (fun a k => outAt worst H k a) acc = acc := by
        intro l
        induction l with
        | nil => simp
        | cons k l ihl =>
          intro hl acc
          rw [List.foldl_cons, outAt_zero (drained_sum_zero (worst := worst) (i := i + 1) (by rw [← hpot]; exact hz)
            (hl k (by simp)).1 (hl k (by simp)).2)]
          exact ihl (fun k hk => hl k (by simp [hk])) acc
      rw [hrest _ (by
        intro k hk
        rw [List.mem_range'_1] at hk
        omega)]
      exact ⟨rfl, rfl⟩
    · rw [if_neg hz]
      exact ih (i + 1) (by omega) _ rfl hpot

/-- who shares: hands of the list, each once -/
theorem eAt_props {worst : Int} {H : List Hand} (hn : (H.map (·.idx)).Nodup) {i : Nat} (hi : i < H.length) :
    (eAt worst H i).Nodup ∧ (∀ k ∈ eAt worst H i, k ∈ H.map (·.idx)) ∧ 1 ≤ (eAt worst H i).length := by
  have hidx : (drained worst H i).map (·.idx) = H.map (·.idx) := by
    apply List.ext_getElem
    · simp [drained_length]
    · intro j h1 h2
      rw [List.length_map] at h2
      simp only [List.getElem_map, drained_get worst H i j h2]
  have hget : (drained worst H i)[i]? = some ((drained worst H i)[i]'(by rw [drained_length]; exact hi)) :=
    List.getElem?_eq_getElem _
  unfold eAt
  rw [hget]
  simp only []
  refine ⟨?_, ?_, ?_⟩
  · refine List.Nodup.sublist (List.Sublist.map _ List.filter_sublist) ?_
    rw [hidx]; exact hn
  · intro k hk
    rw [← hidx]
    exact (List.Sublist.map _ List.filter_sublist).subset hk
  · rw [List.length_map]
    apply List.length_pos_of_mem
    rw [List.mem_filter]
    exact ⟨List.getElem_mem (by rw [drained_length]; exact hi), by simp⟩

/-- the payouts before odd chips -/
def baseList (n : Nat) (worst : Int) (H : List Hand) : List Int :=
  ((List.range' 0 H.length).foldl (fun a k => outAt worst H k a) (List.replicate n 0, 0)).1

/-- the odd chips -/
def oddSum (n : Nat) (worst : Int) (H : List Hand) : Int :=
  ((List.range' 0 H.length).foldl (fun a k => outAt worst H k a) (List.replicate n 0, 0)).2

theorem potPayouts_eq (n button : Nat) (worst : Int) (potCommits strengths : List Int)
    (hl : strengths.length = potCommits.length) (hpos : ∀ c ∈ potCommits, 0 ≤ c) :
    potPayouts n button worst potCommits.sum potCommits strengths =
      if oddSum n worst (handList potCommits strengths) ≠ 0 then
        oddChips n button (oddSum n worst (handList potCommits strengths))
          (baseList n worst (handList potCommits strengths))
      else .ok (baseList n worst (handList potCommits strengths)) := by
  have hp : ∀ h ∈ handList potCommits strengths, 0 ≤ h.commit := by
    intro h hh
    obtain ⟨h1, -, h2⟩ := handList_mem hh
    rw [h2]
    exact hpos _ ((mem_getD 0).2 ⟨h.idx, by omega, rfl⟩)
  have := potLoop_eq (worst := worst) hp (handList potCommits strengths).length 0 (by omega)
    { hands := handList potCommits strengths, pot := potCommits.sum, remainder := 0, payouts := List.replicate n 0 }
    (drained_zero hp).symm (by rw [drained_zero hp]; exact (handList_sum hl).symm)
  unfold potPayouts
  simp only
  unfold baseList oddSum
  rw [← this.1, ← this.2]
  rfl

theorem outAt_foldl {n : Nat} {worst : Int} {H : List Hand} (hn : (H.map (·.idx)).Nodup)
    (hidx : ∀ h ∈ H, h.idx < n) (l : List Nat) (hl : ∀ i ∈ l, i < H.length) (acc : List Int × Int)
    (ha : acc.1.length = n) :
    let r := l.foldl (fun a k => outAt worst H k a) acc
    r.1.length = n ∧ r.1.sum + r.2 = acc.1.sum + acc.2 + (l.map (wAt H)).sum ∧
    r.2 = acc.2 + (l.map fun i => wAt H i % ((eAt worst H i).length : Int)).sum ∧
    ∀ j < n, r.1.getD j 0 = acc.1.getD j 0 +
      (l.map fun i => if j ∈ eAt worst H i then wAt H i / ((eAt worst H i).length : Int) else 0).sum := by
  induction l generalizing acc with
  | nil => simp [ha]
  | cons i l ih =>
    simp only [List.foldl_cons, List.map_cons, List.sum_cons]
    have hi := hl i (by simp)
    obtain ⟨e1, e2, e3⟩ := eAt_props (worst := worst) hn hi
    have e2' : ∀ k ∈ eAt worst H i, k < n := by
      intro k hk
      obtain ⟨h, hh, rfl⟩ := List.mem_map.1 (e2 k hk)
      exact hidx h hh
    -- one iteration
    have h1 : (outAt worst H i acc).1.length = n := by
      unfold outAt; rw [foldl_modify_length]; exact ha
    have h2 : (outAt worst H i acc).2 = acc.2 + wAt H i % ((eAt worst H i).length : Int) := rfl
    have h3 : (outAt worst H i acc).1.sum + (outAt worst H i acc).2 = acc.1.sum + acc.2 + wAt H i := by
      unfold outAt
      simp only []
      rw [foldl_modify_sum _ _ _ (by rw [ha]; exact e2')]
      have := Int.mul_ediv_add_emod (wAt H i) ((eAt worst H i).length : Int)
      linarith
    have h4 : ∀ j < n, (outAt worst H i acc).1.getD j 0 = acc.1.getD j 0 +
        if j ∈ eAt worst H i then wAt H i / ((eAt worst H i).length : Int) else 0 := by
      intro j hj
      unfold outAt; rw [foldl_modify_getD _ _ _ e1 _ (by rw [ha]; exact hj)]
    obtain ⟨i1, i2, i3, i4⟩ := ih (fun k hk => hl k (by simp [hk])) (outAt worst H i acc) h1
    refine ⟨i1, ?_, ?_, ?_⟩
    · rw [i2, h3]; ring
    · rw [i3, h2]; ring
    · intro j hj
      rw [i4 j hj, h4 j hj]; ring

/-- base payouts and odd chips of a showdown -/
structure ShowdownFacts (n : Nat) (worst : Int) (potCommits strengths : List Int) : Prop where
  length : (baseList n worst (handList potCommits strengths)).length = n
  sum : (baseList n worst (handList potCommits strengths)).sum + oddSum n worst (handList potCommits strengths) = potCommits.sum
  odd : oddSum n worst (handList potCommits strengths) =
    ((List.range n).map fun i => wAt (handList potCommits strengths) i %
      ((eAt worst (handList potCommits strengths) i).length : Int)).sum
  base : ∀ j < n, (baseList n worst (handList potCommits strengths)).getD j 0 =
      ((List.range n).map fun i => if j ∈ eAt worst (handList potCommits strengths) i then
        wAt (handList potCommits strengths) i / ((eAt worst (handList potCommits strengths) i).length : Int) else 0).sum

theorem showdown_facts {n : Nat} {worst : Int} {potCommits strengths : List Int} (hs : strengths.length = n)
    (hc : potCommits.length = n) (hpos : ∀ c ∈ potCommits, 0 ≤ c) : ShowdownFacts n worst potCommits strengths := by
  have hperm := handList_idx potCommits strengths
  have hn : ((handList potCommits strengths).map (·.idx)).Nodup := hperm.nodup_iff.2 List.nodup_range
  have hidx : ∀ h ∈ handList potCommits strengths, h.idx < n := fun h hh => by
    have := (handList_mem hh).1; omega
  have hlen : (handList potCommits strengths).length = n := by rw [handList_length, hs]
  have hp : ∀ h ∈ handList potCommits strengths, 0 ≤ h.commit := by
    intro h hh
    obtain ⟨h1, -, h2⟩ := handList_mem hh
    rw [h2]
    exact hpos _ ((mem_getD 0).2 ⟨h.idx, by omega, rfl⟩)
  have hr : List.range' 0 (handList potCommits strengths).length = List.range n := by
    rw [hlen, List.range_eq_range']
  obtain ⟨f1, f2, f3, f4⟩ := outAt_foldl (worst := worst) hn hidx (List.range n)
    (by intro i hi; rw [hlen]; exact List.mem_range.1 hi) (List.replicate n 0, 0) (by simp)
  refine ⟨?_, ?_, ?_, ?_⟩
  · unfold baseList; rw [hr]; exact f1
  · unfold baseList oddSum; rw [hr, f2]
    have := wAt_all hp
    rw [hlen] at this
    rw [this, handList_sum (by omega)]
    simp
  · unfold oddSum; rw [hr, f3]; simp
  · intro j hj
    unfold baseList; rw [hr, f4 j hj, getD_replicate _ _ _ _ hj]
    simp

theorem oddSum_nonneg {n : Nat} {worst : Int} {potCommits strengths : List Int}
    (f : ShowdownFacts n worst potCommits strengths) : 0 ≤ oddSum n worst (handList potCommits strengths) := by
  rw [f.odd]
  apply List.sum_nonneg
  intro x hx
  obtain ⟨i, -, rfl⟩ := List.mem_map.1 hx
  by_cases h : ((eAt worst (handList potCommits strengths) i).length : Int) = 0
  · rw [h, Int.emod_zero]; exact wAt_nonneg i
  · exact Int.emod_nonneg _ h

theorem base_nonneg {n : Nat} {worst : Int} {potCommits strengths : List Int}
    (f : ShowdownFacts n worst potCommits strengths) (j : Nat) (hj : j < n) :
    0 ≤ (baseList n worst (handList potCommits strengths)).getD j 0 := by
  rw [f.base j hj]
  apply List.sum_nonneg
  intro x hx
  obtain ⟨i, -, rfl⟩ := List.mem_map.1 hx
  split
  · exact Int.ediv_nonneg (wAt_nonneg i) (by omega)
  · exact le_refl _

variable {n : Nat} {C T : List Int} {act : Nat → Bool}

/-- who shares at position `i` -/
theorem mem_eAt {H : List Hand} {i : Nat} (hi : i < H.length) (q : Nat) :
    q ∈ eAt worst H i ↔ ∃ j, ∃ hj : j < H.length, H[j].idx = q ∧
      (if j < i then worst else H[j].strength) = H[i].strength := by
  unfold eAt
  rw [List.getElem?_eq_getElem (by rw [drained_length]; exact hi)]
  simp only [List.mem_map, List.mem_filter, beq_iff_eq]
  rw [drained_get worst H i i hi]
  simp only [lt_irrefl, if_false]
  constructor
  · rintro ⟨g, ⟨h1, h2⟩, rfl⟩
    obtain ⟨j, hj, rfl⟩ := List.getElem_of_mem h1
    rw [drained_length] at hj
    rw [drained_get worst H i j hj] at h2 ⊢
    exact ⟨j, hj, rfl, h2⟩
  · rintro ⟨j, hj, rfl, h2⟩
    refine ⟨(drained worst H i)[j]'(by rw [drained_length]; exact hj), ⟨List.getElem_mem _, ?_⟩, ?_⟩
    · rw [drained_get worst H i j hj]; exact h2
    · rw [drained_get worst H i j hj]

/-- the chips of a segment are those of its layers, and its winners are those of each of its layers -/
theorem winners_at (D : Deal n worst C T act) (hcov : FoldsCovered n act (fun i => C.getD i 0)) {i : Nat}
    (hi : i < (handList C T).length) (hw : wAt (handList C T) i ≠ 0) {t : Nat} (ht1 : lvl (handList C T) i ≤ t)
    (ht2 : (t : Int) < (handList C T)[i].commit) :
    winners n act (fun i => C.getD i 0) (fun i => T.getD i 0) t = (eAt worst (handList C T) i).toFinset := by
  have hact := active_at D hcov hi hw
  rw [ne_eq, wAt_zero hi, not_le] at hw
  obtain ⟨i1, i2, i3⟩ := hand_at D hi
  have hbi := D.better _ i1 hact
  -- who reaches the layer comes later
  have late : ∀ j, ∀ hj : j < (handList C T).length, (t : Int) < (handList C T)[j].commit → i ≤ j := by
    intro j hj hjt
    by_contra hcon
    have := le_lvl (handList C T) hj (show j < i by omega)
    omega
  have ord : ∀ j, ∀ hj : j < (handList C T).length, i ≤ j → (handList C T)[i].strength ≤ (handList C T)[j].strength ∧
      ((handList C T)[i].strength = (handList C T)[j].strength → (handList C T)[i].commit ≤ (handList C T)[j].commit) := by
    intro j hj hij
    rcases Nat.lt_or_ge i j with h | h
    · have := sorted_at h hj
      unfold keyLe at this
      omega
    · have : i = j := by omega
      subst this
      exact ⟨le_refl _, fun _ => le_refl _⟩
  ext q
  rw [List.mem_toFinset, mem_eAt hi]
  unfold winners
  rw [Finset.mem_filter, Finset.mem_range]
  constructor
  · rintro ⟨hq, hqa, hqt, hqb⟩
    obtain ⟨j, hj, rfl⟩ := seat_at D hq
    obtain ⟨j1, j2, j3⟩ := hand_at D hj
    simp only at hqt hqb
    rw [← j3] at hqt
    have hij := late j hj hqt
    refine ⟨j, hj, rfl, ?_⟩
    rw [if_neg (by omega)]
    have h1 := hqb _ i1 hact (by rw [← i3]; exact ht2)
    have h2 := (ord j hj hij).1
    omega
  · rintro ⟨j, hj, rfl, hs⟩
    obtain ⟨j1, j2, j3⟩ := hand_at D hj
    have hij : i ≤ j := by
      by_contra hcon
      rw [if_pos (by omega)] at hs; omega
    rw [if_neg (by omega)] at hs
    have hja : act (handList C T)[j].idx = true := by
      by_contra h
      rw [Bool.not_eq_true] at h
      have := D.folded _ j1 h
      omega
    have hcc := (ord j hj hij).2 hs.symm
    refine ⟨j1, hja, ?_, ?_⟩
    · simp only
      rw [← j3]; omega
    · intro r hr hra hrt
      obtain ⟨k, hk, rfl⟩ := seat_at D hr
      obtain ⟨-, k2, k3⟩ := hand_at D hk
      simp only at hrt ⊢
      rw [← k3] at hrt
      have := (ord k hk (late k hk hrt)).1
      rw [← j2, ← k2]
      omega

/-- the winners of segment `i` -/
def segWinners (worst : Int) (C T : List Int) (i : Nat) : Finset Nat := (eAt worst (handList C T) i).toFinset

theorem segWinners_card (D : Deal n worst C T act) {i : Nat} (hi : i < n) :
    ((eAt worst (handList C T) i).length : Int) = ((segWinners worst C T i).card : Int) ∧
      segWinners worst C T i ∈ (range n).powerset ∧ 1 ≤ (segWinners worst C T i).card := by
  have hn : ((handList C T).map (·.idx)).Nodup := (handList_idx C T).nodup_iff.2 List.nodup_range
  obtain ⟨h1, h2, h3⟩ := eAt_props (worst := worst) hn (i := i) (by rw [handList_length, D.len]; exact hi)
  have : (segWinners worst C T i).card = (eAt worst (handList C T) i).length := List.toFinset_card_of_nodup h1
  refine ⟨by rw [this], ?_, by omega⟩
  rw [Finset.mem_powerset]
  intro k hk
  have := h2 k (List.mem_toFinset.1 hk)
  rw [(handList_idx C T).mem_iff, D.len, List.mem_range] at this
  exact Finset.mem_range.2 this

theorem seg_winners (D : Deal n worst C T act) (K : FoldsCovered n act (fun i => C.getD i 0)) {i : Nat} (hi : i < (handList C T).length) {t : Nat}
    (ht : t ∈ Ico (lvl (handList C T) i).toNat (lvl (handList C T) (i + 1)).toNat) :
    winners n act (fun i => C.getD i 0) (fun i => T.getD i 0) t = segWinners worst C T i := by
  obtain ⟨h1, h2, h3⟩ := seg_mem hi ht
  exact winners_at D K hi h1 h2 h3

theorem potOf_eq (D : Deal n worst C T act) (K : FoldsCovered n act (fun i => C.getD i 0)) (W : Finset Nat) :
    potOf n act (fun i => C.getD i 0) (fun i => T.getD i 0) W =
      ∑ i ∈ range n, if segWinners worst C T i = W then wAt (handList C T) i else 0 := by
  unfold potOf
  rw [sum_layers D _ (fun t h => by rw [h]; simp)]
  apply Finset.sum_congr rfl
  intro i hi
  have hi' : i < (handList C T).length := by rw [handList_length, D.len]; exact Finset.mem_range.1 hi
  rw [wAt_layers D]
  split
  · next h =>
    apply Finset.sum_congr rfl
    intro t ht
    rw [seg_winners D K hi' ht, if_pos h]
  · next h =>
    apply Finset.sum_eq_zero
    intro t ht
    rw [seg_winners D K hi' ht, if_neg h]

/-- different segments have different winners -/
theorem segWinners_inj (D : Deal n worst C T act) (K : FoldsCovered n act (fun i => C.getD i 0)) {i j : Nat} (hi : i < n) (hj : j < n)
    (wi : wAt (handList C T) i ≠ 0) (wj : wAt (handList C T) j ≠ 0)
    (h : segWinners worst C T i = segWinners worst C T j) : i = j := by
  have main : ∀ i j, i < j → j < n → wAt (handList C T) i ≠ 0 → wAt (handList C T) j ≠ 0 →
      segWinners worst C T i ≠ segWinners worst C T j := by
    intro i j hij hj wi wj h
    have hi' : i < (handList C T).length := by rw [handList_length, D.len]; omega
    have hj' : j < (handList C T).length := by rw [handList_length, D.len]; omega
    have h1 : (handList C T)[i].idx ∈ segWinners worst C T i := by
      unfold segWinners
      rw [List.mem_toFinset, mem_eAt hi']
      exact ⟨i, hi', rfl, by simp⟩
    have hlt := wj
    rw [ne_eq, wAt_zero hj', not_le] at hlt
    have h0 := lvl_nonneg (handList C T) j
    unfold segWinners at h h1
    rw [h, ← winners_at D K hj' wj (t := (lvl (handList C T) j).toNat) (by omega) (by omega)] at h1
    unfold winners at h1
    rw [Finset.mem_filter] at h1
    have h2 := h1.2.2.1
    obtain ⟨-, -, h3⟩ := hand_at D hi'
    have := le_lvl (handList C T) hi' hij
    simp only at h2
    omega
  rcases Nat.lt_trichotomy i j with h1 | h1 | h1
  · exact absurd h (main i j h1 hj wi wj)
  · exact h1
  · exact absurd h.symm (main j i h1 hi wj wi)

/-- a sum over the pots, by segments -/
theorem sum_pots (D : Deal n worst C T act) (K : FoldsCovered n act (fun i => C.getD i 0)) (g : Finset Nat → Int → Int) (hg : ∀ W, g W 0 = 0) :
    ∑ W ∈ (range n).powerset, g W (potOf n act (fun i => C.getD i 0) (fun i => T.getD i 0) W) =
      ∑ i ∈ range n, g (segWinners worst C T i) (wAt (handList C T) i) := by
  have hI : ∑ i ∈ range n, g (segWinners worst C T i) (wAt (handList C T) i) =
      ∑ i ∈ (range n).filter (fun i => wAt (handList C T) i ≠ 0), g (segWinners worst C T i) (wAt (handList C T) i) := by
    symm
    apply Finset.sum_subset (Finset.filter_subset _ _)
    intro i hi hni
    rw [Finset.mem_filter, not_and, not_not] at hni
    rw [hni hi, hg]
  have hpot : ∀ i ∈ (range n).filter (fun i => wAt (handList C T) i ≠ 0),
      potOf n act (fun i => C.getD i 0) (fun i => T.getD i 0) (segWinners worst C T i) = wAt (handList C T) i := by
    intro i hi
    rw [Finset.mem_filter, Finset.mem_range] at hi
    rw [potOf_eq D K, Finset.sum_eq_single i]
    · rw [if_pos rfl]
    · intro j hj hji
      split
      · next h =>
        by_contra hw
        exact hji (segWinners_inj D K (Finset.mem_range.1 hj) hi.1 hw hi.2 h)
      · rfl
    · intro h; exact absurd (Finset.mem_range.2 hi.1) h
  have hinj : Set.InjOn (segWinners worst C T) ((range n).filter (fun i => wAt (handList C T) i ≠ 0) : Finset Nat) := by
    intro i hi j hj h
    rw [Finset.mem_coe, Finset.mem_filter, Finset.mem_range] at hi hj
    exact segWinners_inj D K hi.1 hj.1 hi.2 hj.2 h
  rw [hI]
  have hsub : ((range n).filter (fun i => wAt (handList C T) i ≠ 0)).image (segWinners worst C T) ⊆ (range n).powerset := by
    intro W hW
    obtain ⟨i, hi, rfl⟩ := Finset.mem_image.1 hW
    rw [Finset.mem_filter, Finset.mem_range] at hi
    exact (segWinners_card D hi.1).2.1
  rw [← Finset.sum_subset hsub, Finset.sum_image hinj]
  · apply Finset.sum_congr rfl
    intro i hi
    rw [hpot i hi]
  · intro W _ hW
    rw [potOf_eq D K, Finset.sum_eq_zero, hg]
    intro i hi
    split
    · next h =>
      by_contra hw
      exact hW (Finset.mem_image.2 ⟨i, Finset.mem_filter.2 ⟨hi, hw⟩, h⟩)
    · rfl

theorem base_due (D : Deal n worst C T act) (K : FoldsCovered n act (fun i => C.getD i 0)) (j : Nat) (hj : j < n) :
    (baseList n worst (handList C T)).getD j 0 = due n act (fun i => C.getD i 0) (fun i => T.getD i 0) j := by
  have f := showdown_facts (worst := worst) D.len D.clen D.pos
  unfold due
  rw [f.base j hj, list_sum_range, sum_pots D K (fun W x => if j ∈ W then x / (W.card : Int) else 0) (by simp)]
  apply Finset.sum_congr rfl
  intro i hi
  rw [(segWinners_card D (Finset.mem_range.1 hi)).1]
  unfold segWinners
  simp only [List.mem_toFinset]

theorem odd_eq (D : Deal n worst C T act) (K : FoldsCovered n act (fun i => C.getD i 0)) :
    oddSum n worst (handList C T) = odd n act (fun i => C.getD i 0) (fun i => T.getD i 0) := by
  have f := showdown_facts (worst := worst) D.len D.clen D.pos
  unfold odd
  rw [f.odd, list_sum_range, sum_pots D K (fun W x => x % (W.card : Int)) (by simp)]
  apply Finset.sum_congr rfl
  intro i hi
  rw [(segWinners_card D (Finset.mem_range.1 hi)).1]

end Clubs.Numpy

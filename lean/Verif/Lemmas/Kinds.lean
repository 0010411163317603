import Verif.Lemmas.Patterns
import Verif.Lemmas.Bits

/-! Helper lemmas: every hand has exactly one pattern. -/

namespace Clubs

open Spec

/-- the straights, best first -/
def runPatterns (r c : Nat) : List (List Nat) :=
  (List.range (r - (c - 1))).map fun j => (List.range c).map fun i => 12 - j - i

def wheelPattern (r c : Nat) : List Nat :=
  ((List.range (c - 1)).map fun i => 13 - r + (c - 2) - i) ++ [12]

def straightPatterns (r c : Nat) (low : Bool) : List (List Nat) :=
  runPatterns r c ++ if low then [wheelPattern r c] else []

def highPatterns (r c : Nat) (low : Bool) : List (List Nat) :=
  (combinations c (backwardsRanks r)).filter fun l => decide (¬ IsStraight r low l)

/-- The rank patterns of the hands of each kind. -/
def patterns (r c : Nat) (low : Bool) : HandKind → List (List Nat)
  | .straightFlush => straightPatterns r c low
  | .straight => straightPatterns r c low
  | .flush => highPatterns r c low
  | .highCard => highPatterns r c low
  | .fourKind => multiPatterns r c [4]
  | .fullHouse => multiPatterns r c [3, 2]
  | .threeKind => multiPatterns r c [3]
  | .twoPair => multiPatterns r c [2, 2]
  | .pair => multiPatterns r c [2]

/-- shapes in which the lowest straight is not also the highest -/
def StraightOK (r c : Nat) (low : Bool) : Prop := ¬ (low = true ∧ c = r ∧ 3 ≤ c)

instance (r c : Nat) (low : Bool) : Decidable (StraightOK r c low) := inferInstanceAs (Decidable (¬ _))

theorem br_nodup (r : Nat) (hr : r ≤ 13) : (backwardsRanks r).Nodup :=
  (backwardsRanks_desc r hr).imp (fun h => Nat.ne_of_gt h)

theorem kick1 {r a : Nat} (hr : r ≤ 13) {ks : List Nat} (h : ks.Sublist ((backwardsRanks r).erase a)) :
    a ∉ ks ∧ ks.Pairwise (· > ·) ∧ ks.Nodup ∧ ∀ x ∈ ks, x ∈ backwardsRanks r := by
  have h2 : ks.Pairwise (· > ·) := ((backwardsRanks_desc r hr).sublist List.erase_sublist).sublist h
  refine ⟨?_, h2, h2.imp (fun h => Nat.ne_of_gt h), ?_⟩
  · intro ha
    have := h.subset ha
    rw [(br_nodup r hr).mem_erase_iff] at this
    exact this.1 rfl
  · intro x hx
    exact List.erase_sublist.subset (h.subset hx)

theorem kick2 {r a b : Nat} (hr : r ≤ 13) {ks : List Nat}
    (h : ks.Sublist (((backwardsRanks r).erase a).erase b)) :
    a ∉ ks ∧ b ∉ ks ∧ ks.Pairwise (· > ·) ∧ ks.Nodup ∧ ∀ x ∈ ks, x ∈ backwardsRanks r := by
  have h1 := kick1 hr (h.trans List.erase_sublist)
  refine ⟨h1.1, ?_, h1.2⟩
  intro hb
  have := h.subset hb
  rw [((br_nodup r hr).erase a).mem_erase_iff] at this
  exact this.1 rfl

theorem kick1_of {r a : Nat} (hr : r ≤ 13) {ks : List Nat} (hk : ks.Pairwise (· > ·)) (ha : a ∉ ks)
    (h : ∀ x ∈ ks, x ∈ backwardsRanks r) : ks.Sublist ((backwardsRanks r).erase a) := by
  apply sublist_of_desc hk ((backwardsRanks_desc r hr).sublist List.erase_sublist)
  intro x hx
  rw [(br_nodup r hr).mem_erase_iff]
  exact ⟨fun e => ha (e ▸ hx), h x hx⟩

theorem kick2_of {r a b : Nat} (hr : r ≤ 13) {ks : List Nat} (hk : ks.Pairwise (· > ·)) (ha : a ∉ ks)
    (hb : b ∉ ks) (h : ∀ x ∈ ks, x ∈ backwardsRanks r) :
    ks.Sublist (((backwardsRanks r).erase a).erase b) := by
  apply sublist_of_desc hk (((backwardsRanks_desc r hr).sublist List.erase_sublist).sublist List.erase_sublist)
  intro x hx
  rw [((br_nodup r hr).erase a).mem_erase_iff, (br_nodup r hr).mem_erase_iff]
  exact ⟨fun e => hb (e ▸ hx), fun e => ha (e ▸ hx), h x hx⟩

/-! ## patterns belong to their kind -/

theorem rankKind_nodup {r : Nat} {low : Bool} {l : List Nat} (h : l.Nodup) :
    rankKind r low l = if IsStraight r low l then .straight else .highCard := by
  have hz : ∀ k, k ≠ 1 → inGroups l k = 0 := by
    intro k hk
    rw [inGroups_zero_iff]
    intro x hx
    rw [h.count, if_pos hx]; omega
  unfold rankKind
  rw [hz 4 (by omega), hz 3 (by omega), hz 2 (by omega)]
  simp

theorem byGroups_desc {l : List Nat} (h : l.Pairwise (· > ·)) : byGroups l = l := by
  have hn : l.Nodup := h.imp (fun h => Nat.ne_of_gt h)
  apply byGroups_of_sorted
  refine List.Pairwise.imp_of_mem ?_ h
  intro x y hx hy hxy
  simp only [groupLe, hn.count, hx, hy, if_true, decide_eq_true_eq]
  right; exact ⟨trivial, Nat.le_of_lt hxy⟩

def straightChecks (r c : Nat) (low : Bool) : Prop :=
  (∀ l ∈ straightPatterns r c low, l.length = c ∧ (∀ x ∈ l, x ∈ backwardsRanks r) ∧ l.Nodup ∧
      IsStraight r low l ∧ [straightTop r l] = [l.headD 0]) ∧
  (straightPatterns r c low).Pairwise (fun a b => b.headD 0 < a.headD 0)

instance (r c : Nat) (low : Bool) : Decidable (straightChecks r c low) :=
  inferInstanceAs (Decidable (_ ∧ _))

theorem straightPatterns_table : ∀ r < 14, ∀ c < 6, ∀ low : Bool,
    ¬ (3 ≤ c ∧ c ≤ r ∧ StraightOK r c low) ∨ straightChecks r c low := by
  decide +kernel

/-- Everything about a pattern of a kind other than the flushes. -/
theorem pattern_spec {r c : Nat} {low : Bool} (hr : r ≤ 13) (hc : c ≤ 5) (hcr : c ≤ r)
    (hs : StraightOK r c low) (k : HandKind) (l : List Nat)
    (hk : k = .straight ∨ k = .highCard) (hc3 : k = .straight → 3 ≤ c) (h : l ∈ patterns r c low k) :
    rankKind r low l = k ∧ l.length = c ∧ (∀ x ∈ l, x ∈ backwardsRanks r) ∧
    (k = .straight → tieKey r low l = [l.headD 0]) ∧ (k = .highCard → tieKey r low l = l) := by
  rcases hk with rfl | rfl
  · have := (straightPatterns_table r (by omega) c (by omega) low).resolve_left
      (fun hn => hn ⟨hc3 rfl, hcr, hs⟩)
    obtain ⟨h1, h2, h3, h4, h5⟩ := this.1 l h
    refine ⟨?_, h1, h2, fun _ => ?_, by simp⟩
    · rw [rankKind_nodup h3, if_pos h4]
    · unfold tieKey; rw [if_pos h4, h5]
  · simp only [patterns, highPatterns, List.mem_filter, mem_combinations, decide_eq_true_eq] at h
    obtain ⟨⟨h1, h2⟩, h3⟩ := h
    have hd : l.Pairwise (· > ·) := (backwardsRanks_desc r hr).sublist h1
    refine ⟨?_, h2, fun x hx => h1.subset hx, by simp, fun _ => ?_⟩
    · rw [rankKind_nodup (hd.imp (fun h => Nat.ne_of_gt h)), if_neg h3]
    · unfold tieKey; rw [if_neg h3, byGroups_desc hd]

theorem pattern_spec_multi {r c : Nat} {low : Bool} (hr : r ≤ 13)
    (k : HandKind) (l : List Nat)
    (hk : (k = .fourKind ∧ 4 ≤ c) ∨ (k = .fullHouse ∧ 5 ≤ c) ∨ (k = .threeKind ∧ 3 ≤ c) ∨
      (k = .twoPair ∧ 4 ≤ c) ∨ (k = .pair ∧ 2 ≤ c)) (h : l ∈ patterns r c low k) :
    rankKind r low l = k ∧ l.length = c ∧ (∀ x ∈ l, x ∈ backwardsRanks r) ∧ tieKey r low l = l := by
  have one : ∀ m, (m = 4 ∨ m = 3 ∨ m = 2) → m ≤ c → l ∈ multiPatterns r c [m] →
      rankKind r low l = (if m = 4 then .fourKind else if m = 3 then .threeKind else .pair) ∧
      l.length = c ∧ (∀ x ∈ l, x ∈ backwardsRanks r) ∧ tieKey r low l = l := by
    intro m hm hmc h
    rw [mem_multi_one] at h
    obtain ⟨a, ks, ha, h1, h2, rfl⟩ := h
    obtain ⟨k1, k2, k3, k4⟩ := kick1 hr h1
    refine ⟨rankKind_group1 k1 k3 hm, by simp [h2]; omega, ?_, ?_⟩
    · intro x hx
      rcases List.mem_append.1 hx with hx | hx
      · rw [List.eq_of_mem_replicate hx]; exact ha
      · exact k4 x hx
    · rw [tieKey_of_not_nodup (not_nodup_group (by omega) ks), sorted_group1 (by omega) k1 k2]
  rcases hk with ⟨rfl, hc⟩ | ⟨rfl, hc⟩ | ⟨rfl, hc⟩ | ⟨rfl, hc⟩ | ⟨rfl, hc⟩
  · simpa using one 4 (by simp) hc h
  · simp only [patterns] at h
    rw [mem_multi_fullHouse] at h
    obtain ⟨a, b, ks, ha, h1, h2, rfl⟩ := h
    obtain ⟨k1, k2, k3, k4, k5⟩ := kick2 hr h1
    have hab : a ≠ b := by
      rintro rfl
      have h1 := List.subperm_iff_count.1 ha a
      have h2 := List.nodup_iff_count_le_one.1 (br_nodup r hr) a
      simp at h1
      omega
    have e : [a, a, a, b, b] ++ ks = List.replicate 3 a ++ (List.replicate 2 b ++ ks) := by
      simp [List.replicate]
    rw [e]
    refine ⟨by rw [rankKind_group2 hab k1 k2 k4 (by simp)]; simp, by simp [h2]; omega, ?_, ?_⟩
    · intro x hx
      simp only [List.mem_append] at hx
      rcases hx with hx | hx | hx
      · rw [List.eq_of_mem_replicate hx]; exact ha.subset (by simp)
      · rw [List.eq_of_mem_replicate hx]; exact ha.subset (by simp)
      · exact k5 x hx
    · rw [tieKey_of_not_nodup (not_nodup_group (by omega) _),
        sorted_group2 (by omega) (by omega) hab k1 k2 k3]
  · simpa using one 3 (by simp) hc h
  · simp only [patterns] at h
    rw [mem_multi_twoPair] at h
    obtain ⟨a, b, ks, ha, h1, h2, rfl⟩ := h
    obtain ⟨k1, k2, k3, k4, k5⟩ := kick2 hr h1
    have hab : b < a := by
      have := (backwardsRanks_desc r hr).sublist ha
      simpa using this
    have e : [a, a, b, b] ++ ks = List.replicate 2 a ++ (List.replicate 2 b ++ ks) := by
      simp [List.replicate]
    rw [e]
    refine ⟨by rw [rankKind_group2 (by omega) k1 k2 k4 (by simp)]; simp, by simp [h2]; omega, ?_, ?_⟩
    · intro x hx
      simp only [List.mem_append] at hx
      rcases hx with hx | hx | hx
      · rw [List.eq_of_mem_replicate hx]; exact ha.subset (by simp)
      · rw [List.eq_of_mem_replicate hx]; exact ha.subset (by simp)
      · exact k5 x hx
    · rw [tieKey_of_not_nodup (not_nodup_group (by omega) _),
        sorted_group2 (by omega) (by omega) (by omega) k1 k2 k3]
  · simpa using one 2 (by simp) hc h

/-! ## every hand has a pattern -/

theorem count_filter_ne (rs : List Nat) (a x : Nat) :
    (rs.filter (· ≠ a)).count x = if x = a then 0 else rs.count x := by
  by_cases h : x = a
  · subst h; rw [if_pos rfl, List.count_eq_zero]; simp
  · rw [if_neg h, List.count_filter (by simpa using h)]

theorem exists_group1 {r c : Nat} (hr : r ≤ 13) {rs : List Nat} (hlen : rs.length = c)
    (hmem : ∀ x ∈ rs, x ∈ backwardsRanks r) {a m : Nat} (ham : a ∈ rs) (ha : rs.count a = m)
    (hone : ∀ x ∈ rs, x ≠ a → rs.count x = 1) : ∃ l ∈ multiPatterns r c [m], l.Perm rs := by
  have hp := perm_group rs a
  rw [ha] at hp
  have hn : (rs.filter (· ≠ a)).Nodup := by
    apply nodup_of_count
    intro x hx
    have := List.mem_filter.1 hx
    rw [count_filter_ne, if_neg (by simpa using this.2)]
    exact hone x this.1 (by simpa using this.2)
  obtain ⟨ks, hk1, hk2⟩ := exists_desc _ hn
  refine ⟨List.replicate m a ++ ks, ?_, (hk1.append_left _).trans hp.symm⟩
  rw [mem_multi_one]
  refine ⟨a, ks, hmem a ham, kick1_of hr hk2 ?_ ?_, ?_, rfl⟩
  · intro h; have := hk1.mem_iff.1 h; simp at this
  · intro x hx
    exact hmem x (List.mem_filter.1 (hk1.mem_iff.1 hx)).1
  · have := hp.length_eq
    rw [List.length_append, List.length_replicate, ← hk1.length_eq] at this
    omega

theorem perm_group2 (rs : List Nat) (a b : Nat) (hab : a ≠ b) :
    rs.Perm (List.replicate (rs.count a) a ++ (List.replicate (rs.count b) b ++
      (rs.filter (· ≠ a)).filter (· ≠ b))) := by
  have h1 := perm_group rs a
  have h2 := perm_group (rs.filter (· ≠ a)) b
  rw [count_filter_ne, if_neg (Ne.symm hab)] at h2
  exact h1.trans (h2.append_left _)

theorem exists_group2 {r : Nat} (hr : r ≤ 13) {rs : List Nat}
    (hmem : ∀ x ∈ rs, x ∈ backwardsRanks r) {a b : Nat} (hab : a ≠ b)
    (hone : ∀ x ∈ rs, x ≠ a → x ≠ b → rs.count x = 1) :
    ∃ ks : List Nat, ks.Sublist (((backwardsRanks r).erase a).erase b) ∧
      (List.replicate (rs.count a) a ++ (List.replicate (rs.count b) b ++ ks)).Perm rs := by
  have hp := perm_group2 rs a b hab
  have hn : ((rs.filter (· ≠ a)).filter (· ≠ b)).Nodup := by
    apply nodup_of_count
    intro x hx
    have h1 := List.mem_filter.1 hx
    have h2 := List.mem_filter.1 h1.1
    rw [count_filter_ne, if_neg (by simpa using h1.2), count_filter_ne, if_neg (by simpa using h2.2)]
    exact hone x h2.1 (by simpa using h2.2) (by simpa using h1.2)
  obtain ⟨ks, hk1, hk2⟩ := exists_desc _ hn
  refine ⟨ks, kick2_of hr hk2 ?_ ?_ ?_, ((hk1.append_left _).append_left _).trans hp.symm⟩
  · intro h
    have := List.mem_filter.1 (List.mem_filter.1 (hk1.mem_iff.1 h)).1
    simp at this
  · intro h
    have := List.mem_filter.1 (hk1.mem_iff.1 h)
    simp at this
  · intro x hx
    exact hmem x (List.mem_filter.1 (List.mem_filter.1 (hk1.mem_iff.1 hx)).1).1

theorem length_le_of_nodup {r : Nat} {rs : List Nat} (hn : rs.Nodup)
    (hmem : ∀ x ∈ rs, x ∈ backwardsRanks r) : rs.length ≤ r := by
  have := (hn.subperm hmem).length_le
  simpa [backwardsRanks] using this

theorem exists_straight {r c : Nat} {low : Bool} (hr : r ≤ 13) {rs : List Nat}
    (hlen : rs.length = c) (hmem : ∀ x ∈ rs, x ∈ backwardsRanks r) (hs : IsStraight r low rs) :
    ∃ l ∈ straightPatterns r c low, l.Perm rs := by
  have hn := isStraight_nodup hs
  have hcr := length_le_of_nodup hn hmem
  rcases hs with ⟨h3, ⟨lo, -, hrun⟩ | ⟨hlow, -, h12, hw⟩⟩
  · have e1 := (mem_backwardsRanks r _ hr).1 (hmem _ (hrun 0 (by omega)))
    have e2 := (mem_backwardsRanks r _ hr).1 (hmem _ (hrun (c - 1) (by omega)))
    refine ⟨(List.range c).map fun i => 12 - (12 - (lo + (c - 1))) - i, ?_, ?_⟩
    · rw [straightPatterns, List.mem_append]
      left
      rw [runPatterns, List.mem_map]
      exact ⟨12 - (lo + (c - 1)), List.mem_range.2 (by omega), rfl⟩
    · refine (List.Nodup.subperm ?_ ?_).perm_of_length_le (by simp [hlen])
      · apply List.Nodup.map_on _ List.nodup_range
        intro x hx y hy h
        have := List.mem_range.1 hx
        have := List.mem_range.1 hy
        omega
      · intro x hx
        obtain ⟨i, hi, rfl⟩ := List.mem_map.1 hx
        have hi := List.mem_range.1 hi
        have := hrun (c - 1 - i) (by omega)
        rwa [show lo + (c - 1 - i) = 12 - (12 - (lo + (c - 1))) - i by omega] at this
  · refine ⟨wheelPattern r c, ?_, ?_⟩
    · rw [straightPatterns, List.mem_append, hlow]; right; simp
    · refine (List.Nodup.subperm ?_ ?_).perm_of_length_le (by simp [wheelPattern, hlen]; omega)
      · unfold wheelPattern
        rw [List.nodup_append]
        refine ⟨?_, by simp, ?_⟩
        · apply List.Nodup.map_on _ List.nodup_range
          intro x hx y hy h
          have := List.mem_range.1 hx
          have := List.mem_range.1 hy
          omega
        · intro x hx y hy
          obtain ⟨i, hi, rfl⟩ := List.mem_map.1 hx
          have := List.mem_range.1 hi
          simp at hy
          omega
      · intro x hx
        simp only [wheelPattern, List.mem_append, List.mem_singleton] at hx
        rcases hx with hx | rfl
        · obtain ⟨i, hi, rfl⟩ := List.mem_map.1 hx
          have hi := List.mem_range.1 hi
          have := hw (c - 2 - i) (by omega)
          rwa [show 13 - r + (c - 2 - i) = 13 - r + (c - 2) - i by omega] at this
        · exact h12

/-- Every list of ranks of a hand is a reordering of a pattern of its kind, and the number of cards
and of suits needed is known. -/
theorem exists_pattern {r c : Nat} {low : Bool} (hr : r ≤ 13) (hc : c ≤ 5) {rs : List Nat}
    (hlen : rs.length = c) (hmem : ∀ x ∈ rs, x ∈ backwardsRanks r) (h4 : ∀ x, rs.count x ≤ 4) :
    ∃ k, rankKind r low rs = k ∧ (∃ l ∈ patterns r c low k, l.Perm rs) ∧
      ((k = .fourKind ∧ 4 ≤ c ∧ ∃ a, rs.count a = 4) ∨
       (k = .fullHouse ∧ 5 ≤ c ∧ ∃ a, rs.count a = 3) ∨
       (k = .threeKind ∧ 3 ≤ c ∧ ∃ a, rs.count a = 3) ∨
       (k = .twoPair ∧ 4 ≤ c ∧ ∃ a, rs.count a = 2) ∨
       (k = .pair ∧ 2 ≤ c ∧ ∃ a, rs.count a = 2) ∨
       (k = .straight ∧ 3 ≤ c ∧ IsStraight r low rs ∧ rs.Nodup) ∨
       (k = .highCard ∧ ¬ IsStraight r low rs ∧ rs.Nodup)) := by
  have hpos : ∀ x ∈ rs, 1 ≤ rs.count x := fun x hx => List.count_pos_iff.2 hx
  have hmemOf : ∀ x k, rs.count x = k → 1 ≤ k → x ∈ rs := by
    intro x k h1 h2; exact List.count_pos_iff.1 (by omega)
  unfold rankKind
  by_cases g4 : inGroups rs 4 ≠ 0
  · rw [if_pos g4]
    obtain ⟨a, ha, hca⟩ := inGroups_ne_zero _ _ g4
    have hle := List.count_le_length (a := a) (l := rs)
    refine ⟨_, rfl, ?_, .inl ⟨rfl, by omega, a, hca⟩⟩
    refine exists_group1 hr hlen hmem ha hca ?_
    intro x hx hxa
    have h1 := count_le_length' rs x a hxa
    have h2 := hpos x hx
    omega
  rw [if_neg g4]
  have g4' := (inGroups_zero_iff rs 4).1 (by omega)
  by_cases g32 : inGroups rs 3 ≠ 0 ∧ inGroups rs 2 ≠ 0
  · rw [if_pos g32]
    obtain ⟨a, ha, hca⟩ := inGroups_ne_zero _ _ g32.1
    obtain ⟨b, hb, hcb⟩ := inGroups_ne_zero _ _ g32.2
    have hab : a ≠ b := by rintro rfl; omega
    have hle := count_le_length' rs a b hab
    refine ⟨_, rfl, ?_, .inr (.inl ⟨rfl, by omega, a, hca⟩)⟩
    obtain ⟨ks, hk1, hk2⟩ := exists_group2 hr hmem hab (by
      intro x hx hxa hxb
      exfalso
      have p2 := perm_group2 rs a b hab
      have l2 := p2.length_eq
      rw [hca, hcb] at l2
      simp only [List.length_append, List.length_replicate] at l2
      have : x ∈ (rs.filter (· ≠ a)).filter (· ≠ b) := by simp [hx, hxa, hxb]
      have := List.length_pos_of_mem this
      omega)
    rw [hca, hcb] at hk2
    refine ⟨_, ?_, hk2⟩
    simp only [patterns]
    rw [mem_multi_fullHouse]
    refine ⟨a, b, ks, ?_, hk1, ?_, by simp [List.replicate]⟩
    · exact List.Nodup.subperm (by simpa using hab) (by
        intro x hx; simp at hx; rcases hx with rfl | rfl <;> apply hmem <;> assumption)
    · have := hk2.length_eq
      simp at this; omega
  rw [if_neg g32]
  by_cases g3 : inGroups rs 3 ≠ 0
  · rw [if_pos g3]
    obtain ⟨a, ha, hca⟩ := inGroups_ne_zero _ _ g3
    have hle := List.count_le_length (a := a) (l := rs)
    have g2' := (inGroups_zero_iff rs 2).1 (by by_contra h; exact g32 ⟨g3, h⟩)
    refine ⟨_, rfl, ?_, .inr (.inr (.inl ⟨rfl, by omega, a, hca⟩))⟩
    refine exists_group1 hr hlen hmem ha hca ?_
    intro x hx hxa
    have h1 := count_le_length' rs x a hxa
    have h2 := hpos x hx
    have h3 := g2' x hx
    omega
  rw [if_neg g3]
  have g3' := (inGroups_zero_iff rs 3).1 (by omega)
  have small : ∀ x ∈ rs, rs.count x = 1 ∨ rs.count x = 2 := by
    intro x hx
    have h1 := hpos x hx
    have h2 := h4 x
    have h3 := g4' x hx
    have h5 := g3' x hx
    omega
  by_cases g2 : inGroups rs 2 = 0
  · rw [if_neg (by omega), if_neg (by simpa using g2)]
    have g2' := (inGroups_zero_iff rs 2).1 g2
    have hn : rs.Nodup := nodup_of_count rs (fun x hx => (small x hx).resolve_right (g2' x hx))
    by_cases hs : IsStraight r low rs
    · rw [if_pos hs]
      exact ⟨_, rfl, exists_straight hr hlen hmem hs,
        .inr (.inr (.inr (.inr (.inr (.inl ⟨rfl, by have := hs.1; omega, hs, hn⟩)))))⟩
    · rw [if_neg hs]
      refine ⟨_, rfl, ?_, .inr (.inr (.inr (.inr (.inr (.inr ⟨rfl, hs, hn⟩)))))⟩
      obtain ⟨l, hl1, hl2⟩ := exists_desc rs hn
      refine ⟨l, ?_, hl1⟩
      simp only [patterns, highPatterns, List.mem_filter, mem_combinations, decide_eq_true_eq]
      refine ⟨⟨sublist_of_desc hl2 (backwardsRanks_desc r hr) ?_, by rw [hl1.length_eq, hlen]⟩, ?_⟩
      · intro x hx; exact hmem x (hl1.mem_iff.1 hx)
      · rw [isStraight_perm hl1]; exact hs
  · obtain ⟨a, ha, hca⟩ := inGroups_ne_zero _ _ g2
    by_cases hex : ∃ b ∈ rs, b ≠ a ∧ rs.count b = 2
    · obtain ⟨b0, hb0, hne0, hcb0⟩ := hex
      obtain ⟨a, b, ha, hb, hlt, hca, hcb⟩ : ∃ a b, a ∈ rs ∧ b ∈ rs ∧ b < a ∧ rs.count a = 2 ∧ rs.count b = 2 := by
        rcases Nat.lt_or_gt_of_ne hne0 with h | h
        · exact ⟨a, b0, ha, hb0, h, hca, hcb0⟩
        · exact ⟨b0, a, hb0, ha, h, hcb0, hca⟩
      have hab : a ≠ b := by omega
      have hle := count_le_length' rs a b hab
      obtain ⟨ks, hk1, hk2⟩ := exists_group2 hr hmem hab (by
        intro x hx hxa hxb
        have p2 := perm_group2 rs a b hab
        have l2 := p2.length_eq
        rw [hca, hcb] at l2
        simp only [List.length_append, List.length_replicate] at l2
        have e : ((rs.filter (· ≠ a)).filter (· ≠ b)).count x = rs.count x := by
          rw [count_filter_ne, if_neg hxb, count_filter_ne, if_neg hxa]
        have h1 := List.count_le_length (a := x) (l := (rs.filter (· ≠ a)).filter (· ≠ b))
        have := hpos x hx
        omega)
      rw [hca, hcb] at hk2
      obtain ⟨q1, q2, q3, q4, q5⟩ := kick2 hr hk1
      have hg : inGroups rs 2 = 4 := by
        rw [← inGroups_perm hk2, inGroups_group2 hab q1 q2 q4]; simp
      rw [if_pos hg]
      refine ⟨_, rfl, ⟨_, ?_, hk2⟩, .inr (.inr (.inr (.inl ⟨rfl, by omega, a, hca⟩)))⟩
      simp only [patterns]
      rw [mem_multi_twoPair]
      refine ⟨a, b, ks, ?_, hk1, ?_, by simp [List.replicate]⟩
      · apply sublist_of_desc (by simpa using hlt) (backwardsRanks_desc r hr)
        intro x hx; simp at hx; rcases hx with rfl | rfl <;> apply hmem <;> assumption
      · have := hk2.length_eq
        simp at this; omega
    · have hone : ∀ x ∈ rs, x ≠ a → rs.count x = 1 := by
        intro x hx hxa
        exact (small x hx).resolve_right (fun h => hex ⟨x, hx, hxa, h⟩)
      have hle := List.count_le_length (a := a) (l := rs)
      obtain ⟨l, hl1, hl2⟩ := exists_group1 hr hlen hmem ha hca hone
      have hg : inGroups rs 2 ≠ 4 := by
        rw [mem_multi_one] at hl1
        obtain ⟨a', ks, -, h1, -, rfl⟩ := hl1
        obtain ⟨q1, -, q3, -⟩ := kick1 hr h1
        rw [← inGroups_perm hl2, inGroups_group1 q1 q3]; simp
      rw [if_neg hg, if_pos g2]
      exact ⟨_, rfl, ⟨l, hl1, hl2⟩, .inr (.inr (.inr (.inr (.inl ⟨rfl, by omega, a, hca⟩))))⟩

end Clubs

import Verif.Lemmas.Hands
import Verif.Lemmas.Keys

/-! Helper lemmas: the rank patterns of each class, in the order in which the table lists them. -/

namespace Clubs

open Spec

/-! ## groups of equal ranks -/

/-- `cr[0]` repeated `ms[0]` times, and so on -/
def expand (cr ms : List Nat) : List Nat := (cr.zip ms).flatMap fun p => List.replicate p.2 p.1

def multiPatterns (r c : Nat) (ms : List Nat) : List (List Nat) :=
  (if (distinct ms).length > 1 then permutations ms.length (backwardsRanks r)
    else combinations ms.length (backwardsRanks r)).flatMap fun cr =>
      (combinations (c - ms.sum) (cr.foldl (fun l r => l.erase r) (backwardsRanks r))).map
        (expand cr ms ++ ·)

theorem mapM_ok_map {α β : Type} (f : α → Except Err β) (g : α → β) (l : List α)
    (h : ∀ a ∈ l, f a = .ok (g a)) : l.mapM f = .ok (l.map g) := by
  induction l with
  | nil => rfl
  | cons a l ih =>
    rw [List.mapM_cons, h a (by simp), ih (fun b hb => h b (by simp [hb]))]
    rfl

theorem primes_getD (x : Nat) (h : x < 13) : PRIMES.getD x 0 = primeOf x := by
  have : ∀ x < 13, PRIMES.getD x 0 = primeOf x := by decide
  exact this x h

theorem prodKey_append (a b : List Nat) : prodKey (a ++ b) = prodKey a * prodKey b := by
  simp [prodKey]

theorem prodKey_replicate (m a : Nat) : prodKey (List.replicate m a) = primeOf a ^ m := by
  simp [prodKey]

theorem foldl_erase_sublist (cr br : List Nat) : (cr.foldl (fun l r => l.erase r) br).Sublist br := by
  induction cr generalizing br with
  | nil => simp
  | cons a cr ih => exact (ih _).trans List.erase_sublist

theorem multipleProducts_eq (r c : Nat) (hr : r ≤ 13) (ms : List Nat) (h : ms.sum ≤ c) :
    multipleProducts r c ms = .ok ((multiPatterns r c ms).map prodKey) := by
  unfold multipleProducts multiPatterns
  simp only []
  generalize hcombs : (if (distinct ms).length > 1 then permutations ms.length (backwardsRanks r)
    else combinations ms.length (backwardsRanks r)) = combs
  have hmem : ∀ cr ∈ combs, ∀ x ∈ cr, x < 13 := by
    intro cr hcr x hx
    have : x ∈ backwardsRanks r := by
      rw [← hcombs] at hcr
      split at hcr
      · exact (mem_permutations_subperm hcr).subset hx
      · exact ((mem_combinations _ _ _).1 hcr).1.subset hx
    exact ((mem_backwardsRanks r x hr).1 this).2
  have hbase : ∀ (cr ms : List Nat) (a : Nat), (∀ x ∈ cr, x < 13) →
      (cr.zip ms).foldl (fun p cm => p * PRIMES.getD cm.1 0 ^ cm.2) a = a * prodKey (expand cr ms) := by
    intro cr
    induction cr with
    | nil => intro ms a _; simp [expand, prodKey]
    | cons x cr ih =>
      intro ms a hx
      cases ms with
      | nil => simp [expand, prodKey]
      | cons m ms =>
        rw [List.zip_cons_cons, List.foldl_cons, ih ms _ (fun y hy => hx y (by simp [hy]))]
        have : expand (x :: cr) (m :: ms) = List.replicate m x ++ expand cr ms := by simp [expand]
        rw [this, prodKey_append, prodKey_replicate]
        dsimp only
        rw [primes_getD x (hx x (by simp)), Nat.mul_assoc]
  have hkick : ∀ (ks : List Nat) (a : Nat), (∀ x ∈ ks, x < 13) →
      ks.foldl (fun p k => p * PRIMES.getD k 0) a = a * prodKey ks := by
    intro ks a hks
    rw [foldl_mul_map (fun k => PRIMES.getD k 0)]
    congr 2
    apply List.map_congr_left
    intro x hx
    exact primes_getD x (hks x hx)
  rw [mapM_ok_map _ (fun cr => (combinations (c - ms.sum)
      (cr.foldl (fun l r => l.erase r) (backwardsRanks r))).map fun ks => prodKey (expand cr ms ++ ks))]
  · show Except.ok _ = Except.ok _
    congr 1
    rw [List.map_flatMap, List.flatMap]
    congr 1
    apply List.map_congr_left
    intro cr _
    simp only [List.map_map]
    rfl
  · intro cr hcr
    rw [hbase cr ms 1 (hmem cr hcr), Nat.one_mul]
    have hk : ((c : Int) - (ms.sum : Nat)) = ((c - ms.sum : Nat) : Int) := by omega
    rw [hk]
    by_cases h0 : c - ms.sum = 0
    · rw [h0]
      simp only [Int.natCast_zero, ne_eq, not_true_eq_false, if_false]
      show Except.ok _ = Except.ok _
      simp [combinations]
    · rw [if_pos (by omega)]
      simp only [combinationsInt]
      rw [if_neg (by omega), Int.toNat_natCast]
      show Except.ok _ = Except.ok _
      congr 1
      apply List.map_congr_left
      intro ks hks
      rw [hkick, prodKey_append]
      intro x hx
      have h1 := ((mem_combinations _ _ _).1 hks).1.subset hx
      have h2 := (foldl_erase_sublist cr (backwardsRanks r)).subset h1
      exact ((mem_backwardsRanks r x hr).1 h2).2

theorem replicate_append_lt (m a : Nat) (x y : List Nat) (h : x < y) :
    List.replicate m a ++ x < List.replicate m a ++ y := by
  induction m with
  | zero => simpa using h
  | succ m ih =>
    rw [List.replicate_succ]
    exact List.cons_lt_cons_iff.2 (.inr ⟨rfl, ih⟩)

theorem expand_lt (ms cr cr' x y : List Nat) (hm : ∀ m ∈ ms, 1 ≤ m) (h1 : cr.length = ms.length)
    (h2 : cr'.length = ms.length) (h : cr' < cr) : expand cr' ms ++ x < expand cr ms ++ y := by
  induction ms generalizing cr cr' with
  | nil =>
    have e1 : cr = [] := List.eq_nil_of_length_eq_zero h1
    have e2 : cr' = [] := List.eq_nil_of_length_eq_zero h2
    subst e1; subst e2
    simp at h
  | cons m ms ih =>
    cases cr with
    | nil => simp at h1
    | cons a cr =>
      cases cr' with
      | nil => simp at h2
      | cons b cr' =>
        have e : ∀ a cr, expand (a :: cr) (m :: ms) = List.replicate m a ++ expand cr ms := by
          intro a cr; simp [expand]
        rw [e, e]
        rcases List.cons_lt_cons_iff.1 h with h | ⟨rfl, h'⟩
        · obtain ⟨n, hn⟩ : ∃ n, m = n + 1 := ⟨m - 1, by have := hm m (by simp); omega⟩
          subst hn
          rw [List.replicate_succ, List.replicate_succ]
          exact List.cons_lt_cons_iff.2 (.inl h)
        · rw [List.append_assoc, List.append_assoc]
          exact replicate_append_lt _ _ _ _
            (ih cr cr' (fun k hk => hm k (by simp [hk])) (by simpa using h1) (by simpa using h2) h')

theorem multiPatterns_desc (r c : Nat) (hr : r ≤ 13) (ms : List Nat) (hm : ∀ m ∈ ms, 1 ≤ m) :
    (multiPatterns r c ms).Pairwise (fun a b => b < a) := by
  unfold multiPatterns
  generalize hcombs : (if (distinct ms).length > 1 then permutations ms.length (backwardsRanks r)
    else combinations ms.length (backwardsRanks r)) = combs
  have hdesc : combs.Pairwise (fun a b => b < a) := by
    rw [← hcombs]
    split
    · exact permutations_desc _ _ (backwardsRanks_desc r hr)
    · exact combinations_desc _ _ (backwardsRanks_desc r hr)
  have hlen : ∀ cr ∈ combs, cr.length = ms.length := by
    intro cr hcr
    rw [← hcombs] at hcr
    split at hcr
    · exact permutations_length_of_mem hcr
    · exact combinations_length_of_mem hcr
  rw [List.pairwise_flatMap]
  constructor
  · intro cr hcr
    rw [List.pairwise_map]
    refine (combinations_desc _ _ ((backwardsRanks_desc r hr).sublist (foldl_erase_sublist _ _))).imp ?_
    intro a b h
    have : ∀ p : List Nat, p ++ b < p ++ a := by
      intro p
      induction p with
      | nil => simpa using h
      | cons x p ih => exact List.cons_lt_cons_iff.2 (.inr ⟨rfl, ih⟩)
    exact this _
  · refine List.Pairwise.imp_of_mem ?_ hdesc
    intro cr cr' h1 h2 h a ha b hb
    obtain ⟨x, -, rfl⟩ := List.mem_map.1 ha
    obtain ⟨y, -, rfl⟩ := List.mem_map.1 hb
    exact expand_lt ms cr cr' y x hm (hlen cr h1) (hlen cr' h2) h

/-! ## one group -/

theorem mem_multi_one (r c m : Nat) (l : List Nat) :
    l ∈ multiPatterns r c [m] ↔ ∃ a ks, a ∈ backwardsRanks r ∧
      ks.Sublist ((backwardsRanks r).erase a) ∧ ks.length = c - m ∧ l = List.replicate m a ++ ks := by
  have hd : (distinct [m]).length = 1 := by simp [distinct]
  simp only [multiPatterns, hd, List.mem_flatMap, List.mem_map, mem_combinations]
  constructor
  · rintro ⟨cr, hcr, ks, ⟨h1, h2⟩, rfl⟩
    simp only [gt_iff_lt, Nat.lt_irrefl, if_false, mem_combinations, List.length_singleton] at hcr
    obtain ⟨a, rfl⟩ := List.length_eq_one_iff.1 hcr.2
    exact ⟨a, ks, hcr.1.subset (by simp), h1, by simpa using h2, by simp [expand]⟩
  · rintro ⟨a, ks, ha, h1, h2, rfl⟩
    refine ⟨[a], ?_, ks, ⟨h1, by simpa using h2⟩, by simp [expand]⟩
    simp [mem_combinations, ha]

/-- both kinds of pattern with two groups -/
theorem mem_multi_fullHouse (r c : Nat) (l : List Nat) :
    l ∈ multiPatterns r c [3, 2] ↔ ∃ a b ks, [a, b].Subperm (backwardsRanks r) ∧
      ks.Sublist (((backwardsRanks r).erase a).erase b) ∧ ks.length = c - 5 ∧
      l = [a, a, a, b, b] ++ ks := by
  have hd : (distinct [3, 2]).length = 2 := by decide
  simp only [multiPatterns, hd, List.mem_flatMap, List.mem_map, mem_combinations]
  constructor
  · rintro ⟨cr, hcr, ks, ⟨h1, h2⟩, rfl⟩
    rw [if_pos (by omega)] at hcr
    have hl := permutations_length_of_mem hcr
    obtain ⟨a, b, rfl⟩ := List.length_eq_two.1 hl
    exact ⟨a, b, ks, mem_permutations_subperm hcr, h1, by simpa using h2, by simp [expand]⟩
  · rintro ⟨a, b, ks, ha, h1, h2, rfl⟩
    refine ⟨[a, b], ?_, ks, ⟨h1, by simpa using h2⟩, by simp [expand]⟩
    rw [if_pos (by omega)]
    exact mem_permutations_of_subperm ha

theorem mem_multi_twoPair (r c : Nat) (l : List Nat) :
    l ∈ multiPatterns r c [2, 2] ↔ ∃ a b ks, [a, b].Sublist (backwardsRanks r) ∧
      ks.Sublist (((backwardsRanks r).erase a).erase b) ∧ ks.length = c - 4 ∧
      l = [a, a, b, b] ++ ks := by
  have hd : (distinct [2, 2]).length = 1 := by decide
  simp only [multiPatterns, hd, List.mem_flatMap, List.mem_map, mem_combinations]
  constructor
  · rintro ⟨cr, hcr, ks, ⟨h1, h2⟩, rfl⟩
    rw [if_neg (by omega), mem_combinations] at hcr
    obtain ⟨a, b, rfl⟩ := List.length_eq_two.1 hcr.2
    exact ⟨a, b, ks, hcr.1, h1, by simpa using h2, by simp [expand]⟩
  · rintro ⟨a, b, ks, ha, h1, h2, rfl⟩
    refine ⟨[a, b], ?_, ks, ⟨h1, by simpa using h2⟩, by simp [expand]⟩
    rw [if_neg (by omega), mem_combinations]
    exact ⟨ha, rfl⟩

/-! ## what the patterns with groups look like -/

theorem count_group1 {m a : Nat} {ks : List Nat} (ha : a ∉ ks) (hk : ks.Nodup) (x : Nat) :
    (List.replicate m a ++ ks).count x = if x = a then m else if x ∈ ks then 1 else 0 := by
  rw [List.count_append, List.count_replicate]
  by_cases h : x = a
  · subst h; simp [List.count_eq_zero_of_not_mem ha]
  · have h2 : (a == x) = false := beq_eq_false_iff_ne.2 (Ne.symm h)
    rw [h2, hk.count]
    simp [h]

theorem inGroups_group1 {m a : Nat} {ks : List Nat} (ha : a ∉ ks) (hk : ks.Nodup) (k : Nat) :
    inGroups (List.replicate m a ++ ks) k = (if m = k then m else 0) + (if k = 1 then ks.length else 0) := by
  unfold inGroups
  simp only [count_group1 ha hk]
  rw [List.filter_append, List.length_append]
  congr 1
  · rw [List.filter_replicate]
    by_cases h : m = k <;> simp [h]
  · by_cases h : k = 1
    · rw [if_pos h]
      congr 1
      rw [List.filter_eq_self]
      intro x hx
      have : x ≠ a := fun e => ha (e ▸ hx)
      simp [this, hx, h]
    · rw [if_neg h, List.length_eq_zero_iff, List.filter_eq_nil_iff]
      intro x hx
      have : x ≠ a := fun e => ha (e ▸ hx)
      simp [this, hx, Ne.symm h]

theorem count_group2 {m n a b : Nat} {ks : List Nat} (hab : a ≠ b) (ha : a ∉ ks) (hb : b ∉ ks)
    (hk : ks.Nodup) (x : Nat) :
    (List.replicate m a ++ (List.replicate n b ++ ks)).count x
      = if x = a then m else if x = b then n else if x ∈ ks then 1 else 0 := by
  rw [List.count_append, count_group1 hb hk, List.count_replicate]
  by_cases h : x = a
  · subst h; simp [hab, ha]
  · have h2 : (a == x) = false := beq_eq_false_iff_ne.2 (Ne.symm h)
    rw [h2]; simp [h]

theorem inGroups_group2 {m n a b : Nat} {ks : List Nat} (hab : a ≠ b) (ha : a ∉ ks) (hb : b ∉ ks)
    (hk : ks.Nodup) (k : Nat) :
    inGroups (List.replicate m a ++ (List.replicate n b ++ ks)) k
      = (if m = k then m else 0) + ((if n = k then n else 0) + (if k = 1 then ks.length else 0)) := by
  unfold inGroups
  simp only [count_group2 hab ha hb hk]
  rw [List.filter_append, List.filter_append, List.length_append, List.length_append]
  congr 1
  · rw [List.filter_replicate]
    by_cases h : m = k <;> simp [h]
  congr 1
  · rw [List.filter_replicate]
    by_cases h : n = k <;> simp [h, Ne.symm hab]
  · by_cases h : k = 1
    · rw [if_pos h]
      congr 1
      rw [List.filter_eq_self]
      intro x hx
      have h1 : x ≠ a := fun e => ha (e ▸ hx)
      have h2 : x ≠ b := fun e => hb (e ▸ hx)
      simp [h1, h2, hx, h]
    · rw [if_neg h, List.length_eq_zero_iff, List.filter_eq_nil_iff]
      intro x hx
      have h1 : x ≠ a := fun e => ha (e ▸ hx)
      have h2 : x ≠ b := fun e => hb (e ▸ hx)
      simp [h1, h2, hx, Ne.symm h]

theorem run_perm {l : List Nat} {lo : Nat} (h : ∀ i < l.length, lo + i ∈ l) :
    ((List.range l.length).map (lo + ·)).Perm l := by
  have hn : ((List.range l.length).map (lo + ·)).Nodup :=
    List.Nodup.map (by intro a b h; simpa using h) List.nodup_range
  have hs : ((List.range l.length).map (lo + ·)).Subperm l := by
    rw [List.subperm_iff_count] 
    intro a
    by_cases ha : a ∈ (List.range l.length).map (lo + ·)
    · rw [hn.count, if_pos ha]
      obtain ⟨i, hi, rfl⟩ := List.mem_map.1 ha
      exact List.count_pos_iff.2 (h i (List.mem_range.1 hi))
    · rw [List.count_eq_zero_of_not_mem ha]; omega
  exact hs.perm_of_length_le (by simp)

theorem isStraight_nodup {r : Nat} {low : Bool} {l : List Nat} (h : IsStraight r low l) : l.Nodup := by
  rcases h.2 with ⟨lo, -, h⟩ | h
  · exact (run_perm h).nodup_iff.1 (List.Nodup.map (by intro a b h; simpa using h) List.nodup_range)
  · exact h.2.1

theorem tieKey_of_not_nodup {r : Nat} {low : Bool} {l : List Nat} (h : ¬ l.Nodup) :
    tieKey r low l = byGroups l := by
  unfold tieKey
  rw [if_neg (fun hs => h (isStraight_nodup hs))]

theorem not_nodup_group {m a : Nat} (hm : 2 ≤ m) (ks : List Nat) : ¬ (List.replicate m a ++ ks).Nodup := by
  intro h
  have := List.nodup_iff_count_le_one.1 h a
  rw [List.count_append, List.count_replicate_self] at this
  omega

theorem sorted_group1 {m a : Nat} {ks : List Nat} (hm : 2 ≤ m) (ha : a ∉ ks) (hk : ks.Pairwise (· > ·)) :
    byGroups (List.replicate m a ++ ks) = List.replicate m a ++ ks := by
  have hn : ks.Nodup := hk.imp (fun h => Nat.ne_of_gt h)
  apply byGroups_of_sorted
  rw [List.pairwise_append]
  simp only [groupLe, count_group1 ha hn, decide_eq_true_eq]
  refine ⟨?_, ?_, ?_⟩
  · rw [List.pairwise_replicate]; right; right; simp
  · refine List.Pairwise.imp_of_mem ?_ hk
    intro x y hx hy hxy
    have h1 : x ≠ a := fun e => ha (e ▸ hx)
    have h2 : y ≠ a := fun e => ha (e ▸ hy)
    simp [h1, h2, hx, hy]
    exact Nat.le_of_lt hxy
  · intro x hx y hy
    have h1 := List.eq_of_mem_replicate hx
    have h2 : y ≠ a := fun e => ha (e ▸ hy)
    simp [h1, h2, hy]; omega

theorem sorted_group2 {m n a b : Nat} {ks : List Nat} (hn2 : 2 ≤ n) (hmn : n < m ∨ (n = m ∧ b < a))
    (hab : a ≠ b) (ha : a ∉ ks) (hb : b ∉ ks) (hk : ks.Pairwise (· > ·)) :
    byGroups (List.replicate m a ++ (List.replicate n b ++ ks))
      = List.replicate m a ++ (List.replicate n b ++ ks) := by
  have hn : ks.Nodup := hk.imp (fun h => Nat.ne_of_gt h)
  apply byGroups_of_sorted
  rw [List.pairwise_append, List.pairwise_append]
  simp only [groupLe, count_group2 hab ha hb hn, decide_eq_true_eq]
  refine ⟨?_, ⟨?_, ?_, ?_⟩, ?_⟩
  · rw [List.pairwise_replicate]; right; right; simp
  · rw [List.pairwise_replicate]; right; right; simp
  · refine List.Pairwise.imp_of_mem ?_ hk
    intro x y hx hy hxy
    have h1 : x ≠ a := fun e => ha (e ▸ hx)
    have h2 : y ≠ a := fun e => ha (e ▸ hy)
    have h3 : x ≠ b := fun e => hb (e ▸ hx)
    have h4 : y ≠ b := fun e => hb (e ▸ hy)
    simp [h1, h2, h3, h4, hx, hy]
    exact Nat.le_of_lt hxy
  · intro x hx y hy
    have h1 := List.eq_of_mem_replicate hx
    have h2 : y ≠ a := fun e => ha (e ▸ hy)
    have h3 : y ≠ b := fun e => hb (e ▸ hy)
    subst h1
    simp [h2, h3, hy, Ne.symm hab]; omega
  · intro x hx y hy
    have h1 := List.eq_of_mem_replicate hx
    subst h1
    rcases List.mem_append.1 hy with hy | hy
    · have h2 := List.eq_of_mem_replicate hy
      subst h2
      simp [Ne.symm hab]; omega
    · have h2 : y ≠ x := fun e => ha (e ▸ hy)
      have h3 : y ≠ b := fun e => hb (e ▸ hy)
      simp [h2, h3, hy]; omega

theorem rankKind_group1 {r : Nat} {low : Bool} {m a : Nat} {ks : List Nat} (ha : a ∉ ks)
    (hk : ks.Nodup) (hm : m = 4 ∨ m = 3 ∨ m = 2) :
    rankKind r low (List.replicate m a ++ ks)
      = if m = 4 then .fourKind else if m = 3 then .threeKind else .pair := by
  unfold rankKind
  simp only [inGroups_group1 ha hk]
  rcases hm with rfl | rfl | rfl <;> simp

theorem rankKind_group2 {r : Nat} {low : Bool} {m n a b : Nat} {ks : List Nat} (hab : a ≠ b)
    (ha : a ∉ ks) (hb : b ∉ ks) (hk : ks.Nodup) (hm : (m = 3 ∨ m = 2) ∧ n = 2) :
    rankKind r low (List.replicate m a ++ (List.replicate n b ++ ks))
      = if m = 3 then .fullHouse else .twoPair := by
  unfold rankKind
  simp only [inGroups_group2 hab ha hb hk]
  obtain ⟨rfl | rfl, rfl⟩ := hm <;> simp

end Clubs

import Verif.Lemmas.SvgIds

/-!
# C66: the SVG picture of the table

`ps i`, `cs i` are the (rounded) positions of player `i` and of their bet.
-/

namespace Clubs

open Svg Spec

/-- **C66**: the picture can be drawn for any number of players and cards. -/
theorem C66_total (ps cs : Nat → ℤ × ℤ) (n h c : Nat) : ∃ s, svgPoker ps cs n h c = .ok s := ⟨_, svgPoker_eq ps cs n h c⟩

/-- **C66**: no id occurs twice. -/
theorem C66_unique (ps cs : Nat → ℤ × ℤ) (n h c : Nat) (s : Svg) (hs : svgPoker ps cs n h c = .ok s) : (ids s).Nodup := by
  rw [svgPoker_eq] at hs
  cases hs
  exact ids_nodup ps cs n h c

/-- **C66**: all ids that the script of the page looks up (`parse_config.js:8,32,43,48-49,53,94,98,103,109`) occur. -/
theorem C66_script (ps cs : Nat → ℤ × ℤ) (n h c : Nat) (s : Svg) (hs : svgPoker ps cs n h c = .ok s) :
    (∀ i < n, "street-commit-text-".toList ++ decimal i ∈ ids s ∧ "chips-text-".toList ++ decimal i ∈ ids s ∧
      "button-background-".toList ++ decimal i ∈ ids s ∧ "player-background-".toList ++ decimal i ∈ ids s ∧
      ∀ j < h, "card-".toList ++ decimal i ++ "-".toList ++ decimal j ∈ ids s) ∧
    "community".toList ∈ ids s ∧ "pot-text".toList ∈ ids s ∧ ∀ j < c, "card-community-".toList ++ decimal (j + 1) ∈ ids s := by
  rw [svgPoker_eq] at hs
  cases hs
  rw [ids_tree]
  have inP : ∀ i < n, ∀ k ∈ playerKeys h i, k.str ∈ (treeKeys n h c).map Key.str := by
    intro i hi k hk
    refine List.mem_map_of_mem ?_
    simp only [treeKeys, List.mem_append, List.mem_flatMap, List.mem_range]
    exact .inl (.inl (.inr ⟨i, hi, hk⟩))
  have inM : ∀ i < n, ∀ k ∈ commitKeys i, k.str ∈ (treeKeys n h c).map Key.str := by
    intro i hi k hk
    refine List.mem_map_of_mem ?_
    simp only [treeKeys, List.mem_append, List.mem_flatMap, List.mem_range]
    exact .inl (.inr ⟨i, hi, hk⟩)
  have inC : ∀ k ∈ communityKeys c, k.str ∈ (treeKeys n h c).map Key.str := by
    intro k hk
    refine List.mem_map_of_mem ?_
    simp only [treeKeys, List.mem_append]
    exact .inr hk
  refine ⟨fun i hi => ⟨inM i hi (.commitText i) (by simp [commitKeys]), inP i hi (.chipsText i) (by simp [playerKeys]),
    inM i hi (.buttonBackground i) (by simp [commitKeys]), inP i hi (.background i) (by simp [playerKeys]), ?_⟩,
    inC .community (by simp [communityKeys]), inC .potText (by simp [communityKeys]), ?_⟩
  · intro j hj
    have := inP i hi (.card i j) (by simp [playerKeys, hj])
    have e : (Key.card i j).str = "card-".toList ++ decimal i ++ "-".toList ++ decimal j := by
      simp [Key.str, Key.parts, partStr, dashed]
    rwa [e] at this
  · intro j hj
    exact inC (.communityCard (j + 1)) (by simp [communityKeys, hj])

/-! ## positions -/

theorem mem_elemsList {e : Svg} {l : List Svg} : e ∈ elemsList l ↔ ∃ c ∈ l, e ∈ elems c := by
  induction l with
  | nil => simp [elemsList]
  | cons a l ih => simp [elemsList, ih]

theorem elem_unique {l : List Svg} (h : (l.filterMap fun e => e.attrs.id).Nodup) {e f : Svg} {i : Str} (he : e ∈ l) (hf : f ∈ l)
    (h1 : e.attrs.id = some i) (h2 : f.attrs.id = some i) : e = f := by
  induction l with
  | nil => simp at he
  | cons a l ih =>
    have mem : ∀ {x : Svg}, x ∈ l → x.attrs.id = some i → i ∈ l.filterMap fun e => e.attrs.id := fun hx hi =>
      List.mem_filterMap.2 ⟨_, hx, hi⟩
    rcases List.mem_cons.1 he with rfl | he' <;> rcases List.mem_cons.1 hf with rfl | hf'
    · rfl
    · rw [List.filterMap_cons_some (f := fun e : Svg => e.attrs.id) h1, List.nodup_cons] at h
      exact absurd (mem hf' h2) h.1
    · rw [List.filterMap_cons_some (f := fun e : Svg => e.attrs.id) h2, List.nodup_cons] at h
      exact absurd (mem he' h1) h.1
    · refine ih ?_ he' hf'
      cases ha : a.attrs.id with
      | none => rwa [List.filterMap_cons_none (f := fun e : Svg => e.attrs.id) ha] at h
      | some b => rw [List.filterMap_cons_some (f := fun e : Svg => e.attrs.id) ha, List.nodup_cons] at h; exact h.2

theorem self_mem_elems (s : Svg) : s ∈ elems s := by cases s; simp [elems]

/-- **C66**: the hole cards of a player lie side by side from left to right, fill the area for the cards exactly, and that
area is inside the player's box, at least 10 away from its left and right side. -/
theorem C66_hole_cards (ps cs : Nat → ℤ × ℤ) (n h c : Nat) (s : Svg) (hs : svgPoker ps cs n h c = .ok s) (i : Nat) (hi : i < n) :
    (∀ j < h, ∀ e ∈ elems s, e.attrs.id = some ("card-".toList ++ decimal i ++ "-".toList ++ decimal j) →
      e.width = 50 ∧ e.x = 50 * j) ∧
    (∀ e ∈ elems s, e.attrs.id = some ("cards-".toList ++ decimal i) → e.width = 50 * h ∧ 10 ≤ e.x ∧
      ∀ p ∈ elems s, p.attrs.id = some (decimal i) → e.x + e.width + 10 ≤ p.width) ∧
    (∀ p ∈ elems s, p.attrs.id = some (decimal i) → p.x + p.width / 2 = (ps i).1 ∧ p.y + p.height / 2 = (ps i).2) := by
  rw [svgPoker_eq] at hs
  cases hs
  have nd := ids_nodup ps cs n h c
  have box : ∀ e ∈ elems (playerBox (ps i) h (decimal i)), e ∈ elems (pokerTree ps cs n h c) := by
    intro e he
    unfold pokerTree
    rw [elems, List.mem_cons, mem_elemsList]
    refine .inr ⟨_, ?_, he⟩
    simp only [List.mem_append, List.mem_map, List.mem_range]
    exact .inl (.inl (.inr ⟨i, hi, rfl⟩))
  have hw : max 220 (50 * (h : ℚ) + 20) = playerWidth h := rfl
  have w1 : 50 * (h : ℚ) + 20 ≤ playerWidth h := le_max_right _ _
  have pl := box _ (self_mem_elems _)
  have up : ∀ p ∈ elems (pokerTree ps cs n h c), p.attrs.id = some (decimal i) → p = playerBox (ps i) h (decimal i) :=
    fun p hp hid => elem_unique nd hp pl hid rfl
  refine ⟨?_, ?_, ?_⟩
  · intro j hj e he hid
    have hc := box (cardAt { cls := some "card", width := some 50, height := some 70 }
      { cls := some "card-background", fill := some "url(#card-back)" } { cls := some "card-text", x := some 7, y := some 25 }
      0 (decimal i) j) (by
        unfold playerBox playerAt
        simp only [elems, elemsList, List.mem_cons, List.mem_append, mem_elemsList]
        refine .inr (.inr (.inl (.inr ⟨_, List.mem_map_of_mem (List.mem_range.2 hj), self_mem_elems _⟩))))
    have := elem_unique nd he hc hid (by simp [cardAt, attrs, dashed])
    subst this
    exact ⟨rfl, by simp [cardAt, Svg.x, attrs]⟩
  · intro e he hid
    have hc := box (.node "svg"
        { cls := some "cards", x := some ((playerWidth h - h * 50) / 2), y := some 10, width := some (h * 50),
          id := some (dashed ["cards".toList, decimal i]) }
        ((List.range h).map (cardAt { cls := some "card", width := some 50, height := some 70 }
      { cls := some "card-background", fill := some "url(#card-back)" } { cls := some "card-text", x := some 7, y := some 25 }
      0 (decimal i)))) (by
        unfold playerBox playerAt
        simp [elems, elemsList])
    have := elem_unique nd he hc hid rfl
    subst this
    refine ⟨by simp only [Svg.width, attrs, Option.getD_some]; ring, ?_, ?_⟩
    · simp only [Svg.x, attrs, Option.getD_some]
      linarith
    · intro p hp hpid
      rw [up p hp hpid]
      simp only [Svg.x, Svg.width, attrs, Option.getD_some, playerBox, playerAt]
      linarith
  · intro p hp hpid
    rw [up p hp hpid]
    simp only [Svg.x, Svg.y, Svg.width, Svg.height, attrs, Option.getD_some, playerBox, playerAt]
    constructor <;> ring

/-- a picture for six players with two cards each and five community cards -/
example : ∃ s, svgPoker (fun _ => (0, 0)) (fun _ => (0, 0)) 6 2 5 = .ok s ∧ "card-3-1".toList ∈ ids s := by
  obtain ⟨s, hs⟩ := C66_total (fun _ => (0, 0)) (fun _ => (0, 0)) 6 2 5
  exact ⟨s, hs, ((C66_script _ _ _ _ _ s hs).1 3 (by decide)).2.2.2.2 1 (by decide)⟩

end Clubs

import Verif.Lemmas.Svg
import Mathlib.Data.List.Nodup

/-!
# The ids of the SVG tree
-/

namespace Clubs

open Svg Spec

/-- an id, taken apart -/
inductive Key where
  | poker | dealer | back | blank | club | spade | diamond | heart
  | seat (i : Nat) | background (i : Nat) | cards (i : Nat)
  | card (i j : Nat) | cardBackground (i j : Nat) | cardText (i j : Nat)
  | chips (i : Nat) | chipsBackground (i : Nat) | chipsText (i : Nat)
  | commit (i : Nat) | commitBackground (i : Nat) | commitText (i : Nat) | button (i : Nat) | buttonBackground (i : Nat)
  | community | communityCards
  | communityCard (j : Nat) | communityCardBackground (j : Nat) | communityCardText (j : Nat)
  | pot | potBackground | potText
deriving DecidableEq

/-- the parts between the dashes: words and numbers -/
def Key.parts : Key → List (String ⊕ Nat)
  | poker => [.inl "poker"]
  | dealer => [.inl "dealer"]
  | back => [.inl "card", .inl "back"]
  | blank => [.inl "card", .inl "blank"]
  | club => [.inl "card", .inl "club"]
  | spade => [.inl "card", .inl "spade"]
  | diamond => [.inl "card", .inl "diamond"]
  | heart => [.inl "card", .inl "heart"]
  | seat i => [.inr i]
  | background i => [.inl "player", .inl "background", .inr i]
  | cards i => [.inl "cards", .inr i]
  | card i j => [.inl "card", .inr i, .inr j]
  | cardBackground i j => [.inl "card", .inl "background", .inr i, .inr j]
  | cardText i j => [.inl "card", .inl "text", .inr i, .inr j]
  | chips i => [.inl "chips", .inr i]
  | chipsBackground i => [.inl "chips", .inl "background", .inr i]
  | chipsText i => [.inl "chips", .inl "text", .inr i]
  | commit i => [.inl "street", .inl "commit", .inr i]
  | commitBackground i => [.inl "street", .inl "commit", .inl "background", .inr i]
  | commitText i => [.inl "street", .inl "commit", .inl "text", .inr i]
  | button i => [.inl "button", .inr i]
  | buttonBackground i => [.inl "button", .inl "background", .inr i]
  | community => [.inl "community"]
  | communityCards => [.inl "cards", .inl "community"]
  | communityCard j => [.inl "card", .inl "community", .inr j]
  | communityCardBackground j => [.inl "card", .inl "background", .inl "community", .inr j]
  | communityCardText j => [.inl "card", .inl "text", .inl "community", .inr j]
  | pot => [.inl "pot"]
  | potBackground => [.inl "pot", .inl "background"]
  | potText => [.inl "pot", .inl "text"]

def partStr : String ⊕ Nat → Str
  | .inl w => w.toList
  | .inr n => decimal n

def Key.str (k : Key) : Str := dashed (k.parts.map partStr)

theorem decimal_inj {m n : Nat} (h : decimal m = decimal n) : m = n := by
  have e : ∀ n, Nat.ofDigitChars 10 (decimal n) 0 = n := fun n => Nat.ofDigitChars_ten_toDigits
  rw [← e m, ← e n, h]

theorem dash_split {p q r s : Str} (hp : '-' ∉ p) (hq : '-' ∉ q) (h : p ++ '-' :: r = q ++ '-' :: s) : p = q ∧ r = s := by
  induction p generalizing q with
  | nil => cases q with
    | nil => simpa using h
    | cons b q => simp at h; simp [← h.1] at hq
  | cons a p ih => cases q with
    | nil => simp at h; simp [h.1] at hp
    | cons b q =>
      simp only [List.cons_append, List.cons.injEq, List.mem_cons, not_or] at h hp hq
      obtain ⟨rfl, e⟩ := ih hp.2 hq.2 h.2
      exact ⟨by rw [h.1], e⟩

theorem dashed_inj : ∀ {l m : List Str}, (∀ p ∈ l, '-' ∉ p) → (∀ p ∈ m, '-' ∉ p) → l ≠ [] → m ≠ [] → dashed l = dashed m →
    l = m
  | [], _, _, _, h, _, _ => absurd rfl h
  | _, [], _, _, _, h, _ => absurd rfl h
  | [p], [q], _, _, _, _, h => by simpa [dashed] using h
  | [p], q :: q' :: m, hl, _, _, _, h => by
    have := hl p (by simp)
    simp only [dashed] at h
    rw [h] at this
    simp at this
  | p :: p' :: l, [q], _, hm, _, _, h => by
    have := hm q (by simp)
    simp only [dashed] at h
    rw [← h] at this
    simp at this
  | p :: p' :: l, q :: q' :: m, hl, hm, _, _, h => by
    simp only [dashed] at h
    obtain ⟨e1, e2⟩ := dash_split (hl p (by simp)) (hm q (by simp)) h
    rw [e1, dashed_inj (l := p' :: l) (m := q' :: m) (fun x hx => hl x (by simp [hx])) (fun x hx => hm x (by simp [hx]))
      (by simp) (by simp) e2]

/-- the words in ids: lower-case letters only -/
def PlainPart : String ⊕ Nat → Bool
  | .inl w => w.toList.all (fun c => c.isLower) && !w.toList.isEmpty
  | .inr _ => true

theorem Key.plain (k : Key) : ∀ p ∈ k.parts, PlainPart p = true := by
  cases k <;> simp only [Key.parts, List.mem_cons, List.not_mem_nil, or_false, forall_eq_or_imp, forall_eq] <;>
    (repeat' apply And.intro) <;> rfl

theorem part_nodash {p : String ⊕ Nat} (h : PlainPart p = true) : '-' ∉ partStr p := by
  intro hm
  cases p with
  | inl w =>
    simp only [PlainPart, Bool.and_eq_true, List.all_eq_true] at h
    exact absurd (h.1 _ hm) (by decide)
  | inr n => exact absurd (decimal_digit hm) (by decide)

theorem lower_not_digit {c : Char} (h1 : c.isLower = true) (h2 : c.isDigit = true) : False := by
  simp only [Char.isLower, Char.isDigit, Bool.and_eq_true, decide_eq_true_eq] at h1 h2
  have a := UInt32.le_iff_toNat_le.1 h1.1
  have b := UInt32.le_iff_toNat_le.1 h2.2
  have e1 : (UInt32.toNat 97) = 97 := rfl
  have e2 : (UInt32.toNat 57) = 57 := rfl
  simp at a b
  omega

theorem part_inj {p q : String ⊕ Nat} (hp : PlainPart p = true) (hq : PlainPart q = true) (h : partStr p = partStr q) : p = q := by
  have mix : ∀ (w : String) (n : Nat), PlainPart (.inl w) = true → w.toList ≠ decimal n := by
    intro w n hw e
    simp only [PlainPart, Bool.and_eq_true, List.all_eq_true] at hw
    cases hd : decimal n with
    | nil => exact Nat.toDigits_ne_nil hd
    | cons c l =>
      exact lower_not_digit (hw.1 c (by rw [e, hd]; simp)) (decimal_digit (n := n) (by rw [hd]; simp))
  cases p with
  | inl w => cases q with
    | inl v => rw [String.toList_injective h]
    | inr n => exact absurd h (mix w n hp)
  | inr m => cases q with
    | inl v => exact absurd h.symm (mix v m hq)
    | inr n => rw [decimal_inj h]

theorem parts_inj {l m : List (String ⊕ Nat)} (hl : ∀ p ∈ l, PlainPart p = true) (hm : ∀ p ∈ m, PlainPart p = true)
    (h : l.map partStr = m.map partStr) : l = m := by
  induction l generalizing m with
  | nil => cases m <;> simp at h ⊢
  | cons p l ih => cases m with
    | nil => simp at h
    | cons q m =>
      simp only [List.map_cons, List.cons.injEq] at h
      rw [part_inj (hl p (by simp)) (hm q (by simp)) h.1,
        ih (fun x hx => hl x (by simp [hx])) (fun x hx => hm x (by simp [hx])) h.2]

theorem Key.parts_injective {k l : Key} (h : k.parts = l.parts) : k = l := by
  cases k <;> cases l <;> simp_all [Key.parts]

theorem Key.str_injective : Function.Injective Key.str := by
  intro k l h
  have nn : ∀ k : Key, k.parts ≠ [] := by intro k; cases k <;> simp [Key.parts]
  have nd : ∀ k : Key, ∀ p ∈ k.parts.map partStr, '-' ∉ p := by
    intro k p hp
    obtain ⟨q, hq, rfl⟩ := List.mem_map.1 hp
    exact part_nodash (k.plain q hq)
  exact Key.parts_injective (parts_inj k.plain l.plain
    (dashed_inj (nd k) (nd l) (by simpa using nn k) (by simpa using nn l) h))

/-! ## the ids in document order -/

def playerKeys (h i : Nat) : List Key :=
  [.seat i, .background i, .cards i] ++ (List.range h).flatMap (fun j => [.card i j, .cardBackground i j, .cardText i j]) ++
    [.chips i, .chipsBackground i, .chipsText i]

def commitKeys (i : Nat) : List Key := [.commit i, .commitBackground i, .commitText i, .button i, .buttonBackground i]

def communityKeys (c : Nat) : List Key :=
  [.community, .communityCards] ++
    (List.range (c + 1)).flatMap (fun j => [.communityCard j, .communityCardBackground j, .communityCardText j]) ++
    [.pot, .potBackground, .potText]

def treeKeys (n h c : Nat) : List Key :=
  [.poker, .dealer, .back, .blank, .club, .spade, .diamond, .heart] ++ (List.range n).flatMap (playerKeys h) ++
    (List.range n).flatMap commitKeys ++ communityKeys c

theorem elemsList_append (l m : List Svg) : elemsList (l ++ m) = elemsList l ++ elemsList m := by
  induction l with
  | nil => rfl
  | cons a l ih => simp [elemsList, ih]

/-- ids of a list of trees -/
def idsList (l : List Svg) : List Str := (elemsList l).filterMap fun e => e.attrs.id

theorem idsList_append (l m : List Svg) : idsList (l ++ m) = idsList l ++ idsList m := by
  simp [idsList, elemsList_append]

theorem idsList_map {α : Type} (f : α → Svg) (g : α → List Key) (l : List α) (h : ∀ a ∈ l, ids (f a) = (g a).map Key.str) :
    idsList (l.map f) = (l.flatMap g).map Key.str := by
  induction l with
  | nil => rfl
  | cons a l ih =>
    have := h a (by simp)
    unfold ids at this
    simp only [List.map_cons, List.flatMap_cons, List.map_append, ← this, ← ih fun b hb => h b (by simp [hb])]
    simp [idsList, elemsList]

theorem idsList_cons (a : Svg) (l : List Svg) : idsList (a :: l) = ids a ++ idsList l := by
  simp [idsList, ids, elemsList]

theorem ids_node (t : String) (a : Attrs) (k : List Svg) : ids (.node t a k) = a.id.toList ++ idsList k := by
  unfold ids idsList
  cases h : a.id <;> simp [elems, attrs, h]

theorem idsList_nil : idsList [] = [] := rfl

theorem ids_playerBox (seat : ℤ × ℤ) (h i : Nat) : ids (playerBox seat h (decimal i)) = (playerKeys h i).map Key.str := by
  unfold playerBox playerAt
  simp only [ids_node, idsList_cons, idsList_nil, Option.toList_some]
  rw [idsList_map _ (fun j => [.card i j, .cardBackground i j, .cardText i j])]
  · simp only [playerKeys, List.map_append, List.map_cons, List.map_nil, Key.str, Key.parts, partStr, List.cons_append,
      List.nil_append, List.append_nil, dashed]
  · intro j _
    simp only [cardAt, ids_node, idsList_cons, idsList_nil, Option.toList_some]
    rfl

theorem ids_commitBox (seat : ℤ × ℤ) (i : Nat) : ids (commitBox seat (decimal i)) = (commitKeys i).map Key.str := by
  unfold commitBox
  simp only [ids_node, idsList_cons, idsList_nil, Option.toList_some]
  rfl

theorem ids_communityBox (x y : Option ℚ) (c : Nat) : ids (communityBox x y c) = (communityKeys c).map Key.str := by
  unfold communityBox
  simp only [ids_node, idsList_cons, idsList_nil, Option.toList_some]
  rw [idsList_map _ (fun j => [.communityCard j, .communityCardBackground j, .communityCardText j])]
  · simp only [communityKeys, List.range_succ_eq_map, List.flatMap_cons, List.map_append, List.map_cons, List.map_nil, cardAt,
      ids_node, idsList_cons, idsList_nil, Option.toList_some, Key.str, Key.parts, partStr, List.cons_append,
      List.nil_append, List.append_nil, dashed]
  · intro j _
    simp only [cardAt, ids_node, idsList_cons, idsList_nil, Option.toList_some]
    rfl

theorem ids_tree (ps cs : Nat → ℤ × ℤ) (n h c : Nat) : ids (pokerTree ps cs n h c) = (treeKeys n h c).map Key.str := by
  unfold pokerTree
  rw [ids_node, idsList_append, idsList_append, idsList_append, idsList_append, idsList_map _ (playerKeys h),
    idsList_map _ commitKeys, idsList_cons, idsList_cons, idsList_nil, ids_communityBox]
  · have : (some "poker".toList : Option Str).toList ++ idsList patternSvgs =
        [Key.poker, .dealer, .back, .blank, .club, .spade, .diamond, .heart].map Key.str := by decide +kernel
    simp only [treeKeys, List.map_append, ← this, ids_node, idsList_nil, Option.toList_none, List.append_nil,
      List.append_assoc]
  · intro i _; exact ids_commitBox _ _
  · intro i _; exact ids_playerBox _ _ _

/-- which part of the picture an id belongs to, and which player -/
def Key.group : Key → Nat × Nat
  | poker | dealer | back | blank | club | spade | diamond | heart => (0, 0)
  | seat i | background i | cards i | card i _ | cardBackground i _ | cardText i _ | chips i | chipsBackground i
  | chipsText i => (1, i)
  | commit i | commitBackground i | commitText i | button i | buttonBackground i => (2, i)
  | community | communityCards | communityCard _ | communityCardBackground _ | communityCardText _ | pot | potBackground
  | potText => (3, 0)

theorem treeKeys_nodup (n h c : Nat) : (treeKeys n h c).Nodup := by
  have fm : ∀ (l : List Nat) (f : Nat → List Key), l.Nodup → (∀ i, (f i).Nodup) →
      (∀ i j k, k ∈ f i → k ∈ f j → i = j) → (l.flatMap f).Nodup := by
    intro l f hl h1 h2
    rw [List.nodup_flatMap]
    refine ⟨fun i _ => h1 i, hl.imp ?_⟩
    intro i j hij k hk1 hk2
    exact hij (h2 i j k hk1 hk2)
  have pk : ∀ i, (playerKeys h i).Nodup := by
    intro i
    unfold playerKeys
    have := fm (List.range h) (fun j => [Key.card i j, .cardBackground i j, .cardText i j]) List.nodup_range
      (by intro j; simp) (by intro j j' k; simp only [List.mem_cons, List.not_mem_nil, or_false]; rintro (rfl | rfl | rfl) <;> simp)
    rw [List.nodup_append, List.nodup_append]
    refine ⟨⟨by simp, this, ?_⟩, by simp, ?_⟩
    · intro a ha b hb
      simp only [List.mem_cons, List.not_mem_nil, or_false, List.mem_flatMap] at ha hb
      obtain ⟨j, -, hb⟩ := hb
      rcases ha with rfl | rfl | rfl <;> rcases hb with rfl | rfl | rfl <;> simp
    · intro a ha b hb
      simp only [List.mem_append, List.mem_cons, List.not_mem_nil, or_false, List.mem_flatMap] at ha hb
      rcases ha with (rfl | rfl | rfl) | ⟨j, -, rfl | rfl | rfl⟩ <;> rcases hb with rfl | rfl | rfl <;> simp
  have mp : ∀ i k, k ∈ playerKeys h i → k.group = (1, i) := by
    intro i k hk
    simp only [playerKeys, List.mem_append, List.mem_cons, List.not_mem_nil, or_false, List.mem_flatMap] at hk
    rcases hk with ((rfl | rfl | rfl) | ⟨j, -, rfl | rfl | rfl⟩) | rfl | rfl | rfl <;> rfl
  have mm : ∀ i k, k ∈ commitKeys i → k.group = (2, i) := by
    intro i k hk
    simp only [commitKeys, List.mem_cons, List.not_mem_nil, or_false] at hk
    rcases hk with rfl | rfl | rfl | rfl | rfl <;> rfl
  have mc : ∀ k, k ∈ communityKeys c → k.group = (3, 0) := by
    intro k hk
    simp only [communityKeys, List.mem_append, List.mem_cons, List.not_mem_nil, or_false, List.mem_flatMap] at hk
    rcases hk with ((rfl | rfl) | ⟨j, -, rfl | rfl | rfl⟩) | rfl | rfl | rfl <;> rfl
  have ck : (communityKeys c).Nodup := by
    unfold communityKeys
    have := fm (List.range (c + 1)) (fun j => [Key.communityCard j, .communityCardBackground j, .communityCardText j])
      List.nodup_range (by intro j; simp)
      (by intro j j' k; simp only [List.mem_cons, List.not_mem_nil, or_false]; rintro (rfl | rfl | rfl) <;> simp)
    rw [List.nodup_append, List.nodup_append]
    refine ⟨⟨by simp, this, ?_⟩, by simp, ?_⟩
    · intro a ha b hb
      simp only [List.mem_cons, List.not_mem_nil, or_false, List.mem_flatMap] at ha hb
      obtain ⟨j, -, hb⟩ := hb
      rcases ha with rfl | rfl <;> rcases hb with rfl | rfl | rfl <;> simp
    · intro a ha b hb
      simp only [List.mem_append, List.mem_cons, List.not_mem_nil, or_false, List.mem_flatMap] at ha hb
      rcases ha with (rfl | rfl) | ⟨j, -, rfl | rfl | rfl⟩ <;> rcases hb with rfl | rfl | rfl <;> simp
  have mf : ∀ k ∈ [Key.poker, .dealer, .back, .blank, .club, .spade, .diamond, .heart], k.group = (0, 0) := by decide
  have mpl : ∀ k, k ∈ (List.range n).flatMap (playerKeys h) → k.group.1 = 1 := by
    intro k hk
    obtain ⟨i, -, hk⟩ := List.mem_flatMap.1 hk
    rw [mp i k hk]
  have mml : ∀ k, k ∈ (List.range n).flatMap commitKeys → k.group.1 = 2 := by
    intro k hk
    obtain ⟨i, -, hk⟩ := List.mem_flatMap.1 hk
    rw [mm i k hk]
  unfold treeKeys
  rw [List.nodup_append, List.nodup_append, List.nodup_append]
  refine ⟨⟨⟨by decide, fm _ _ List.nodup_range pk ?_, ?_⟩, fm _ _ List.nodup_range (by intro i; simp [commitKeys]) ?_, ?_⟩, ck, ?_⟩
  · intro i j k h1 h2
    exact (Prod.ext_iff.1 ((mp i k h1).symm.trans (mp j k h2))).2
  · rintro a ha b hb rfl
    have := mpl _ hb
    rw [mf a ha] at this
    simp at this
  · intro i j k h1 h2
    exact (Prod.ext_iff.1 ((mm i k h1).symm.trans (mm j k h2))).2
  · rintro a ha b hb rfl
    have h2 := mml _ hb
    rcases List.mem_append.1 ha with ha | ha
    · rw [mf a ha] at h2; simp at h2
    · rw [mpl a ha] at h2; simp at h2
  · rintro a ha b hb rfl
    have h3 := mc _ hb
    rcases List.mem_append.1 ha with ha | ha
    · rcases List.mem_append.1 ha with ha | ha
      · rw [mf a ha] at h3; simp at h3
      · have := mpl a ha; rw [h3] at this; simp at this
    · have := mml a ha; rw [h3] at this; simp at this

theorem ids_nodup (ps cs : Nat → ℤ × ℤ) (n h c : Nat) : (ids (pokerTree ps cs n h c)).Nodup := by
  rw [ids_tree]
  exact (treeKeys_nodup n h c).map Key.str_injective

end Clubs

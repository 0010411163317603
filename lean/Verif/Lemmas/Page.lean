import Verif.Model.Page
import Verif.Lemmas.SvgIds

/-!
# What the script of the page does, as a list of changes
-/

namespace Clubs

open Svg Spec

/-- a change of the looks of the element with this id -/
abbrev Write := Key × (Looks → Looks)

def applyW (ws : List Write) (p : Page) : Page := ws.foldl (fun p w j => if j = w.1.str then w.2 (p j) else p j) p

/-- the effect on a single element -/
def eff (ws : List Write) (k : Key) (l : Looks) : Looks := ws.foldl (fun l w => if w.1 = k then w.2 l else l) l

theorem applyW_key (ws : List Write) (p : Page) (k : Key) : applyW ws p k.str = eff ws k (p k.str) := by
  unfold applyW eff
  induction ws generalizing p with
  | nil => rfl
  | cons w ws ih =>
    rw [List.foldl_cons, List.foldl_cons, ih]
    by_cases h : w.1 = k
    · simp [h]
    · have : ¬ k.str = w.1.str := fun e => h (Key.str_injective e).symm
      simp [h, this]

theorem applyW_other (ws : List Write) (p : Page) (s : Str) (h : ∀ w ∈ ws, w.1.str ≠ s) : applyW ws p s = p s := by
  unfold applyW
  induction ws generalizing p with
  | nil => rfl
  | cons w ws ih =>
    rw [List.foldl_cons, ih _ fun x hx => h x (by simp [hx])]
    simp [Ne.symm (h w (by simp))]

theorem eff_append (ws vs : List Write) (k : Key) (l : Looks) : eff (ws ++ vs) k l = eff vs k (eff ws k l) := by
  simp [eff]

theorem eff_skip {ws : List Write} {k : Key} (h : ∀ w ∈ ws, w.1 ≠ k) (l : Looks) : eff ws k l = l := by
  unfold eff
  induction ws with
  | nil => rfl
  | cons w ws ih => simp [h w (by simp), ih fun x hx => h x (by simp [hx])]

/-- of a loop only the round for this element counts -/
theorem eff_flatMap {α : Type} {as : List α} (g : α → List Write) {k : Key} {a : α} (hn : as.Nodup)
    (ha : a ∈ as) (h : ∀ b, b ≠ a → ∀ w ∈ g b, w.1 ≠ k) (l : Looks) : eff (as.flatMap g) k l = eff (g a) k l := by
  induction as with
  | nil => simp at ha
  | cons b as ih =>
    rw [List.flatMap_cons, eff_append]
    rw [List.nodup_cons] at hn
    by_cases hb : b = a
    · subst hb
      refine eff_skip (fun w hw => ?_) _
      obtain ⟨c, hc, hw⟩ := List.mem_flatMap.1 hw
      exact h c (fun e => hn.1 (e ▸ hc)) w hw
    · rw [eff_skip (h b hb)]
      exact ih hn.2 ((List.mem_cons.1 ha).resolve_left (Ne.symm hb))

/-! ## running a script -/

/-- the script ends without exception and makes these changes -/
def Does (m : Js Unit) (ws : List Write) : Prop := ∀ p, m p = .ok () (applyW ws p)

theorem Does.pure : Does (pure ()) [] := fun _ => rfl

theorem Does.bind {m m' : Js Unit} {ws ws' : List Write} (h : Does m ws) (h' : Does m' ws') :
    Does (m >>= fun _ => m') (ws ++ ws') := by
  intro p
  show EStateM.bind m (fun _ => m') p = _
  unfold EStateM.bind
  rw [h p]
  simp only [h' _, applyW, List.foldl_append]

theorem Does.ite {q : Prop} [Decidable q] {m m' : Js Unit} {ws ws' : List Write} (h : q → Does m ws) (h' : ¬ q → Does m' ws') :
    Does (if q then m else m') (if q then ws else ws') := by
  split
  · exact h ‹_›
  · exact h' ‹_›

theorem Does.forM {α : Type} {l : List α} {f : α → Js Unit} {g : α → List Write} (h : ∀ a ∈ l, Does (f a) (g a)) :
    Does (l.forM f) (l.flatMap g) := by
  induction l with
  | nil => exact Does.pure
  | cons a l ih => exact (h a (by simp)).bind (ih fun b hb => h b (by simp [hb]))

theorem Does.change {e : Svg} {k : Key} (f : Looks → Looks) (h : e.attrs.id = some k.str) : Does (change f e) [(k, f)] := by
  intro p
  unfold Clubs.change
  rw [h]
  rfl

theorem Does.nonNull {o : Option Svg} {e : Svg} {m : Svg → Js Unit} {ws : List Write} (h : o = some e) (hm : Does (m e) ws) :
    Does (nonNull o >>= m) ws := by
  subst h
  exact hm

def wFill (v : String) (k : Key) : Write := (k, fun l => { l with fill := some v })
def wStroke (v : String) (k : Key) : Write := (k, fun l => { l with stroke := some v })
def wText (t : Str) (k : Key) : Write := (k, fun l => { l with text := t })

theorem Does.fill {e : Svg} {k : Key} (v : String) (h : e.attrs.id = some k.str) : Does (setFill v e) [wFill v k] := Does.change _ h
theorem Does.stroke {e : Svg} {k : Key} (v : String) (h : e.attrs.id = some k.str) : Does (setStroke v e) [wStroke v k] :=
  Does.change _ h
theorem Does.text {e : Svg} {k : Key} (t : Str) (h : e.attrs.id = some k.str) : Does (setText t e) [wText t k] := Does.change _ h

/-- the same change of several elements -/
theorem Does.each {α : Type} {as : List α} {l : List Svg} {key : α → Key} (m : Svg → Js Unit) (w : Key → Write)
    (hm : ∀ e k, e.attrs.id = some k.str → Does (m e) [w k]) (h : l.map (fun e => e.attrs.id) = as.map fun a => some (key a).str) :
    Does (l.forM m) (as.map fun a => w (key a)) := by
  induction l generalizing as with
  | nil =>
    cases as with
    | nil => exact Does.pure
    | cons a as => simp at h
  | cons e l ih =>
    cases as with
    | nil => simp at h
    | cons a as =>
      simp only [List.map_cons, List.cons.injEq] at h
      exact (hm e _ h.1).bind (ih h.2)

/-! ## looking up elements -/

theorem elems_desc : (∀ s : Svg, elems s = s :: s.desc) := by
  have key : ∀ k, elemsList k = descList k → ∀ t a, elems (.node t a k) = .node t a k :: (Svg.node t a k).desc := by
    intro k h t a; simp [elems, desc, h]
  intro s
  induction s using Svg.rec (motive_2 := fun l => elemsList l = descList l) with
  | node t a k ih => exact key k ih t a
  | nil => rfl
  | cons c cs ih1 ih2 => simp [elemsList, descList, ih1, ih2]

theorem elemsList_desc (l : List Svg) : elemsList l = descList l := by
  induction l with
  | nil => rfl
  | cons c cs ih => simp [elemsList, descList, elems_desc, ih]

theorem descList_append (l m : List Svg) : descList (l ++ m) = descList l ++ descList m := by
  rw [← elemsList_desc, elemsList_append, elemsList_desc, elemsList_desc]

theorem find_id {l : List Svg} (h : (l.filterMap fun e => e.attrs.id).Nodup) {e : Svg} {i : Str} (he : e ∈ l)
    (hi : e.attrs.id = some i) : l.find? (hasId i) = some e := by
  induction l with
  | nil => simp at he
  | cons a l ih =>
    by_cases ha : a.attrs.id = some i
    · rw [List.find?_cons_of_pos (by simp [hasId, ha])]
      rcases List.mem_cons.1 he with rfl | he
      · rfl
      · rw [List.filterMap_cons_some (f := fun e : Svg => e.attrs.id) ha, List.nodup_cons] at h
        exact absurd (List.mem_filterMap.2 ⟨e, he, hi⟩) h.1
    · rw [List.find?_cons_of_neg (by simp [hasId, ha])]
      rcases List.mem_cons.1 he with rfl | he
      · exact absurd hi ha
      · refine ih ?_ he
        cases hb : a.attrs.id with
        | none => rwa [List.filterMap_cons_none (f := fun e : Svg => e.attrs.id) hb] at h
        | some b => rw [List.filterMap_cons_some (f := fun e : Svg => e.attrs.id) hb, List.nodup_cons] at h; exact h.2

theorem Key.str_ne_container (k : Key) : k.str ≠ "table-container".toList := by
  intro h
  have e : "table-container".toList = dashed ([.inl "table", .inl "container"].map partStr) := by decide
  have nd : ∀ p ∈ k.parts.map partStr, '-' ∉ p := by
    intro p hp
    obtain ⟨q, hq, rfl⟩ := List.mem_map.1 hp
    exact part_nodash (k.plain q hq)
  have := parts_inj k.plain (by decide) (dashed_inj nd (by decide)
    (by cases k <;> simp [Key.parts]) (by decide) (h.trans e))
  cases k <;> simp [Key.parts] at this

variable {ps cs : Nat → ℤ × ℤ} {n h c : Nat}

theorem byId_doc {k : Key} {e : Svg} (he : e ∈ elems (pokerTree ps cs n h c)) (hk : e.attrs.id = some k.str) :
    (document (pokerTree ps cs n h c)).byId k.str = some e := by
  have nd := ids_nodup ps cs n h c
  have f := find_id nd he hk
  have h1 : ¬ ("table-container".toList = k.str) := fun e => k.str_ne_container e.symm
  unfold byId document
  simp only [desc, descList, List.append_nil]
  rw [List.find?_cons_of_neg (by simp [hasId, attrs]), List.find?_cons_of_neg (by
    simp only [hasId, attrs, beq_iff_eq, Option.some.injEq]; exact h1), ← elems_desc]
  exact f

theorem byId_sub {s : Svg} (hs : (ids s).Nodup) {k : Key} {e : Svg} (he : e ∈ s.desc) (hk : e.attrs.id = some k.str) :
    s.byId k.str = some e := by
  refine find_id ?_ he hk
  unfold ids at hs
  rw [elems_desc] at hs
  exact hs.sublist ((List.sublist_cons_self _ _).filterMap _)

theorem playerBox_nodup (seat : ℤ × ℤ) (h i : Nat) : (ids (playerBox seat h (decimal i))).Nodup := by
  rw [ids_playerBox]
  have : (playerKeys h i).Sublist (treeKeys (i + 1) h 0) := by
    unfold treeKeys
    rw [List.range_succ, List.flatMap_append]
    simp only [List.flatMap_cons, List.flatMap_nil, List.append_nil, List.append_assoc]
    refine (List.Sublist.trans ?_ (List.sublist_append_right _ _))
    refine (List.Sublist.trans ?_ (List.sublist_append_right _ _))
    exact List.sublist_append_left _ _
  exact ((treeKeys_nodup _ _ _).sublist this).map Key.str_injective

theorem communityBox_nodup (x y : Option ℚ) (c : Nat) : (ids (communityBox x y c)).Nodup := by
  rw [ids_communityBox]
  have : (communityKeys c).Sublist (treeKeys 0 0 c) := List.sublist_append_right _ _
  exact ((treeKeys_nodup _ _ _).sublist this).map Key.str_injective

/-! ### classes -/

theorem filter_desc_map {α : Type} (q : Svg → Bool) (f : α → Svg) (l : List α) :
    (descList (l.map f)).filter q = l.flatMap fun a => (f a :: (f a).desc).filter q := by
  induction l with
  | nil => rfl
  | cons a l ih => simp only [List.map_cons, descList, List.flatMap_cons, ← ih, ← List.filter_append, List.cons_append]

theorem cards_class {α : Type} (ka kb kt : α → Attrs) (left : α → ℚ) (label : Str) (num : α → Nat)
    (h1 : ∀ a, (ka a).cls = some "card") (h2 : ∀ a, (kb a).cls = some "card-background")
    (h3 : ∀ a, (kt a).cls = some "card-text") (l : List α) :
    ((descList (l.map fun a => cardAt (ka a) (kb a) (kt a) (left a) label (num a))).filter (hasClass "card-background")).map
        (fun e => e.attrs.id) = l.map (fun a => some (dashed ["card".toList, "background".toList, label, decimal (num a)])) ∧
    ((descList (l.map fun a => cardAt (ka a) (kb a) (kt a) (left a) label (num a))).filter (hasClass "card-text")).map
        (fun e => e.attrs.id) = l.map (fun a => some (dashed ["card".toList, "text".toList, label, decimal (num a)])) := by
  constructor <;>
  · rw [filter_desc_map]
    induction l with
    | nil => rfl
    | cons a l ih =>
      simp only [List.flatMap_cons, List.map_append, ih, List.map_cons]
      simp [cardAt, desc, descList, hasClass, attrs, h1, h2, h3]


/-- the attributes of a card, of its background and of its text -/
abbrev kaA : Attrs := { cls := some "card", width := some 50, height := some 70 }
abbrev kbA (fill : String) : Attrs := { cls := some "card-background", fill := some fill }
abbrev tableA : Attrs := { cls := some "table", x := some 50, y := some 225, width := some 900, height := some 550 }
abbrev ktA : Attrs := { cls := some "card-text", x := some 7, y := some 25 }

theorem player_backgrounds (seat : ℤ × ℤ) (h i : Nat) :
    ((playerBox seat h (decimal i)).byClass "card-background").map (fun e => e.attrs.id) =
      (List.range h).map fun j => some (Key.cardBackground i j).str := by
  have := (cards_class (fun _ => kaA) (fun _ => kbA "url(#card-back)") (fun _ => ktA) (fun _ => 0) (decimal i) id
    (fun _ => rfl) (fun _ => rfl) (fun _ => rfl) (List.range h)).1
  unfold playerBox playerAt byClass
  simp only [desc, descList, List.nil_append, List.append_nil, List.filter_cons, List.filter_append, List.filter_nil, hasClass, attrs,
    beq_iff_eq, Option.some.injEq, String.reduceEq, if_false]
  exact this

theorem player_texts (seat : ℤ × ℤ) (h i : Nat) :
    ((playerBox seat h (decimal i)).byClass "card-text").map (fun e => e.attrs.id) =
      (List.range h).map fun j => some (Key.cardText i j).str := by
  have := (cards_class (fun _ => kaA) (fun _ => kbA "url(#card-back)") (fun _ => ktA) (fun _ => 0) (decimal i) id
    (fun _ => rfl) (fun _ => rfl) (fun _ => rfl) (List.range h)).2
  unfold playerBox playerAt byClass
  simp only [desc, descList, List.nil_append, List.append_nil, List.filter_cons, List.filter_append, List.filter_nil, hasClass, attrs,
    beq_iff_eq, Option.some.injEq, String.reduceEq, if_false]
  exact this

theorem community_backgrounds (x y : Option ℚ) (c : Nat) :
    ((communityBox x y c).byClass "card-background").map (fun e => e.attrs.id) =
      some (Key.communityCardBackground 0).str :: (List.range c).map fun j => some (Key.communityCardBackground (j + 1)).str := by
  have := (cards_class (fun _ => kaA) (fun _ => kbA "url(#card-blank)") (fun _ => ktA) (fun _ => 10) "community".toList Nat.succ
    (fun _ => rfl) (fun _ => rfl) (fun _ => rfl) (List.range c)).1
  unfold communityBox byClass
  simp only [desc, descList, List.nil_append, List.append_nil, List.filter_cons, List.filter_append, List.filter_nil, hasClass, attrs,
    beq_iff_eq, Option.some.injEq, String.reduceEq, if_false, if_true, cardAt, List.map_cons, List.cons_append]
  rw [List.map_map]
  exact congrArg _ this

theorem community_texts (x y : Option ℚ) (c : Nat) :
    ((communityBox x y c).byClass "card-text").map (fun e => e.attrs.id) =
      some (Key.communityCardText 0).str :: (List.range c).map fun j => some (Key.communityCardText (j + 1)).str := by
  have := (cards_class (fun _ => kaA) (fun _ => kbA "url(#card-blank)") (fun _ => ktA) (fun _ => 10) "community".toList Nat.succ
    (fun _ => rfl) (fun _ => rfl) (fun _ => rfl) (List.range c)).2
  unfold communityBox byClass
  simp only [desc, descList, List.nil_append, List.append_nil, List.filter_cons, List.filter_append, List.filter_nil, hasClass, attrs,
    beq_iff_eq, Option.some.injEq, String.reduceEq, if_false, if_true, cardAt, List.map_cons, List.cons_append]
  rw [List.map_map]
  exact congrArg _ this

theorem cards_none (name : String) (ka kb kt : Attrs) (left : ℚ) (label : Str) (l : List Nat)
    (h1 : ka.cls ≠ some name) (h2 : kb.cls ≠ some name) (h3 : kt.cls ≠ some name) :
    (descList (l.map (cardAt ka kb kt left label))).filter (hasClass name) = [] := by
  rw [filter_desc_map]
  induction l with
  | nil => rfl
  | cons a l ih => simp [cardAt, desc, descList, hasClass, attrs, h1, h2, h3]

theorem doc_class (name : String) (h0 : (descList patternSvgs).filter (hasClass name) = []) (h1 : name ≠ "table")
    (h2 : ∀ x y, (communityBox x y c :: (communityBox x y c).desc).filter (hasClass name) = []) :
    (document (pokerTree ps cs n h c)).byClass name =
      ((List.range n).flatMap fun i => (playerBox (ps i) h (decimal i) :: (playerBox (ps i) h (decimal i)).desc).filter (hasClass name)) ++
      ((List.range n).flatMap fun i => (commitBox (cs i) (decimal i) :: (commitBox (cs i) (decimal i)).desc).filter (hasClass name)) := by
  have h2' := h2 (some ((900 - communityWidth c) / 2 + 50)) (some (795 / 2))
  have e0 : (document (pokerTree ps cs n h c)).desc = .node "body" {} [.node "div" { id := some "table-container".toList }
        [pokerTree ps cs n h c]] :: .node "div" { id := some "table-container".toList } [pokerTree ps cs n h c] ::
      pokerTree ps cs n h c :: (pokerTree ps cs n h c).desc := by
    simp [document, desc, descList]
  have e3 : (pokerTree ps cs n h c).desc = descList (patternSvgs ++ [.node "rect" tableA []] ++
      ((List.range n).map fun i => playerBox (ps i) h (decimal i)) ++
      ((List.range n).map fun i => commitBox (cs i) (decimal i)) ++
      [communityBox (some ((900 - communityWidth c) / 2 + 50)) (some (795 / 2)) c]) := rfl
  have n0 : hasClass name (pokerTree ps cs n h c) = false := rfl
  have n1 : hasClass name (.node "rect" tableA []) = false := by simp [hasClass, attrs, Ne.symm h1]
  unfold byClass
  rw [e0, List.filter_cons_of_neg (by simp [hasClass, attrs]), List.filter_cons_of_neg (by simp [hasClass, attrs]),
    List.filter_cons_of_neg (by simp [n0]), e3]
  simp only [descList_append, List.filter_append, h0, filter_desc_map]
  have e4 : (descList [communityBox (some ((900 - communityWidth c) / 2 + 50)) (some (795 / 2)) c]).filter (hasClass name) = [] := by
    simpa [descList] using h2'
  rw [e4]
  simp only [descList, desc, List.append_nil, List.nil_append]
  simp [n1]

theorem community_none (name : String) (x y : Option ℚ) (h : name ∉ ["community", "cards", "card", "card-background", "card-text",
    "chips", "chips-background", "chips-text"]) : (communityBox x y c :: (communityBox x y c).desc).filter (hasClass name) = [] := by
  simp only [List.mem_cons, List.not_mem_nil, or_false, not_or] at h
  have := cards_none name kaA (kbA "url(#card-blank)") ktA 10 "community".toList ((List.range c).map Nat.succ)
    (by simpa using Ne.symm h.2.2.1) (by simpa using Ne.symm h.2.2.2.1) (by simpa using Ne.symm h.2.2.2.2.1)
  unfold communityBox
  simp only [desc, descList, List.filter_cons, List.filter_append, this, cardAt]
  simp [hasClass, attrs, Ne.symm h.1, Ne.symm h.2.1, Ne.symm h.2.2.1, Ne.symm h.2.2.2.1, Ne.symm h.2.2.2.2.1, Ne.symm h.2.2.2.2.2.1,
    Ne.symm h.2.2.2.2.2.2.1, Ne.symm h.2.2.2.2.2.2.2]

theorem doc_players : (document (pokerTree ps cs n h c)).byClass "player" = (List.range n).map fun i => playerBox (ps i) h (decimal i) := by
  rw [doc_class "player" (by decide) (by decide) fun x y => community_none _ x y (by decide)]
  have e1 : ∀ i, (playerBox (ps i) h (decimal i) :: (playerBox (ps i) h (decimal i)).desc).filter (hasClass "player") =
      [playerBox (ps i) h (decimal i)] := by
    intro i
    have := cards_none "player" kaA (kbA "url(#card-back)") ktA 0 (decimal i) (List.range h) (by decide) (by decide) (by decide)
    unfold playerBox playerAt
    simp only [desc, descList, List.filter_cons, List.filter_append, this]
    simp [hasClass, attrs]
  have e2 : ∀ i, (commitBox (cs i) (decimal i) :: (commitBox (cs i) (decimal i)).desc).filter (hasClass "player") = [] := by
    intro i
    simp [commitBox, desc, descList, hasClass, attrs]
  simp only [e1, e2, ← List.map_eq_flatMap]
  simp

theorem doc_backgrounds : ((document (pokerTree ps cs n h c)).byClass "player-background").map (fun e => e.attrs.id) =
    (List.range n).map fun i => some (Key.background i).str := by
  rw [doc_class "player-background" (by decide) (by decide) fun x y => community_none _ x y (by decide)]
  have e1 : ∀ i, ((playerBox (ps i) h (decimal i) :: (playerBox (ps i) h (decimal i)).desc).filter (hasClass "player-background")).map
      (fun e => e.attrs.id) = [some (Key.background i).str] := by
    intro i
    have := cards_none "player-background" kaA (kbA "url(#card-back)") ktA 0 (decimal i) (List.range h) (by decide) (by decide) (by decide)
    unfold playerBox playerAt
    simp only [desc, descList, List.filter_cons, List.filter_append, this]
    simp [hasClass, attrs, Key.str, Key.parts, partStr]
  have e2 : ∀ i, (commitBox (cs i) (decimal i) :: (commitBox (cs i) (decimal i)).desc).filter (hasClass "player-background") = [] := by
    intro i
    simp [commitBox, desc, descList, hasClass, attrs]
  rw [List.map_append, List.map_flatMap, List.map_flatMap]
  simp only [e1, e2, List.map_nil, ← List.map_eq_flatMap]
  simp

theorem doc_buttons : ((document (pokerTree ps cs n h c)).byClass "button-background").map (fun e => e.attrs.id) =
    (List.range n).map fun i => some (Key.buttonBackground i).str := by
  rw [doc_class "button-background" (by decide) (by decide) fun x y => community_none _ x y (by decide)]
  have e1 : ∀ i, (playerBox (ps i) h (decimal i) :: (playerBox (ps i) h (decimal i)).desc).filter (hasClass "button-background") = [] := by
    intro i
    have := cards_none "button-background" kaA (kbA "url(#card-back)") ktA 0 (decimal i) (List.range h) (by decide) (by decide) (by decide)
    unfold playerBox playerAt
    simp only [desc, descList, List.filter_cons, List.filter_append, this]
    simp [hasClass, attrs]
  have e2 : ∀ i, ((commitBox (cs i) (decimal i) :: (commitBox (cs i) (decimal i)).desc).filter (hasClass "button-background")).map
      (fun e => e.attrs.id) = [some (Key.buttonBackground i).str] := by
    intro i
    simp [commitBox, desc, descList, hasClass, attrs, Key.str, Key.parts, partStr]
  rw [List.map_append, List.map_flatMap, List.map_flatMap]
  simp only [e1, e2, List.map_nil, ← List.map_eq_flatMap]
  simp


/-! ## the functions of the script -/

theorem Does.forIdx {α : Type} {l : List α} {f : α × Nat → Js Unit} {g : Nat → List Write}
    (h : ∀ i (hi : i < l.length), Does (f (l[i], i)) (g i)) : Does (l.zipIdx.forM f) ((List.range l.length).flatMap g) := by
  have e : l.zipIdx.flatMap (fun x => g x.2) = (List.range l.length).flatMap g := by
    have : l.zipIdx.map Prod.snd = List.range l.length := by rw [List.zipIdx_map_snd, List.range_eq_range']
    rw [← this, List.flatMap_map]
  rw [← e]
  refine Does.forM fun x hx => ?_
  obtain ⟨a, i⟩ := x
  have : l[i]? = some a := List.mem_zipIdx_iff_getElem?.1 hx
  obtain ⟨hi, rfl⟩ := List.getElem?_eq_some_iff.1 this
  exact h i hi

/-- every id of the picture is found -/
theorem doc_key {k : Key} (hk : k ∈ treeKeys n h c) : ∃ e, (document (pokerTree ps cs n h c)).byId k.str = some e ∧
    e.attrs.id = some k.str := by
  have : k.str ∈ ids (pokerTree ps cs n h c) := by rw [ids_tree]; exact List.mem_map_of_mem hk
  obtain ⟨e, he, hi⟩ := List.mem_filterMap.1 this
  exact ⟨e, byId_doc he hi, hi⟩

theorem key_player {k : Key} {i : Nat} (hi : i < n) (hk : k ∈ playerKeys h i) : k ∈ treeKeys n h c := by
  simp only [treeKeys, List.mem_append, List.mem_flatMap, List.mem_range]
  exact .inl (.inl (.inr ⟨i, hi, hk⟩))

theorem key_commit {k : Key} {i : Nat} (hi : i < n) (hk : k ∈ commitKeys i) : k ∈ treeKeys n h c := by
  simp only [treeKeys, List.mem_append, List.mem_flatMap, List.mem_range]
  exact .inl (.inr ⟨i, hi, hk⟩)

theorem key_community {k : Key} (hk : k ∈ communityKeys c) : k ∈ treeKeys n h c := by
  simp only [treeKeys, List.mem_append]
  exact .inr hk

def resetPlayerW (n h : Nat) : List Write :=
  ((List.range n).flatMap fun i => wText "0".toList (.chipsText i) ::
    ((List.range h).map (fun j => wFill "url(#card-back)" (.cardBackground i j)) ++
     (List.range h).map (fun j => wText [] (.cardText i j)))) ++
  (List.range n).map fun i => wFill "#ffffff" (.background i)

theorem does_resetPlayer : Does (resetPlayer (document (pokerTree ps cs n h c))) (resetPlayerW n h) := by
  unfold resetPlayer resetPlayerW
  refine Does.bind ?_ (Does.each _ (wFill "#ffffff") (fun _ _ => Does.fill _) doc_backgrounds)
  have key := Does.forIdx (l := (document (pokerTree ps cs n h c)).byClass "player")
    (f := fun (x : Svg × Nat) => do
      setText "0".toList (← nonNull (x.1.byId ("chips-text-".toList ++ decimal x.2)))
      (x.1.byClass "card-background").forM (setFill "url(#card-back)")
      (x.1.byClass "card-text").forM (setText []))
    (g := fun i => wText "0".toList (.chipsText i) ::
      ((List.range h).map (fun j => wFill "url(#card-back)" (.cardBackground i j)) ++
       (List.range h).map (fun j => wText [] (.cardText i j)))) (by
      intro i hi
      simp only [doc_players, List.getElem_map, List.getElem_range]
      obtain ⟨e, he, hid⟩ : ∃ e ∈ (playerBox (ps i) h (decimal i)).desc, e.attrs.id = some (Key.chipsText i).str := by
        refine ⟨.node "text" { cls := some "chips-text", y := some 20, id := some (dashed ["chips".toList, "text".toList, decimal i]) } [],
          ?_, rfl⟩
        simp [playerBox, playerAt, desc, descList]
      refine Does.nonNull (e := e) (byId_sub (playerBox_nodup _ _ _) he hid) ?_
      refine (Does.text _ hid).bind (ws := [_]) (Does.bind ?_ ?_)
      · exact Does.each _ (wFill "url(#card-back)") (fun _ _ => Does.fill _) (player_backgrounds _ _ _)
      · exact Does.each _ (wText []) (fun _ _ => Does.text _) (player_texts _ _ _))
  have : ((document (pokerTree ps cs n h c)).byClass "player").length = n := by rw [doc_players]; simp
  rw [this] at key
  exact key

def resetButtonW (n : Nat) : List Write := (List.range n).map fun i => wFill "transparent" (.buttonBackground i)

theorem does_resetButton : Does (resetButton (document (pokerTree ps cs n h c))) (resetButtonW n) :=
  Does.each _ (wFill "transparent") (fun _ _ => Does.fill _) doc_buttons

def resetCommunityW (c : Nat) : List Write :=
  wFill "url(#card-back)" (.communityCardBackground 0) ::
    ((List.range c).map (fun j => wFill "url(#card-blank)" (.communityCardBackground (j + 1))) ++
      wFill "url(#card-back)" (.communityCardText 0) ::
      ((List.range c).map (fun j => wText [] (.communityCardText (j + 1))) ++ [wText "0".toList .potText]))

theorem community_mem : communityBox (some ((900 - communityWidth c) / 2 + 50)) (some (795 / 2)) c ∈ elems (pokerTree ps cs n h c) := by
  rw [elems_desc]
  refine List.mem_cons_of_mem _ ?_
  show _ ∈ descList _
  rw [descList_append]
  simp [descList]

theorem head_tail {α : Type} {l : List Svg} {a : Option Str} {as : List α} {f : α → Option Str}
    (h : l.map (fun e => e.attrs.id) = a :: as.map f) : ∃ e l', l = e :: l' ∧ e.attrs.id = a ∧ l'.map (fun e => e.attrs.id) = as.map f := by
  cases l with
  | nil => simp at h
  | cons e l => simp only [List.map_cons, List.cons.injEq] at h; exact ⟨e, l, rfl, h.1, h.2⟩

theorem does_resetCommunity : Does (resetCommunity (document (pokerTree ps cs n h c))) (resetCommunityW c) := by
  unfold resetCommunity resetCommunityW
  refine Does.nonNull (byId_doc (k := .community) community_mem rfl) ?_
  obtain ⟨b, bs, hb, hb1, hb2⟩ := head_tail (community_backgrounds (some ((900 - communityWidth c) / 2 + 50)) (some (795 / 2)) c)
  obtain ⟨t, ts, ht, ht1, ht2⟩ := head_tail (community_texts (some ((900 - communityWidth c) / 2 + 50)) (some (795 / 2)) c)
  rw [hb, ht]
  refine Does.nonNull (e := b) rfl ((Does.fill _ hb1).bind (ws := [_]) (Does.bind ?_ ?_))
  · exact Does.each _ (wFill "url(#card-blank)") (fun _ _ => Does.fill _) hb2
  refine Does.nonNull (e := t) rfl ((Does.fill _ ht1).bind (ws := [_]) (Does.bind ?_ ?_))
  · exact Does.each _ (wText []) (fun _ _ => Does.text _) ht2
  refine Does.nonNull (byId_sub (k := .potText) (communityBox_nodup _ _ _) (e := .node "text"
    { cls := some "chips-text", y := some 20, id := some (dashed ["pot".toList, "text".toList]) } []) ?_ rfl) (Does.text _ rfl)
  simp [communityBox, desc, descList]

/-- the changes of `update_card` -/
def cardW (kb kt : Key) (s : List Str) : List Write :=
  wText (if (s[0]?).getD "undefined".toList = "T".toList then "10".toList else (s[0]?).getD "undefined".toList) kt ::
  (if s[1]? = some "♣".toList then [wFill "url(#card-club)" kb, wStroke "black" kt, wFill "black" kt]
  else if s[1]? = some "♠".toList then [wFill "url(#card-spade)" kb, wStroke "black" kt, wFill "black" kt]
  else if s[1]? = some "♥".toList then [wFill "url(#card-heart)" kb, wStroke "red" kt, wFill "red" kt]
  else if s[1]? = some "♦".toList then [wFill "url(#card-diamond)" kb, wStroke "red" kt, wFill "red" kt]
  else [])

theorem does_updateCard {card b t : Svg} {kb kt : Key} (hb : (card.byClass "card-background").head? = some b)
    (ht : (card.byClass "card-text").head? = some t) (ib : b.attrs.id = some kb.str) (it : t.attrs.id = some kt.str)
    (s : List Str) : Does (updateCard card s) (cardW kb kt s) := by
  have paint : ∀ (pattern colour : String), Does (do
      setFill pattern (← nonNull (card.byClass "card-background").head?)
      let cardText ← nonNull (card.byClass "card-text").head?
      setStroke colour cardText
      setFill colour cardText) [wFill pattern kb, wStroke colour kt, wFill colour kt] := by
    intro pattern colour
    refine Does.nonNull hb ((Does.fill _ ib).bind (ws := [_]) ?_)
    exact Does.nonNull ht ((Does.stroke _ it).bind (ws := [_]) (Does.fill _ it))
  unfold updateCard cardW
  refine Does.nonNull ht ((Does.text _ it).bind (ws := [_]) ?_)
  exact Does.ite (fun _ => paint _ _) fun _ => Does.ite (fun _ => paint _ _) fun _ => Does.ite (fun _ => paint _ _) fun _ =>
    Does.ite (fun _ => paint _ _) fun _ => Does.pure

end Clubs

import Verif.Spec.Svg
import Verif.Lemmas.Ascii
import Mathlib.Tactic.Ring
import Mathlib.Tactic.FieldSimp
import Mathlib.Data.Rat.Cast.Order

/-!
# The SVG tree in closed form
-/

namespace Clubs

open Svg Spec

theorem except_bind_ok {α β ε : Type} (a : α) (f : α → Except ε β) : (Except.ok a >>= f) = f a := rfl

/-- a card of `new_player` in closed form -/
def cardAt (ka kb kt : Attrs) (left : ℚ) (label : Str) (j : Nat) : Svg :=
  .node "svg" { ka with x := some (left + ka.width.getD 0 * j), id := some (dashed ["card".toList, label, decimal j]) }
    [.node "rect" { kb with id := some (dashed ["card".toList, "background".toList, label, decimal j]) } [],
     .node "text" { kt with id := some (dashed ["card".toList, "text".toList, label, decimal j]) } []]

theorem newCard_eq {ka kb kt : Attrs} (hb : kb.cls = some "card-background") (ht : kt.cls = some "card-text")
    (t : String) (ca : Attrs) (k : List Svg) (hv : ca.viewBox = none) (label : Str) (n j : Nat) :
    newCard (.node t ca k) (.node "svg" ka [.node "rect" kb [], .node "text" kt []]) label n j =
      .ok (cardAt ka kb kt (ca.width.getD 0 / 2 - ka.width.getD 0 * n / 2) label j) := by
  have : ((ca.width.getD 0 - ka.width.getD 0) / 2 + (-ka.width.getD 0 * n / 2 + ka.width.getD 0 * ((j : ℚ) + 1 / 2))) =
      ca.width.getD 0 / 2 - ka.width.getD 0 * n / 2 + ka.width.getD 0 * j := by ring
  simp [newCard, withSub, updFirst, updFirstList, hasClass, setId, setX, setAttrs, centerXIn, attrs, hv, hb, ht,
    Svg.width, Svg.x, cardAt, Except.map, except_bind_ok, ← this]

theorem appendCards {ka kb kt : Attrs} (hb : kb.cls = some "card-background") (ht : kt.cls = some "card-text")
    (t : String) (ca : Attrs) (hv : ca.viewBox = none) (label : Str) (n : Nat) (l : List Nat) (k : List Svg) :
    l.foldlM (fun cs i => do
        return cs.append (← newCard cs (.node "svg" ka [.node "rect" kb [], .node "text" kt []]) label n i)) (.node t ca k) =
      (.ok (.node t ca (k ++ l.map (cardAt ka kb kt (ca.width.getD 0 / 2 - ka.width.getD 0 * n / 2) label))) :
        Except Err Svg) := by
  induction l generalizing k with
  | nil => simp [pure, Except.pure]
  | cons i l ih =>
    rw [List.foldlM_cons, newCard_eq hb ht t ca k hv label n i]
    have h := ih (k ++ [cardAt ka kb kt (ca.width.getD 0 / 2 - ka.width.getD 0 * n / 2) label i])
    rw [List.append_assoc] at h
    exact h

/-- a player of `new_player` in closed form -/
def playerAt (pa ba ca ha hb ht : Attrs) (cards : List Svg) (label : Str) : Svg :=
  .node "svg" { pa with id := some label }
    [.node "rect" { ba with id := some (dashed ["player".toList, "background".toList, label]) } [],
     .node "svg" { ca with id := some (dashed ["cards".toList, label]) } cards,
     .node "svg" { ha with id := some (dashed ["chips".toList, label]) }
       [.node "rect" { hb with id := some (dashed ["chips".toList, "background".toList, label]) } [],
        .node "text" { ht with id := some (dashed ["chips".toList, "text".toList, label]) } []]]

theorem newPlayer_eq {ka kb kt pa ba ca ha hb ht : Attrs} (h1 : kb.cls = some "card-background")
    (h2 : kt.cls = some "card-text") (h3 : ba.cls = some "player-background") (h4 : ca.cls = some "cards")
    (h5 : ha.cls = some "chips") (h6 : hb.cls = some "chips-background") (h7 : ht.cls = some "chips-text")
    (hv : ca.viewBox = none) (label : Str) (n : Nat) :
    newPlayer (.node "svg" pa [.node "rect" ba [], .node "svg" ca [], .node "svg" ha [.node "rect" hb [], .node "text" ht []]])
      label (.node "svg" ka [.node "rect" kb [], .node "text" kt []]) n =
      .ok (playerAt pa ba ca ha hb ht ((List.range n).map
        (cardAt ka kb kt (ca.width.getD 0 / 2 - ka.width.getD 0 * n / 2) label)) label) := by
  have key := appendCards (ka := ka) h1 h2 "svg" { ca with id := some (dashed ["cards".toList, label]) } hv label n (List.range n) []
  simp only [List.nil_append] at key
  simp only [newPlayer, withSub, updFirst, updFirstList, hasClass, setId, setAttrs, attrs, h3, h4, h5, h6, h7, Except.map,
    except_bind_ok, Option.map, beq_self_eq_true, if_true, Option.some.injEq, String.reduceEq, beq_iff_eq, if_false]
  simp only [h4] at key
  rw [key]
  simp only [playerAt, h3, h4, h5, h6, h7]

/-! ## the whole tree -/

theorem mapM_ok (l : List Nat) (f : Nat → Except Err Svg) (g : Nat → Svg) (hfg : ∀ i, f i = .ok (g i)) :
    l.mapM f = .ok (l.map g) := by
  induction l with
  | nil => rfl
  | cons a l ih => rw [List.mapM_cons, hfg, ih]; rfl

/-- width of a player's box -/
def playerWidth (h : Nat) : ℚ := max 220 (50 * h + 20)

/-- the box of player `i` -/
def playerBox (seat : ℤ × ℤ) (h : Nat) (label : Str) : Svg :=
  playerAt { cls := some "player", width := some (playerWidth h), height := some 125,
             x := some (seat.1 - playerWidth h / 2), y := some (seat.2 - 125 / 2) }
    { cls := some "player-background", x := some 5, y := some 5, width := some (playerWidth h - 10), height := some 115 }
    { cls := some "cards", x := some ((playerWidth h - h * 50) / 2), y := some 10, width := some (h * 50) }
    { cls := some "chips", x := some 10, y := some 85, width := some (playerWidth h - 20), height := some 30 }
    { cls := some "chips-background" } { cls := some "chips-text", y := some 20 }
    ((List.range h).map (cardAt { cls := some "card", width := some 50, height := some 70 }
      { cls := some "card-background", fill := some "url(#card-back)" } { cls := some "card-text", x := some 7, y := some 25 }
      0 label)) label

theorem addPlayers_eq (seat : Nat → ℤ × ℤ) (n h : Nat) :
    addPlayers playerSvg cardSvg seat n h = .ok ((List.range n).map fun i => playerBox (seat i) h (decimal i)) := by
  have step : ∀ i, (do
      let new ← newPlayer (.node "svg" { cls := some "player", width := some (playerWidth h), height := some 125 }
        [.node "rect" { cls := some "player-background", x := some 5, y := some 5, width := some (playerWidth h - 10),
                        height := some 115 } [],
         .node "svg" { cls := some "cards", x := some ((playerWidth h - h * 50) / 2), y := some 10,
                       width := some (h * 50) } [],
         .node "svg" { cls := some "chips", x := some 10, y := some 85, width := some (playerWidth h - 20),
                       height := some 30 }
           [.node "rect" { cls := some "chips-background" } [],
            .node "text" { cls := some "chips-text", y := some 20 } []]]) (decimal i) cardSvg h
      return new.centerAt (((seat i).1 : ℚ), ((seat i).2 : ℚ))) = (.ok (playerBox (seat i) h (decimal i)) : Except Err Svg) := by
    intro i
    unfold cardSvg
    rw [newPlayer_eq rfl rfl rfl rfl rfl rfl rfl rfl]
    have z : (some ((h : ℚ) * 50)).getD 0 / 2 - (some (50 : ℚ)).getD 0 * h / 2 = 0 := by simp only [Option.getD_some]; ring
    simp only [except_bind_ok, z]
    rfl
  have z1 : max 220 ((50 : ℚ) * h + 20) = playerWidth h := rfl
  have z2 : (playerWidth h - (playerWidth h - 20)) / 2 = 10 := by ring
  have z3 : (125 : ℚ) - 10 = 115 := by norm_num
  unfold addPlayers playerSvg
  simp only [cardSvg, withSub, updFirst, updFirstList, hasClass, setWidth, setHeight, setAttrs, centerXIn, setX, attrs,
    Svg.width, Svg.height, Except.map, except_bind_ok, Option.map, beq_self_eq_true, if_true, Option.some.injEq,
    String.reduceEq, beq_iff_eq, if_false, Option.getD_some, z1, z2, z3]
  exact mapM_ok _ _ _ step

/-- the bet of player `i` -/
def commitBox (seat : ℤ × ℤ) (label : Str) : Svg :=
  .node "svg" { cls := some "chips", width := some 100, height := some 30, x := some (seat.1 - 100 / 2),
                y := some (seat.2 - 30 / 2), id := some (dashed ["street".toList, "commit".toList, label]) }
    [.node "rect" { cls := some "chips-background",
                    id := some (dashed ["street".toList, "commit".toList, "background".toList, label]) } [],
     .node "text" { cls := some "chips-text", x := some 30, y := some 20,
                    id := some (dashed ["street".toList, "commit".toList, "text".toList, label]) } [],
     .node "svg" { cls := some "button", width := some 25, height := some 25, x := some (145 / 2), y := some (5 / 2),
                   id := some (dashed ["button".toList, label]) }
       [.node "rect" { cls := some "button-background", fill := some "black",
                       id := some (dashed ["button".toList, "background".toList, label]) } []]]

theorem addStreetCommits_eq (seat : Nat → ℤ × ℤ) (n : Nat) :
    addStreetCommits streetCommitSvg seat n = .ok ((List.range n).map fun i => commitBox (seat i) (decimal i)) := by
  unfold addStreetCommits streetCommitSvg
  refine mapM_ok _ _ _ fun i => ?_
  simp only [withSub, updFirst, updFirstList, hasClass, setId, setAttrs, attrs, Except.map, except_bind_ok, Option.map,
    beq_self_eq_true, if_true, Option.some.injEq, String.reduceEq, beq_iff_eq, if_false]
  rfl

theorem skipCards {ka kb kt : Attrs} {left : ℚ} {label : Str} (name : String) (f : Svg → Except Err Svg)
    (h1 : ka.cls ≠ some name) (h2 : kb.cls ≠ some name) (h3 : kt.cls ≠ some name) (l : List Nat) :
    updFirstList (hasClass name) f (l.map (cardAt ka kb kt left label)) = none := by
  induction l with
  | nil => rfl
  | cons j l ih => simp [updFirstList, cardAt, hasClass, attrs, updFirst, h1, h2, h3, ih]

/-- width of the box of the community cards -/
def communityWidth (c : Nat) : ℚ := 50 * ((c : ℚ) + 1) + 20

/-- the community cards and the pot -/
def communityBox (x y : Option ℚ) (c : Nat) : Svg :=
  let label := "community".toList
  .node "svg" { cls := some "community", width := some (communityWidth c), height := some 125, x := x, y := y, id := some label }
    [.node "svg" { cls := some "cards", x := some 0, y := some 10, width := some (communityWidth c),
                   id := some (dashed ["cards".toList, label]) }
       (cardAt { cls := some "card", width := some 50, height := some 70 }
          { cls := some "card-background", fill := some "url(#card-back)" }
          { cls := some "card-text", x := some 7, y := some 25 } 0 label 0 ::
        ((List.range c).map Nat.succ).map (cardAt { cls := some "card", width := some 50, height := some 70 }
          { cls := some "card-background", fill := some "url(#card-blank)" }
          { cls := some "card-text", x := some 7, y := some 25 } 10 label)),
     .node "svg" { cls := some "chips", x := some 30, y := some 85, width := some (communityWidth c - 60), height := some 30,
                   id := some "pot".toList }
       [.node "rect" { cls := some "chips-background", id := some (dashed ["pot".toList, "background".toList]) } [],
        .node "text" { cls := some "chips-text", y := some 20, id := some (dashed ["pot".toList, "text".toList]) } []]]

theorem addCommunity_eq (c : Nat) : addCommunity playerSvg cardSvg c = .ok (communityBox none none c) := by
  have z1 : (50 : ℚ) * ((c : ℚ) + 1) + 20 = communityWidth c := rfl
  have z2 : (communityWidth c - (communityWidth c - 60)) / 2 = 30 := by ring
  have z3 : communityWidth c / 2 - 50 * ((c + 1 : ℕ) : ℚ) / 2 = 10 := by unfold communityWidth; push_cast; ring
  have n1 : (dashed ["cards".toList, "community".toList] == dashed ["card".toList, "community".toList, decimal 0]) = false := by
    decide +kernel
  unfold addCommunity playerSvg cardSvg
  simp only [withSub, updFirst, updFirstList, hasClass, setWidth, setAttrs, centerXIn, setX, attrs,
    Svg.width, Except.map, except_bind_ok, Option.map, beq_self_eq_true, if_true, Option.some.injEq,
    String.reduceEq, beq_iff_eq, if_false, Option.getD_some, z1, sub_self, zero_div]
  rw [newPlayer_eq rfl rfl rfl rfl rfl rfl rfl rfl]
  simp only [Option.getD_some, z3, except_bind_ok, playerAt, removeChild, hasClass, attrs, List.any_cons, beq_self_eq_true,
    Bool.true_or, if_true, List.eraseP_cons, cond_true, updFirstList, updFirst, Option.some.injEq, String.reduceEq,
    beq_iff_eq, if_false, Except.map, Option.map, setId, setAttrs, z2]
  have sk := fun f => skipCards (ka := { cls := some "card", width := some 50, height := some 70 })
    (kb := { cls := some "card-background", fill := some "url(#card-blank)" })
    (kt := { cls := some "card-text", x := some 7, y := some 25 }) (left := 10) (label := "community".toList)
    "chips" f (by decide) (by decide) (by decide) (List.range (c + 1))
  simp only [sk, updFirst, updFirstList, hasClass, attrs, except_bind_ok, Except.map, Option.map,
    Option.some.injEq, String.reduceEq, beq_iff_eq, if_false]
  have n2 : ¬ dashed ["cards".toList, "community".toList] = dashed ["card".toList, "community".toList, decimal 0] := by
    simpa using n1
  rw [List.range_succ_eq_map]
  simp only [List.map_cons, updFirstList, updFirst, hasId, hasClass, attrs, cardAt, beq_iff_eq, Option.some.injEq, n2,
    if_false, if_true, Except.map, Option.map, except_bind_ok, Svg.x, Option.getD_some]
  simp [communityBox, cardAt, pure, Except.pure]

/-- the tree -/
def pokerTree (playerSeat commitSeat : Nat → ℤ × ℤ) (n h c : Nat) : Svg :=
  .node "svg" { id := some "poker".toList, viewBox := some (1000, 1000) }
    (patternSvgs ++ [.node "rect" { cls := some "table", x := some 50, y := some 225, width := some 900, height := some 550 } []] ++
      ((List.range n).map fun i => playerBox (playerSeat i) h (decimal i)) ++
      ((List.range n).map fun i => commitBox (commitSeat i) (decimal i)) ++
      [communityBox (some ((900 - communityWidth c) / 2 + 50)) (some (795 / 2)) c])

theorem extend_node (t : String) (a : Attrs) (k l : List Svg) : (Svg.node t a k).extend l = .node t a (k ++ l) := by
  unfold extend
  induction l generalizing k with
  | nil => simp
  | cons x l ih => rw [List.foldl_cons]; exact (ih (k ++ [x])).trans (by simp)

theorem svgPoker_eq (playerSeat commitSeat : Nat → ℤ × ℤ) (n h c : Nat) :
    svgPoker playerSeat commitSeat n h c = .ok (pokerTree playerSeat commitSeat n h c) := by
  have z1 : ((1000 : ℚ) - 900) / 2 = 50 := by norm_num
  have z2 : ((1000 : ℚ) - 550) / 2 = 225 := by norm_num
  have z3 : ((550 : ℚ) - 125) / 2 + (225 - 40) = 795 / 2 := by norm_num
  unfold svgPoker
  rw [addPlayers_eq, addStreetCommits_eq, addCommunity_eq]
  simp only [except_bind_ok, baseSvg, extend_node, tableSvg, centerIn, centerXIn, centerYIn, setX, setY, setAttrs, attrs,
    Svg.width, Svg.height, Svg.x, Svg.y, Option.getD_some, append, communityBox, z1, z2, z3, List.nil_append,
    pure, Except.pure, pokerTree]

end Clubs

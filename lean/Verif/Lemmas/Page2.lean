import Verif.Lemmas.Page

/-!
# The handler of the page: its changes
-/

namespace Clubs

open Svg Spec

variable {ps cs : Nat → ℤ × ℤ} {n h c : Nat}

/-- the message is about a table of this size -/
structure MsgFits (n h c : Nat) (m : Message) : Prop where
  players : m.holeCards.hands.length ≤ n
  hands : ∀ hand ∈ m.holeCards.hands, hand.length ≤ h
  board : m.communityCards.cards.length ≤ c
  button : m.button < n
  action : ∀ a, m.action = some a → a < n

theorem holeCard_mem {i j : Nat} (hi : i < n) (hj : j < h) :
    cardAt kaA (kbA "url(#card-back)") ktA 0 (decimal i) j ∈ elems (pokerTree ps cs n h c) := by
  rw [elems_desc]
  refine List.mem_cons_of_mem _ ?_
  show _ ∈ descList _
  simp only [descList_append, List.mem_append]
  refine .inl (.inl (.inr ?_))
  rw [← elemsList_desc]
  have mem : ∀ {e : Svg} {l : List Svg}, (∃ b ∈ l, e ∈ elems b) → e ∈ elemsList l := by
    intro e l
    induction l with
    | nil => simp
    | cons a l ih =>
      rintro ⟨b, hb, he⟩
      rw [elemsList, List.mem_append]
      rcases List.mem_cons.1 hb with rfl | hb
      · exact .inl he
      · exact .inr (ih ⟨b, hb, he⟩)
  refine mem ⟨_, List.mem_map_of_mem (List.mem_range.2 hi), ?_⟩
  unfold playerBox playerAt
  simp only [elems, elemsList, List.mem_cons, List.mem_append]
  refine .inr (.inr (.inl (.inr (mem ⟨_, List.mem_map_of_mem (List.mem_range.2 hj), ?_⟩))))
  rw [elems_desc]
  exact List.mem_cons_self

theorem boardCard_mem {j : Nat} (hj : j < c) :
    cardAt kaA (kbA "url(#card-blank)") ktA 10 "community".toList (j + 1) ∈ elems (pokerTree ps cs n h c) := by
  rw [elems_desc]
  refine List.mem_cons_of_mem _ ?_
  show _ ∈ descList _
  simp only [descList_append, List.mem_append]
  refine .inr ?_
  have mem : ∀ {e : Svg} {l : List Svg}, e ∈ l → e ∈ descList l := by
    intro e l
    induction l with
    | nil => simp
    | cons a l ih =>
      intro he
      rcases List.mem_cons.1 he with rfl | he
      · exact List.mem_cons_self
      · exact List.mem_cons_of_mem _ (List.mem_append_right _ (ih he))
  simp only [descList, communityBox, desc, List.mem_cons, List.mem_append]
  refine .inr (.inl (.inr (.inl (.inr (.inr (mem (List.mem_map_of_mem (List.mem_map_of_mem (List.mem_range.2 hj)))))))))

theorem cardAt_heads (left : ℚ) (fill : String) (label : Str) (j : Nat) :
    ((cardAt kaA (kbA fill) ktA left label j).byClass "card-background").head? = some (.node "rect"
      { kbA fill with id := some (dashed ["card".toList, "background".toList, label, decimal j]) } []) ∧
    ((cardAt kaA (kbA fill) ktA left label j).byClass "card-text").head? = some (.node "text"
      { ktA with id := some (dashed ["card".toList, "text".toList, label, decimal j]) } []) := by
  constructor <;> simp [cardAt, byClass, desc, descList, hasClass, attrs]

/-! ## the changes -/

def updatePlayersW (m : Message) : List Write :=
  (List.range m.holeCards.hands.length).flatMap fun i =>
    wText (numText m.streetCommits[i]?) (.commitText i) :: wText (numText m.stacks[i]?) (.chipsText i) ::
      if m.active[i]? = some true then
        (List.range (m.holeCards.hands.getD i []).length).flatMap fun j =>
          cardW (.cardBackground i j) (.cardText i j) ((m.holeCards.hands.getD i []).getD j [])
      else []

theorem does_updatePlayers {m : Message} (hm : MsgFits n h c m) :
    Does (updatePlayers (document (pokerTree ps cs n h c)) m) (updatePlayersW m) := by
  unfold updatePlayers updatePlayersW
  refine Does.forIdx fun i hi => ?_
  have hn : i < n := lt_of_lt_of_le hi hm.players
  have hh : m.holeCards.hands.getD i [] = m.holeCards.hands[i] := by simp [hi]
  obtain ⟨e1, f1, i1⟩ := doc_key (ps := ps) (cs := cs) (k := .commitText i) (key_commit (h := h) (c := c) hn (by simp [commitKeys]))
  obtain ⟨e2, f2, i2⟩ := doc_key (ps := ps) (cs := cs) (k := .chipsText i) (key_player (h := h) (c := c) hn (by simp [playerKeys]))
  have s1 : (Key.commitText i).str = "street-commit-text-".toList ++ decimal i := by simp [Key.str, Key.parts, partStr, dashed]
  have s2 : (Key.chipsText i).str = "chips-text-".toList ++ decimal i := by simp [Key.str, Key.parts, partStr, dashed]
  rw [s1] at f1
  rw [s2] at f2
  refine Does.nonNull f1 ((Does.text _ i1).bind (ws := [_]) ?_)
  refine Does.nonNull f2 ((Does.text _ i2).bind (ws := [_]) ?_)
  refine Does.ite (fun _ => ?_) fun _ => Does.pure
  rw [hh]
  refine Does.forIdx fun j hj => ?_
  have hj' : j < h := lt_of_lt_of_le hj (hm.hands _ (List.getElem_mem hi))
  have f3 := byId_doc (k := .card i j) (holeCard_mem (ps := ps) (cs := cs) (c := c) hn hj') rfl
  have s3 : (Key.card i j).str = "card-".toList ++ decimal i ++ "-".toList ++ decimal j := by
    simp [Key.str, Key.parts, partStr, dashed]
  rw [s3] at f3
  refine Does.nonNull f3 ?_
  obtain ⟨h1, h2⟩ := cardAt_heads 0 "url(#card-back)" (decimal i) j
  have : m.holeCards.hands[i].getD j [] = m.holeCards.hands[i][j] := by simp [hj]
  rw [this]
  exact does_updateCard h1 h2 rfl rfl _

def updateCommunityW (m : Message) : List Write :=
  ((List.range m.communityCards.cards.length).flatMap fun j =>
    cardW (.communityCardBackground (j + 1)) (.communityCardText (j + 1)) (m.communityCards.cards.getD j [])) ++
  [wText (intStr m.pot) .potText]

theorem does_updateCommunity {m : Message} (hm : MsgFits n h c m) :
    Does (updateCommunity (document (pokerTree ps cs n h c)) m) (updateCommunityW m) := by
  unfold updateCommunity updateCommunityW
  refine Does.bind (Does.forIdx fun j hj => ?_) ?_
  · have f := byId_doc (k := .communityCard (j + 1)) (boardCard_mem (ps := ps) (cs := cs) (n := n) (h := h)
      (lt_of_lt_of_le hj hm.board)) rfl
    obtain ⟨h1, h2⟩ := cardAt_heads 10 "url(#card-blank)" "community".toList (j + 1)
    refine Does.nonNull f ?_
    have : m.communityCards.cards.getD j [] = m.communityCards.cards[j] := by simp [hj]
    rw [this]
    exact does_updateCard h1 h2 rfl rfl _
  · obtain ⟨e, f, i⟩ := doc_key (ps := ps) (cs := cs) (k := .potText) (key_community (n := n) (h := h) (c := c) (by simp [communityKeys]))
    exact Does.nonNull f (Does.text _ i)

theorem does_updateButton {m : Message} (hm : MsgFits n h c m) :
    Does (updateButton (document (pokerTree ps cs n h c)) m) [wFill "url(#dealer)" (.buttonBackground m.button)] := by
  obtain ⟨e, f, i⟩ := doc_key (ps := ps) (cs := cs) (k := .buttonBackground m.button)
    (key_commit (h := h) (c := c) hm.button (by simp [commitKeys]))
  have s : (Key.buttonBackground m.button).str = "button-background-".toList ++ decimal m.button := by
    simp [Key.str, Key.parts, partStr, dashed]
  rw [s] at f
  exact Does.nonNull f (Does.fill _ i)

def updateActionW (m : Message) : List Write :=
  match m.action with
  | some a => [wFill "#000000" (.background a)]
  | none => []

theorem does_updateAction {m : Message} (hm : MsgFits n h c m) :
    Does (updateAction (document (pokerTree ps cs n h c)) m) (updateActionW m) := by
  unfold updateAction updateActionW
  have := hm.action
  cases ha : m.action with
  | none => exact Does.pure
  | some a =>
    obtain ⟨e, f, i⟩ := doc_key (ps := ps) (cs := cs) (k := .background a)
      (key_player (h := h) (c := c) (this a ha) (by simp [playerKeys]))
    have s : (Key.background a).str = "player-background-".toList ++ decimal a := by
      simp [Key.str, Key.parts, partStr, dashed]
    rw [s] at f
    exact Does.nonNull f (Does.fill _ i)

def resetW (n h c : Nat) : List Write := resetPlayerW n h ++ (resetCommunityW c ++ resetButtonW n)

def updateW (m : Message) : List Write :=
  updatePlayersW m ++ (updateCommunityW m ++ ([wFill "url(#dealer)" (.buttonBackground m.button)] ++ updateActionW m))

theorem does_some {m : Message} (hm : MsgFits n h c m) :
    Does (onConfig (document (pokerTree ps cs n h c)) (some m)) (resetW n h c ++ updateW m) := by
  unfold onConfig resetW updateW
  rw [List.append_assoc, List.append_assoc]
  exact does_resetPlayer.bind (does_resetCommunity.bind (does_resetButton.bind ((does_updatePlayers hm).bind
    ((does_updateCommunity hm).bind ((does_updateButton hm).bind (does_updateAction hm))))))

theorem does_none : Does (onConfig (document (pokerTree ps cs n h c)) none) (resetW n h c) := by
  unfold onConfig resetW
  have := (does_resetPlayer (ps := ps) (cs := cs) (n := n) (h := h) (c := c)).bind
    ((does_resetCommunity (ps := ps) (cs := cs) (n := n) (h := h) (c := c)).bind
      ((does_resetButton (ps := ps) (cs := cs) (n := n) (h := h) (c := c)).bind Does.pure))
  rw [List.append_nil] at this
  exact this

/-! ## the effect on each element -/

theorem getD_get {α : Type} {l : List (List α)} {j : Nat} (hj : j < l.length) : l.getD j [] = l[j] := by simp [hj]

/-- the kind of element -/
def Key.kind : Key → Nat
  | chipsText _ => 1
  | cardBackground _ _ => 2
  | cardText _ _ => 3
  | background _ => 4
  | communityCardBackground _ => 5
  | communityCardText _ => 6
  | potText => 7
  | buttonBackground _ => 8
  | commitText _ => 9
  | _ => 0

theorem eff_kind {ws : List Write} {K : List Nat} {k : Key} (h : ∀ w ∈ ws, w.1.kind ∈ K) (hk : k.kind ∉ K) (l : Looks) :
    eff ws k l = l := eff_skip (fun w hw e => hk (by rw [← e]; exact h w hw)) l

theorem eff_cons (w : Write) (ws : List Write) (k : Key) (l : Looks) : eff (w :: ws) k l = eff ws k (if w.1 = k then w.2 l else l) := rfl

theorem eff_mapKey {as : List Nat} (w : Key → Write) (hw : ∀ k, (w k).1 = k) (key : Nat → Key) (inj : ∀ a b, key a = key b → a = b)
    (hn : as.Nodup) {a : Nat} (ha : a ∈ as) (l : Looks) : eff (as.map fun a => w (key a)) (key a) l = (w (key a)).2 l := by
  rw [List.map_eq_flatMap, eff_flatMap (fun a => [w (key a)]) hn ha]
  · simp [eff, hw]
  · intro b hb w' hw'
    rw [List.mem_singleton] at hw'
    subst hw'
    rw [hw]
    exact fun e => hb (inj _ _ e)

theorem cardW_keys {kb kt : Key} {s : List Str} {w : Write} (hw : w ∈ cardW kb kt s) : w.1 = kb ∨ w.1 = kt := by
  unfold cardW at hw
  split_ifs at hw <;> simp only [List.mem_cons, List.not_mem_nil, or_false] at hw <;>
    (try rcases hw with rfl | rfl | rfl | rfl) <;> simp_all [wFill, wStroke, wText]

theorem resetPlayer_kinds : ∀ w ∈ resetPlayerW n h, w.1.kind ∈ [1, 2, 3, 4] := by
  intro w hw
  simp only [resetPlayerW, List.mem_append, List.mem_flatMap, List.mem_cons, List.mem_map] at hw
  rcases hw with ⟨i, -, rfl | ⟨j, -, rfl⟩ | ⟨j, -, rfl⟩⟩ | ⟨i, -, rfl⟩ <;> simp [Key.kind, wText, wFill]

theorem resetCommunity_kinds : ∀ w ∈ resetCommunityW c, w.1.kind ∈ [5, 6, 7] := by
  intro w hw
  simp only [resetCommunityW, List.mem_append, List.mem_cons, List.mem_map, List.not_mem_nil, or_false] at hw
  rcases hw with rfl | ⟨j, -, rfl⟩ | rfl | ⟨j, -, rfl⟩ | rfl <;> simp [Key.kind, wText, wFill]

theorem resetButton_kinds : ∀ w ∈ resetButtonW n, w.1.kind ∈ [8] := by
  intro w hw
  simp only [resetButtonW, List.mem_map] at hw
  obtain ⟨i, -, rfl⟩ := hw
  simp [Key.kind, wFill]

theorem updatePlayers_kinds {m : Message} : ∀ w ∈ updatePlayersW m, w.1.kind ∈ [1, 2, 3, 9] := by
  intro w hw
  simp only [updatePlayersW, List.mem_flatMap, List.mem_cons] at hw
  obtain ⟨i, -, rfl | rfl | hw⟩ := hw
  · simp [Key.kind, wText]
  · simp [Key.kind, wText]
  · split_ifs at hw
    · obtain ⟨j, -, hw⟩ := List.mem_flatMap.1 hw
      rcases cardW_keys hw with e | e <;> rw [e] <;> simp [Key.kind]
    · simp at hw

theorem updateCommunity_kinds {m : Message} : ∀ w ∈ updateCommunityW m, w.1.kind ∈ [5, 6, 7] := by
  intro w hw
  simp only [updateCommunityW, List.mem_append, List.mem_flatMap, List.mem_singleton] at hw
  rcases hw with ⟨j, -, hw⟩ | rfl
  · rcases cardW_keys hw with e | e <;> rw [e] <;> simp [Key.kind]
  · simp [Key.kind, wText]

theorem updateAction_kinds {m : Message} : ∀ w ∈ updateActionW m, w.1.kind ∈ [4] := by
  intro w hw
  unfold updateActionW at hw
  split at hw
  · rw [List.mem_singleton.1 hw]; simp [Key.kind, wFill]
  · simp at hw

theorem eff_all (m : Message) (k : Key) (l : Looks) : eff (resetW n h c ++ updateW m) k l =
    eff (updateActionW m) k (eff [wFill "url(#dealer)" (.buttonBackground m.button)] k (eff (updateCommunityW m) k
      (eff (updatePlayersW m) k (eff (resetButtonW n) k (eff (resetCommunityW c) k (eff (resetPlayerW n h) k l)))))) := by
  simp only [resetW, updateW, eff_append]

theorem button_kinds {b : Nat} : ∀ w ∈ [wFill "url(#dealer)" (.buttonBackground b)], w.1.kind ∈ [8] := by
  intro w hw; rw [List.mem_singleton.1 hw]; simp [Key.kind, wFill]

/-! ### seats -/

theorem eff_round {m : Message} {i : Nat} (hi : i < m.holeCards.hands.length) {k : Key}
    (hk : k = .commitText i ∨ k = .chipsText i ∨ ∃ j, k = .cardBackground i j ∨ k = .cardText i j) (l : Looks) :
    eff (updatePlayersW m) k l = eff (wText (numText m.streetCommits[i]?) (.commitText i) ::
      wText (numText m.stacks[i]?) (.chipsText i) ::
      if m.active[i]? = some true then
        (List.range (m.holeCards.hands.getD i []).length).flatMap fun j =>
          cardW (.cardBackground i j) (.cardText i j) ((m.holeCards.hands.getD i []).getD j [])
      else []) k l := by
  unfold updatePlayersW
  rw [eff_flatMap _ List.nodup_range (List.mem_range.2 hi)]
  intro b hb w hw
  simp only [List.mem_cons] at hw
  rcases hw with rfl | rfl | hw
  · rcases hk with rfl | rfl | ⟨j, rfl | rfl⟩ <;> simp [wText, hb]
  · rcases hk with rfl | rfl | ⟨j, rfl | rfl⟩ <;> simp [wText, hb]
  · split_ifs at hw
    · obtain ⟨j', -, hw⟩ := List.mem_flatMap.1 hw
      rcases cardW_keys hw with e | e <;> rw [e] <;> rcases hk with rfl | rfl | ⟨j, rfl | rfl⟩ <;> simp [hb]
    · simp at hw

theorem eff_noRound {m : Message} {i : Nat} (hi : m.holeCards.hands.length ≤ i) {k : Key}
    (hk : k = .commitText i ∨ k = .chipsText i ∨ ∃ j, k = .cardBackground i j ∨ k = .cardText i j) (l : Looks) :
    eff (updatePlayersW m) k l = l := by
  refine eff_skip (fun w hw => ?_) l
  simp only [updatePlayersW, List.mem_flatMap, List.mem_cons, List.mem_range] at hw
  obtain ⟨b, hb, hw⟩ := hw
  have hb : b ≠ i := by omega
  rcases hw with rfl | rfl | hw
  · rcases hk with rfl | rfl | ⟨j, rfl | rfl⟩ <;> simp [wText, hb]
  · rcases hk with rfl | rfl | ⟨j, rfl | rfl⟩ <;> simp [wText, hb]
  · split_ifs at hw
    · obtain ⟨j', -, hw⟩ := List.mem_flatMap.1 hw
      rcases cardW_keys hw with e | e <;> rw [e] <;> rcases hk with rfl | rfl | ⟨j, rfl | rfl⟩ <;> simp [hb]
    · simp at hw

theorem eff_cards_skip {m : Message} {i : Nat} {k : Key} (hk : k.kind ∉ [2, 3]) (l : Looks) :
    eff (if m.active[i]? = some true then
        (List.range (m.holeCards.hands.getD i []).length).flatMap fun j =>
          cardW (.cardBackground i j) (.cardText i j) ((m.holeCards.hands.getD i []).getD j [])
      else []) k l = l := by
  refine eff_kind (K := [2, 3]) (fun w hw => ?_) hk l
  split_ifs at hw
  · obtain ⟨j', -, hw⟩ := List.mem_flatMap.1 hw
    rcases cardW_keys hw with e | e <;> rw [e] <;> simp [Key.kind]
  · simp at hw

/-- the card that the message has for a place, if it is to be shown -/
def holeOf (m : Message) (i j : Nat) : Option (List Str) :=
  if m.active[i]? = some true then (m.holeCards.hands.getD i [])[j]? else none

/-- the effect on one of two keys of a card, if there is a card -/
def cardEff (kb kt k : Key) (s : Option (List Str)) (l : Looks) : Looks :=
  match s with
  | some s => eff (cardW kb kt s) k l
  | none => l

theorem final_bet (m : Message) {i : Nat} (hi : i < m.holeCards.hands.length) (l : Looks) :
    eff (resetW n h c ++ updateW m) (.commitText i) l = { l with text := numText m.streetCommits[i]? } := by
  rw [eff_all, eff_kind resetPlayer_kinds (by simp [Key.kind]), eff_kind resetCommunity_kinds (by simp [Key.kind]),
    eff_kind resetButton_kinds (by simp [Key.kind]), eff_round hi (.inl rfl), eff_kind updateCommunity_kinds (by simp [Key.kind]),
    eff_kind button_kinds (by simp [Key.kind]), eff_kind updateAction_kinds (by simp [Key.kind]), eff_cons, eff_cons, eff_cards_skip (by simp [Key.kind])]
  simp [wText]

theorem final_stack (m : Message) {i : Nat} (hi : i < m.holeCards.hands.length) (hn : i < n) (l : Looks) :
    eff (resetW n h c ++ updateW m) (.chipsText i) l = { l with text := numText m.stacks[i]? } := by
  rw [eff_all, eff_kind resetCommunity_kinds (by simp [Key.kind]),
    eff_kind resetButton_kinds (by simp [Key.kind]), eff_round hi (.inr (.inl rfl)), eff_kind updateCommunity_kinds (by simp [Key.kind]),
    eff_kind button_kinds (by simp [Key.kind]), eff_kind updateAction_kinds (by simp [Key.kind]), eff_cons, eff_cons, eff_cards_skip (by simp [Key.kind])]
  have : ∀ k, (wText "0".toList k).1 = k := fun _ => rfl
  unfold resetPlayerW
  rw [eff_append, eff_flatMap _ List.nodup_range (List.mem_range.2 hn), eff_cons,
    eff_kind (K := [4]) (by
      intro w hw
      obtain ⟨j, -, rfl⟩ := List.mem_map.1 hw
      simp [Key.kind, wFill]) (by simp [Key.kind]),
    eff_kind (K := [2, 3]) (by
      intro w hw
      simp only [List.mem_append, List.mem_map] at hw
      rcases hw with ⟨j, -, rfl⟩ | ⟨j, -, rfl⟩ <;> simp [Key.kind, wText, wFill]) (by simp [Key.kind])]
  · simp [wText]
  · intro b hb w hw
    simp only [List.mem_append, List.mem_map, List.mem_cons] at hw
    rcases hw with rfl | ⟨j, -, rfl⟩ | ⟨j, -, rfl⟩ <;> simp [wText, wFill, hb]


theorem reset_hole {i j : Nat} (hi : i < n) (hj : j < h) (l : Looks) :
    eff (resetPlayerW n h) (.cardBackground i j) l = { l with fill := some "url(#card-back)" } ∧
    eff (resetPlayerW n h) (.cardText i j) l = { l with text := [] } := by
  have sk : ∀ {k : Key}, k.kind ≠ 4 → ∀ l, eff ((List.range n).map fun i => wFill "#ffffff" (.background i)) k l = l := by
    intro k hk l
    refine eff_kind (K := [4]) ?_ (by simpa using hk) l
    intro w hw
    obtain ⟨j, -, rfl⟩ := List.mem_map.1 hw
    simp [Key.kind, wFill]
  unfold resetPlayerW
  constructor
  · rw [eff_append, eff_flatMap _ List.nodup_range (List.mem_range.2 hi), sk (by simp [Key.kind]), eff_cons, eff_append,
      eff_mapKey (wFill "url(#card-back)") (fun _ => rfl) (fun j => .cardBackground i j) (by simp) List.nodup_range (List.mem_range.2 hj),
      eff_kind (K := [3]) (by
        intro w hw
        obtain ⟨j, -, rfl⟩ := List.mem_map.1 hw
        simp [Key.kind, wText]) (by simp [Key.kind])]
    · simp [wText, wFill]
    · intro b hb w hw
      simp only [List.mem_append, List.mem_map, List.mem_cons] at hw
      rcases hw with rfl | ⟨j, -, rfl⟩ | ⟨j, -, rfl⟩ <;> simp [wText, wFill, hb]
  · rw [eff_append, eff_flatMap _ List.nodup_range (List.mem_range.2 hi), sk (by simp [Key.kind]), eff_cons, eff_append,
      eff_mapKey (wText []) (fun _ => rfl) (fun j => .cardText i j) (by simp) List.nodup_range (List.mem_range.2 hj),
      eff_kind (K := [2]) (by
        intro w hw
        obtain ⟨j, -, rfl⟩ := List.mem_map.1 hw
        simp [Key.kind, wFill]) (by simp [Key.kind])]
    · simp [wText]
    · intro b hb w hw
      simp only [List.mem_append, List.mem_map, List.mem_cons] at hw
      rcases hw with rfl | ⟨j, -, rfl⟩ | ⟨j, -, rfl⟩ <;> simp [wText, wFill, hb]

theorem update_hole (m : Message) {i j : Nat} {k : Key} (hk : k = .cardBackground i j ∨ k = .cardText i j) (l : Looks) :
    eff (updatePlayersW m) k l = cardEff (.cardBackground i j) (.cardText i j) k (holeOf m i j) l := by
  have hk' : k = .commitText i ∨ k = .chipsText i ∨ ∃ j, k = .cardBackground i j ∨ k = .cardText i j := .inr (.inr ⟨j, hk⟩)
  have other : ∀ b, b ≠ j → ∀ w ∈ cardW (.cardBackground i b) (.cardText i b) ((m.holeCards.hands.getD i []).getD b []), w.1 ≠ k := by
    intro b hb w hw
    rcases cardW_keys hw with e | e <;> rw [e] <;> rcases hk with rfl | rfl <;> simp [hb]
  by_cases hi : i < m.holeCards.hands.length
  · have n1 : ¬ Key.commitText i = k := by rcases hk with rfl | rfl <;> simp
    have n2 : ¬ Key.chipsText i = k := by rcases hk with rfl | rfl <;> simp
    rw [eff_round hi hk', eff_cons, eff_cons]
    simp only [wText, n1, n2, if_false]
    unfold holeOf
    by_cases ha : m.active[i]? = some true
    · rw [if_pos ha, if_pos ha]
      by_cases hj : j < (m.holeCards.hands.getD i []).length
      · rw [eff_flatMap _ List.nodup_range (List.mem_range.2 hj) other, List.getElem?_eq_getElem hj, getD_get hj]
        rfl
      · rw [List.getElem?_eq_none (by omega)]
        refine eff_skip (fun w hw => ?_) l
        obtain ⟨b, hb, hw⟩ := List.mem_flatMap.1 hw
        exact other b (by have := List.mem_range.1 hb; omega) w hw
    · rw [if_neg ha, if_neg ha]
      rfl
  · rw [eff_noRound (by omega) hk']
    unfold holeOf
    have : m.holeCards.hands.getD i [] = [] := by
      rw [List.getD_eq_getElem?_getD, List.getElem?_eq_none (by omega)]; rfl
    rw [this]
    split <;> rfl

theorem final_hole (m : Message) {i j : Nat} (hi : i < n) (hj : j < h) (l : Looks) :
    eff (resetW n h c ++ updateW m) (.cardBackground i j) l = cardEff (.cardBackground i j) (.cardText i j) (.cardBackground i j)
      (holeOf m i j) { l with fill := some "url(#card-back)" } ∧
    eff (resetW n h c ++ updateW m) (.cardText i j) l = cardEff (.cardBackground i j) (.cardText i j) (.cardText i j)
      (holeOf m i j) { l with text := [] } := by
  constructor
  · rw [eff_all, (reset_hole hi hj l).1, eff_kind resetCommunity_kinds (by simp [Key.kind]),
      eff_kind resetButton_kinds (by simp [Key.kind]), update_hole m (.inl rfl), eff_kind updateCommunity_kinds (by simp [Key.kind]),
      eff_kind button_kinds (by simp [Key.kind]), eff_kind updateAction_kinds (by simp [Key.kind])]
  · rw [eff_all, (reset_hole hi hj l).2, eff_kind resetCommunity_kinds (by simp [Key.kind]),
      eff_kind resetButton_kinds (by simp [Key.kind]), update_hole m (.inr rfl), eff_kind updateCommunity_kinds (by simp [Key.kind]),
      eff_kind button_kinds (by simp [Key.kind]), eff_kind updateAction_kinds (by simp [Key.kind])]

/-! ### board, pot, button, seat to act -/

theorem update_board (m : Message) {j : Nat} {k : Key} (hk : k = .communityCardBackground (j + 1) ∨ k = .communityCardText (j + 1))
    (l : Looks) : eff (updateCommunityW m) k l = cardEff (.communityCardBackground (j + 1)) (.communityCardText (j + 1)) k
      m.communityCards.cards[j]? l := by
  have other : ∀ b, b ≠ j → ∀ w ∈ cardW (.communityCardBackground (b + 1)) (.communityCardText (b + 1))
      (m.communityCards.cards.getD b []), w.1 ≠ k := by
    intro b hb w hw
    rcases cardW_keys hw with e | e <;> rw [e] <;> rcases hk with rfl | rfl <;> simp [hb]
  unfold updateCommunityW
  rw [eff_append, eff_skip (ws := [_]) (by
    intro w hw; rw [List.mem_singleton.1 hw]; rcases hk with rfl | rfl <;> simp [wText])]
  by_cases hj : j < m.communityCards.cards.length
  · rw [eff_flatMap _ List.nodup_range (List.mem_range.2 hj) other, List.getElem?_eq_getElem hj, getD_get hj]
    rfl
  · rw [List.getElem?_eq_none (by omega)]
    refine eff_skip (fun w hw => ?_) l
    obtain ⟨b, hb, hw⟩ := List.mem_flatMap.1 hw
    exact other b (by have := List.mem_range.1 hb; omega) w hw

theorem eff_map_skip {as : List Nat} (w : Key → Write) (hw : ∀ k, (w k).1 = k) (key : Nat → Key) {k : Key} (hk : ∀ a ∈ as, key a ≠ k)
    (l : Looks) : eff (as.map fun a => w (key a)) k l = l := by
  refine eff_skip (fun x hx => ?_) l
  obtain ⟨a, ha, rfl⟩ := List.mem_map.1 hx
  rw [hw]
  exact hk a ha

theorem reset_board {j : Nat} (hj : j < c) (l : Looks) :
    eff (resetCommunityW c) (.communityCardBackground (j + 1)) l = { l with fill := some "url(#card-blank)" } ∧
    eff (resetCommunityW c) (.communityCardText (j + 1)) l = { l with text := [] } := by
  unfold resetCommunityW
  constructor
  · rw [eff_cons, eff_append, eff_mapKey (wFill "url(#card-blank)") (fun _ => rfl) (fun j => .communityCardBackground (j + 1)) (by simp)
      List.nodup_range (List.mem_range.2 hj), eff_cons, eff_append,
      eff_map_skip (wText []) (fun _ => rfl) (fun j => .communityCardText (j + 1)) (by simp), eff_cons]
    simp [wFill, wText, eff]
  · rw [eff_cons, eff_append, eff_map_skip (wFill "url(#card-blank)") (fun _ => rfl) (fun j => .communityCardBackground (j + 1)) (by simp),
      eff_cons, eff_append, eff_mapKey (wText []) (fun _ => rfl) (fun j => .communityCardText (j + 1)) (by simp)
      List.nodup_range (List.mem_range.2 hj), eff_cons]
    simp [wFill, wText, eff]

theorem final_board (m : Message) {j : Nat} (hj : j < c) (l : Looks) :
    eff (resetW n h c ++ updateW m) (.communityCardBackground (j + 1)) l =
      cardEff (.communityCardBackground (j + 1)) (.communityCardText (j + 1)) (.communityCardBackground (j + 1))
        m.communityCards.cards[j]? { l with fill := some "url(#card-blank)" } ∧
    eff (resetW n h c ++ updateW m) (.communityCardText (j + 1)) l =
      cardEff (.communityCardBackground (j + 1)) (.communityCardText (j + 1)) (.communityCardText (j + 1))
        m.communityCards.cards[j]? { l with text := [] } := by
  constructor
  · rw [eff_all, eff_kind resetPlayer_kinds (by simp [Key.kind]), (reset_board hj l).1,
      eff_kind resetButton_kinds (by simp [Key.kind]), eff_kind updatePlayers_kinds (by simp [Key.kind]), update_board m (.inl rfl),
      eff_kind button_kinds (by simp [Key.kind]), eff_kind updateAction_kinds (by simp [Key.kind])]
  · rw [eff_all, eff_kind resetPlayer_kinds (by simp [Key.kind]), (reset_board hj l).2,
      eff_kind resetButton_kinds (by simp [Key.kind]), eff_kind updatePlayers_kinds (by simp [Key.kind]), update_board m (.inr rfl),
      eff_kind button_kinds (by simp [Key.kind]), eff_kind updateAction_kinds (by simp [Key.kind])]

theorem update_deck (m : Message) {k : Key} (hk : k = .communityCardBackground 0 ∨ k = .communityCardText 0) (l : Looks) :
    eff (updateCommunityW m) k l = l := by
  refine eff_skip (fun w hw => ?_) l
  simp only [updateCommunityW, List.mem_append, List.mem_flatMap, List.mem_singleton] at hw
  rcases hw with ⟨b, -, hw⟩ | rfl
  · rcases cardW_keys hw with e | e <;> rw [e] <;> rcases hk with rfl | rfl <;> simp
  · rcases hk with rfl | rfl <;> simp [wText]

theorem final_deck (m : Message) (l : Looks) :
    eff (resetW n h c ++ updateW m) (.communityCardBackground 0) l = { l with fill := some "url(#card-back)" } ∧
    eff (resetW n h c ++ updateW m) (.communityCardText 0) l = { l with fill := some "url(#card-back)" } := by
  constructor
  · rw [eff_all, eff_kind resetPlayer_kinds (by simp [Key.kind]),
      eff_kind resetButton_kinds (by simp [Key.kind]), eff_kind updatePlayers_kinds (by simp [Key.kind]), update_deck m (.inl rfl),
      eff_kind button_kinds (by simp [Key.kind]), eff_kind updateAction_kinds (by simp [Key.kind])]
    unfold resetCommunityW
    rw [eff_cons, eff_append, eff_map_skip (wFill "url(#card-blank)") (fun _ => rfl) (fun j => .communityCardBackground (j + 1)) (by simp),
      eff_cons, eff_append, eff_map_skip (wText []) (fun _ => rfl) (fun j => .communityCardText (j + 1)) (by simp), eff_cons]
    simp [wFill, wText, eff]
  · rw [eff_all, eff_kind resetPlayer_kinds (by simp [Key.kind]),
      eff_kind resetButton_kinds (by simp [Key.kind]), eff_kind updatePlayers_kinds (by simp [Key.kind]), update_deck m (.inr rfl),
      eff_kind button_kinds (by simp [Key.kind]), eff_kind updateAction_kinds (by simp [Key.kind])]
    unfold resetCommunityW
    rw [eff_cons, eff_append, eff_map_skip (wFill "url(#card-blank)") (fun _ => rfl) (fun j => .communityCardBackground (j + 1)) (by simp),
      eff_cons, eff_append, eff_map_skip (wText []) (fun _ => rfl) (fun j => .communityCardText (j + 1)) (by simp), eff_cons]
    simp [wFill, wText, eff]

theorem reset_pot (l : Looks) : eff (resetCommunityW c) .potText l = { l with text := "0".toList } := by
  unfold resetCommunityW
  rw [eff_cons, eff_append, eff_map_skip (wFill "url(#card-blank)") (fun _ => rfl) (fun j => .communityCardBackground (j + 1)) (by simp),
    eff_cons, eff_append, eff_map_skip (wText []) (fun _ => rfl) (fun j => .communityCardText (j + 1)) (by simp), eff_cons]
  simp [wFill, wText, eff]

theorem final_pot (m : Message) (l : Looks) : eff (resetW n h c ++ updateW m) .potText l = { l with text := intStr m.pot } := by
  rw [eff_all, eff_kind resetPlayer_kinds (by simp [Key.kind]), reset_pot,
    eff_kind resetButton_kinds (by simp [Key.kind]), eff_kind updatePlayers_kinds (by simp [Key.kind]),
    eff_kind button_kinds (by simp [Key.kind]), eff_kind updateAction_kinds (by simp [Key.kind])]
  unfold updateCommunityW
  rw [eff_append, eff_kind (K := [5, 6]) (ws := List.flatMap _ _) (by
    intro w hw
    obtain ⟨b, -, hw⟩ := List.mem_flatMap.1 hw
    rcases cardW_keys hw with e | e <;> rw [e] <;> simp [Key.kind]) (by simp [Key.kind])]
  simp [wText, eff]

theorem final_button (m : Message) {i : Nat} (hi : i < n) (l : Looks) : eff (resetW n h c ++ updateW m) (.buttonBackground i) l =
    { l with fill := some (if i = m.button then "url(#dealer)" else "transparent") } := by
  rw [eff_all, eff_kind resetPlayer_kinds (by simp [Key.kind]), eff_kind resetCommunity_kinds (by simp [Key.kind]),
    eff_kind updatePlayers_kinds (by simp [Key.kind]), eff_kind updateCommunity_kinds (by simp [Key.kind]),
    eff_kind updateAction_kinds (by simp [Key.kind])]
  unfold resetButtonW
  rw [eff_mapKey (wFill "transparent") (fun _ => rfl) .buttonBackground (by simp) List.nodup_range (List.mem_range.2 hi), eff_cons]
  by_cases hb : m.button = i
  · simp [wFill, eff, hb]
  · simp [wFill, eff, hb, Ne.symm hb]

theorem final_action (m : Message) {i : Nat} (hi : i < n) (l : Looks) : eff (resetW n h c ++ updateW m) (.background i) l =
    { l with fill := some (if m.action = some i then "#000000" else "#ffffff") } := by
  rw [eff_all, eff_kind resetCommunity_kinds (by simp [Key.kind]), eff_kind resetButton_kinds (by simp [Key.kind]),
    eff_kind updatePlayers_kinds (by simp [Key.kind]), eff_kind updateCommunity_kinds (by simp [Key.kind]),
    eff_kind button_kinds (by simp [Key.kind])]
  unfold resetPlayerW updateActionW
  rw [eff_append, eff_mapKey (wFill "#ffffff") (fun _ => rfl) .background (by simp) List.nodup_range (List.mem_range.2 hi),
    eff_kind (K := [1, 2, 3]) (ws := List.flatMap _ _) (by
      intro w hw
      simp only [List.mem_flatMap, List.mem_append, List.mem_map, List.mem_cons] at hw
      obtain ⟨i, -, rfl | ⟨j, -, rfl⟩ | ⟨j, -, rfl⟩⟩ := hw <;> simp [Key.kind, wText, wFill]) (by simp [Key.kind])]
  cases ha : m.action with
  | none => simp [eff, wFill]
  | some a =>
    by_cases hb : a = i
    · simp [wFill, eff, hb]
    · simp [wFill, eff, hb]

/-- the script touches no other elements -/
theorem final_other (m : Message) {s : Str} (hs : ∀ k : Key, k.kind ≠ 0 → k.str ≠ s) (p : Page) :
    applyW (resetW n h c ++ updateW m) p s = p s := by
  refine applyW_other _ _ _ fun w hw => hs w.1 ?_
  simp only [resetW, updateW, List.mem_append] at hw
  have z : ∀ {K : List Nat}, w.1.kind ∈ K → 0 ∉ K → w.1.kind ≠ 0 := fun h1 h2 e => h2 (e ▸ h1)
  rcases hw with (hw | hw | hw) | hw | hw | hw | hw
  · exact z (resetPlayer_kinds w hw) (by decide)
  · exact z (resetCommunity_kinds w hw) (by decide)
  · exact z (resetButton_kinds w hw) (by decide)
  · exact z (updatePlayers_kinds w hw) (by decide)
  · exact z (updateCommunity_kinds w hw) (by decide)
  · exact z (button_kinds w hw) (by decide)
  · exact z (updateAction_kinds w hw) (by decide)

end Clubs

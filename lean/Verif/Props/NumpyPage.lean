import Verif.Spec.NumpyPage
import Verif.Props.Page
import Verif.Props.NumpyRender
import Verif.Props.NumpyCards

/-!
# C88: the page in the browser and the array engine
-/

namespace Clubs.Numpy

open Svg Spec

variable {ps cs : Nat → ℤ × ℤ} {n h c : Nat} {svg : Svg} {d : Dealer} {m : Message}

/-! ## the message of a table -/

theorem array_message (hs : «show» d .graphic = .ok (.sent m)) :
    m.action = d.action ∧ m.active = d.active ∧ m.button = d.button ∧ m.pot = d.pot ∧ m.stacks = d.stacks ∧
    m.streetCommits = d.streetCommits ∧ m.communityCards.cards = (d.communityCards.map fun c => chars c.str) ∧
    m.holeCards.hands = (d.holeCards.map fun hand => hand.map fun c => chars c.str) ∧
    payouts d = .ok m.payouts ∧ m.prevAction = d.history.getLast? ∧ (m.done = true ↔ HandOver d) ∧
    m.allIn = List.zipWith (fun (a : Bool) s => a && s == 0) d.active d.stacks := by
  unfold «show» renderConfig at hs
  cases hpay : payouts d with
  | error e => rw [hpay] at hs; simp at hs
  | ok p =>
    rw [hpay] at hs
    simp only [Except.ok.injEq, Shown.sent.injEq] at hs
    subst hs
    refine ⟨rfl, rfl, rfl, rfl, rfl, rfl, ?_, ?_, rfl, rfl, array_done_iff d, rfl⟩
    · show (convertHands (d.communityCards.map .card)).cards = _
      rw [convert_cards]
      show List.map _ (List.map _ _) = _
      rw [List.map_map]
      rfl
    · show (convertHands (d.holeCards.map .hand)).hands = _
      by_cases hp : d.holeCards = []
      · rw [hp]; rfl
      · rw [convert_hands _ hp]
        show List.map _ (List.map _ _) = _
        rw [List.map_map]
        refine List.map_congr_left fun hand _ => ?_
        show List.map _ (List.map _ _) = _
        rw [List.map_map]
        rfl

theorem board_size (hm : ArrayMessage n h c d m) (hp : d.holeCards ≠ []) : d.communityCards.length ≤ c := by
  have hc : c = (d.cfg.numCommunityCards.map Int.toNat).sum := by
    have := sum_toNat hm.community
    have := hm.board
    omega
  rw [hc, (C74_shape hm.reachable (.inr hp) hm.enough).2.2]
  exact boardSize_le _ _

/-- the message with another button and seat to act fits the page -/
theorem array_fits (hm : ArrayMessage n h c d m) (hp : d.holeCards ≠ []) {b : Nat} {a : Option Nat} (hb : b < n)
    (ha : ∀ x, a = some x → x < n) : MsgFits n h c { m with button := b, action := a } := by
  obtain ⟨-, -, -, -, -, -, e7, e8, -⟩ := array_message hm.sent
  obtain ⟨k1, k2, -⟩ := C74_shape hm.reachable (.inr hp) hm.enough
  refine ⟨?_, ?_, ?_, hb, ha⟩
  · show m.holeCards.hands.length ≤ n
    rw [e8, List.length_map, k1, hm.players]
  · show ∀ hand ∈ m.holeCards.hands, hand.length ≤ h
    rw [e8]
    intro hand hh
    obtain ⟨x, hx, rfl⟩ := List.mem_map.1 hh
    obtain ⟨i, hi, rfl⟩ := List.getElem_of_mem hx
    have := k2 i (by rw [← k1]; exact hi)
    rw [getD_eq _ _ _ hi] at this
    rw [List.length_map, this, hm.hole]
  · show m.communityCards.cards.length ≤ c
    rw [e7, List.length_map]
    exact board_size hm hp

theorem array_suit (hd : ArrayReachable d) {x : Card} (hx : x ∈ allCards d) : x.suit ∈ ['♣', '♠', '♥', '♦'] := by
  obtain ⟨k, u, -, -, hn⟩ := ((C74_cards hd).2.2 x).1 hx
  obtain ⟨r, -, u, hu, rfl⟩ := card_of_new hn
  have : ∀ u < 4, suitSymbol u ∈ ['♣', '♠', '♥', '♦'] := by decide
  exact this u hu

theorem array_shown (hm : ArrayMessage n h c d m) (i j : Nat) (y : Card)
    (hy : (if isIn d i then (d.holeCards.getD i [])[j]? else none) = some y) : y.suit ∈ ['♣', '♠', '♥', '♦'] := by
  split_ifs at hy
  have hy := List.mem_of_getElem? hy
  by_cases hi : i < d.holeCards.length
  · rw [getD_get hi] at hy
    refine array_suit hm.reachable ?_
    unfold allCards
    simp only [List.mem_append, List.mem_flatten]
    exact .inl (.inl ⟨_, List.getElem_mem hi, hy⟩)
  · simp [List.getElem?_eq_none (Nat.le_of_not_lt hi)] at hy

theorem array_holeOf (hm : ArrayMessage n h c d m) (i j : Nat) :
    holeOf m i j = (if isIn d i then (d.holeCards.getD i [])[j]? else none).map fun c => chars c.str := by
  unfold holeOf
  obtain ⟨-, e2, -, -, -, -, -, e8, -⟩ := array_message hm.sent
  rw [e2, e8]
  have : d.active[i]? = some true ↔ isIn d i := by
    unfold isIn
    rw [List.getD_eq_getElem?_getD]
    cases d.active[i]? <;> simp
  simp only [this]
  split_ifs
  · simp only [List.getD_eq_getElem?_getD, List.getElem?_map]
    cases d.holeCards[i]? <;> simp
  · rfl

/-- the changes for the message with another seat to act -/
theorem array_shows (hm : ArrayMessage n h c d m) (hp : d.holeCards ≠ []) (a : Option Nat) (p : Page) :
    ShowsTable n h c { d with action := a } (applyW (resetW n h c ++ updateW { m with action := a }) p) := by
  have hseat := array_seated hm.reachable
  obtain ⟨e1, e2, e3, e4, e5, e6, e7, e8, -⟩ := array_message hm.sent
  have e9 : m.holeCards.hands.length = n := by
    rw [e8, List.length_map, (C74_shape hm.reachable (.inr hp) hm.enough).1, hm.players]
  have hstk : d.stacks.length = n := by rw [hm.players]; exact hseat.stacks
  have hstr : d.streetCommits.length = n := by rw [hm.players]; exact hseat.streetCommits
  have num : ∀ {l : List Int} {i : Nat}, i < l.length → numText l[i]? = intStr (l.getD i 0) := by
    intro l i hi
    rw [List.getD_eq_getElem?_getD, List.getElem?_eq_getElem hi]
    rfl
  have l9 : ∀ {i : Nat}, i < n → i < ({ m with action := a } : Message).holeCards.hands.length := fun hi => by
    show _ < m.holeCards.hands.length
    omega
  refine ⟨?_, ?_, ?_, ?_, ?_, ?_, ?_, ?_⟩
  · intro i hi
    show (applyW _ p (Key.chipsText i).str).text = _
    rw [applyW_key, final_stack _ (l9 hi) hi]
    show numText m.stacks[i]? = _
    rw [e5, num (by omega)]
    rfl
  · intro i hi
    show (applyW _ p (Key.commitText i).str).text = _
    rw [applyW_key, final_bet _ (l9 hi)]
    show numText m.streetCommits[i]? = _
    rw [e6, num (by omega)]
    rfl
  · show (applyW _ p Key.potText.str).text = _
    rw [applyW_key, final_pot]
    show intStr m.pot = _
    rw [e4]
  · intro i hi
    show (applyW _ p (Key.buttonBackground i).str).fill = _
    rw [applyW_key, final_button _ hi]
    show some (if i = m.button then _ else _) = _
    rw [e3]
  · intro i hi
    show (applyW _ p (Key.background i).str).fill = _
    rw [applyW_key, final_action _ hi]
  · intro j hj
    show ShowsCard _ _ (applyW _ p (Key.communityCardBackground (j + 1)).str) (applyW _ p (Key.communityCardText (j + 1)).str)
    rw [applyW_key, applyW_key, (final_board _ hj _).1, (final_board _ hj _).2]
    show ShowsCard _ _ (cardEff _ _ _ m.communityCards.cards[j]? _) (cardEff _ _ _ m.communityCards.cards[j]? _)
    rw [e7, List.getElem?_map]
    refine cardEff_shows (by simp) (fun y hy => array_suit hm.reachable ?_) _ _ _
    unfold allCards
    simp only [List.mem_append]
    exact .inl (.inr (List.mem_of_getElem? hy))
  · show (applyW _ p (Key.communityCardBackground 0).str).fill = _
    rw [applyW_key, (final_deck _ _).1]
  · intro i hi j hj
    have k1 : "card-background-".toList ++ decimal i ++ "-".toList ++ decimal j = (Key.cardBackground i j).str := by
      show _ = "card-background-".toList ++ (decimal i ++ ("-".toList ++ decimal j))
      simp only [List.append_assoc]
    have k2 : "card-text-".toList ++ decimal i ++ "-".toList ++ decimal j = (Key.cardText i j).str := by
      show _ = "card-text-".toList ++ (decimal i ++ ("-".toList ++ decimal j))
      simp only [List.append_assoc]
    rw [k1, k2, applyW_key, applyW_key, (final_hole _ hi hj _).1, (final_hole _ hi hj _).2,
      show holeOf { m with action := a } i j = holeOf m i j from rfl, array_holeOf hm]
    exact cardEff_shows (by simp) (array_shown hm i j) _ _ _

/-! ## a button that is not a seat -/

/-- no element of the page has the id -/
theorem byId_none {k : Key} (hk : k ∉ treeKeys n h c) : (document (pokerTree ps cs n h c)).byId k.str = none := by
  have h1 : ¬ ("table-container".toList = k.str) := fun e => k.str_ne_container e.symm
  unfold byId document
  simp only [desc, descList, List.append_nil]
  rw [List.find?_cons_of_neg (by simp [hasId, attrs]), List.find?_cons_of_neg (by
    simp only [hasId, attrs, beq_iff_eq, Option.some.injEq]; exact h1), ← elems_desc, List.find?_eq_none]
  intro e he hid
  refine hk ?_
  have : k.str ∈ ids (pokerTree ps cs n h c) := by
    unfold ids
    exact List.mem_filterMap.2 ⟨e, he, by simpa [hasId] using hid⟩
  rw [ids_tree] at this
  obtain ⟨k', h2, h3⟩ := List.mem_map.1 this
  rw [← Key.str_injective h3]
  exact h2

theorem button_not {b : Nat} (hb : n ≤ b) : Key.buttonBackground b ∉ treeKeys n h c := by
  intro hk
  simp only [treeKeys, playerKeys, commitKeys, communityKeys, List.mem_append, List.mem_flatMap, List.mem_cons, List.mem_range,
    List.not_mem_nil, or_false] at hk
  simp at hk
  omega

/-- the changes before the script ends with an error -/
def lostW (n h c : Nat) (m : Message) : List Write := resetW n h c ++ (updatePlayersW m ++ updateCommunityW m)

theorem script_lost (hm : ArrayMessage n h c d m) (hp : d.holeCards ≠ []) (hb : n ≤ d.button) (p : Page) :
    onConfig (document (pokerTree ps cs n h c)) (some m) p = .error .typeError (applyW (lostW n h c m) p) := by
  have e3 := (array_message hm.sent).2.2.1
  have h2 : 2 ≤ d.cfg.numPlayers := (array_seated hm.reachable).two
  have fit := array_fits hm hp (b := 0) (a := none) (by rw [hm.players]; omega) (fun _ hx => by cases hx)
  have d1 : Does (updatePlayers (document (pokerTree ps cs n h c)) m) (updatePlayersW m) :=
    does_updatePlayers (m := { m with button := 0, action := none }) fit
  have d2 : Does (updateCommunity (document (pokerTree ps cs n h c)) m) (updateCommunityW m) :=
    does_updateCommunity (m := { m with button := 0, action := none }) fit
  have key : ∀ {x : Js Unit} {ws : List Write} {y : Js Unit} (_ : Does x ws) {p : Page} {q : Page}
      (_ : y (applyW ws p) = .error .typeError q), (x >>= fun _ => y) p = .error .typeError q := by
    intro x ws y hx p q hy
    show EStateM.bind x (fun _ => y) p = _
    unfold EStateM.bind
    rw [hx p]
    exact hy
  have happ : applyW (lostW n h c m) p = applyW (updateCommunityW m) (applyW (updatePlayersW m) (applyW (resetButtonW n)
      (applyW (resetCommunityW c) (applyW (resetPlayerW n h) p)))) := by
    simp only [lostW, resetW, applyW, List.foldl_append]
  rw [happ]
  unfold onConfig
  refine key does_resetPlayer (key does_resetCommunity (key does_resetButton ?_))
  refine key d1 (key d2 ?_)
  have hn : (document (pokerTree ps cs n h c)).byId ("button-background-".toList ++ decimal m.button) = none := by
    have := byId_none (ps := ps) (cs := cs) (n := n) (h := h) (c := c) (button_not (h := h) (c := c) hb)
    rw [e3]
    exact this
  unfold updateButton
  rw [hn]
  rfl

theorem eff_lost (hb : n ≤ m.button) {k : Key} (hk : k ∈ treeKeys n h c) (l : Looks) :
    eff (lostW n h c m) k l = eff (resetW n h c ++ updateW { m with action := none }) k l := by
  have hne : k ≠ .buttonBackground m.button := fun e => button_not (h := h) (c := c) hb (e ▸ hk)
  rw [show resetW n h c ++ updateW { m with action := none } = lostW n h c m ++ [wFill "url(#dealer)" (.buttonBackground m.button)] by
    unfold lostW updateW
    simp only [List.append_assoc]
    rfl, eff_append, eff_skip (ws := [_])]
  intro w hw
  rw [List.mem_singleton.1 hw]
  exact fun e => hne e.symm

/-! ## C88 -/

/-- **C88** (part: as long as the button has not passed the last seat): whatever the page looked like before, after a message of the array
engine the script has run without error and the page shows the table. -/
theorem C88_shows_partial (hs : svgPoker ps cs n h c = .ok svg) (hm : ArrayMessage n h c d m) (hp : d.holeCards ≠ []) (hb : d.button < n)
    (p : Page) : ∃ p', onConfig (document svg) (some m) p = .ok () p' ∧ ShowsTable n h c d p' := by
  rw [svgPoker_eq] at hs
  obtain rfl := Except.ok.inj hs
  obtain ⟨e1, -, e3, -⟩ := array_message hm.sent
  have fit := array_fits hm hp (b := d.button) (a := d.action) hb
    (fun x hx => by rw [hm.players]; exact (array_seated hm.reachable).action x hx)
  have em : ({ m with button := d.button, action := d.action } : Message) = m := by rw [← e3, ← e1]
  rw [em] at fit
  have sh := array_shows hm hp d.action p
  have em2 : ({ m with action := d.action } : Message) = m := by rw [← e1]
  rw [em2] at sh
  exact ⟨_, does_some fit p, sh⟩

/-- **C88 is false** from then on: for every table whose button has passed the last seat the script ends with an error, and the page shows
the chips and cards, but neither the button nor whose turn it is. -/
theorem C88_lost (hs : svgPoker ps cs n h c = .ok svg) (hm : ArrayMessage n h c d m) (hp : d.holeCards ≠ []) (hb : n ≤ d.button)
    (p : Page) : ∃ p', onConfig (document svg) (some m) p = .error .typeError p' ∧ ShowsTable n h c { d with action := none } p' ∧
      (∀ i < n, (p' ("button-background-".toList ++ decimal i)).fill = some "transparent") ∧
      ∀ i < n, (p' ("player-background-".toList ++ decimal i)).fill = some "#ffffff" := by
  rw [svgPoker_eq] at hs
  obtain rfl := Except.ok.inj hs
  have e3 := (array_message hm.sent).2.2.1
  have sh := array_shows hm hp none p
  have same : ∀ k ∈ treeKeys n h c, applyW (lostW n h c m) p k.str = applyW (resetW n h c ++ updateW { m with action := none }) p k.str := by
    intro k hk
    rw [applyW_key, applyW_key, eff_lost (by rw [e3]; exact hb) hk]
  have sh' : ShowsTable n h c { d with action := none } (applyW (lostW n h c m) p) := by
    refine ⟨?_, ?_, ?_, ?_, ?_, ?_, ?_, ?_⟩
    · intro i hi
      have := sh.stack i hi
      rwa [show "chips-text-".toList ++ decimal i = (Key.chipsText i).str from rfl,
        ← same _ (key_player (h := h) (c := c) hi (by simp [playerKeys]))] at this
    · intro i hi
      have := sh.bet i hi
      rwa [show "street-commit-text-".toList ++ decimal i = (Key.commitText i).str from rfl,
        ← same _ (key_commit (h := h) (c := c) hi (by simp [commitKeys]))] at this
    · have := sh.pot
      rwa [show "pot-text".toList = Key.potText.str from rfl, ← same _ (key_community (by simp [communityKeys]))] at this
    · intro i hi
      have := sh.button i hi
      rwa [show "button-background-".toList ++ decimal i = (Key.buttonBackground i).str from rfl,
        ← same _ (key_commit (h := h) (c := c) hi (by simp [commitKeys]))] at this
    · intro i hi
      have := sh.action i hi
      rwa [show "player-background-".toList ++ decimal i = (Key.background i).str from rfl,
        ← same _ (key_player (h := h) (c := c) hi (by simp [playerKeys]))] at this
    · intro j hj
      have := sh.board j hj
      rwa [show "card-background-community-".toList ++ decimal (j + 1) = (Key.communityCardBackground (j + 1)).str from rfl,
        show "card-text-community-".toList ++ decimal (j + 1) = (Key.communityCardText (j + 1)).str from rfl,
        ← same _ (key_community (by simp [communityKeys]; omega)), ← same _ (key_community (by simp [communityKeys]; omega))] at this
    · have := sh.deck
      rwa [show "card-background-community-0".toList = (Key.communityCardBackground 0).str from rfl,
        ← same _ (key_community (by simp [communityKeys]))] at this
    · intro i hi j hj
      have := sh.hole i hi j hj
      have k1 : "card-background-".toList ++ decimal i ++ "-".toList ++ decimal j = (Key.cardBackground i j).str := by
        show _ = "card-background-".toList ++ (decimal i ++ ("-".toList ++ decimal j))
        simp only [List.append_assoc]
      have k2 : "card-text-".toList ++ decimal i ++ "-".toList ++ decimal j = (Key.cardText i j).str := by
        show _ = "card-text-".toList ++ (decimal i ++ ("-".toList ++ decimal j))
        simp only [List.append_assoc]
      rw [k1, k2] at this ⊢
      rwa [← same _ (key_player (h := h) (c := c) hi (by simp [playerKeys]; exact hj)),
        ← same _ (key_player (h := h) (c := c) hi (by simp [playerKeys]; exact hj))] at this
  refine ⟨_, script_lost hm hp hb p, sh', fun i hi => ?_, fun i hi => ?_⟩
  · rw [sh'.button i hi]
    show some (if i = d.button then _ else _) = _
    rw [if_neg (by omega)]
  · rw [sh'.action i hi]
    rfl

theorem message_exists {n h c : Nat} {Q : Dealer → Prop} (hx : ∃ S d, ArrayInHand S d ∧ ArrayReachable d ∧
    (match «show» d .graphic with | .ok (.sent _) => true | _ => false) = true ∧ Enough d.cfg ∧ (∀ k ∈ d.cfg.numCommunityCards, 0 ≤ k) ∧
      n = d.cfg.numPlayers ∧ h = d.cfg.numHoleCards.toNat ∧ (c : Int) = d.cfg.numCommunityCards.sum ∧ Q d) :
    ∃ d m, ArrayMessage n h c d m ∧ Q d := by
  obtain ⟨S, d, -, h2, h3, h4, h5, h6, h7, h8, h9⟩ := hx
  cases hw : «show» d .graphic with
  | error e => rw [hw] at h3; simp at h3
  | ok x =>
    cases x with
    | printed s => rw [hw] at h3; simp at h3
    | sent m => exact ⟨d, m, ⟨h2, h4, h5, h6, h7, h8, hw⟩, h9⟩

/-- a hand with a folded player, on the second street -/
example : ∃ d m, ArrayMessage 3 1 2 d m ∧ d.holeCards ≠ [] ∧ d.communityCards.length = 2 ∧ d.active = [true, true, false] ∧ d.button < 3 :=
  message_exists (hand_exists (board 3 [1, 2, 0] 10) [.bet 2, .bet 1, .bet 0, .bet 2, .bet (-1)] (by decide +kernel))

/-- the third hand at a table of two: the button is at seat 2, and player 1 is to act -/
example : ∃ d m, ArrayMessage 2 1 0 d m ∧ d.holeCards ≠ [] ∧ 2 ≤ d.button ∧ d.action.isSome = true :=
  message_exists (hand_exists (small 2 [1, 2] 20) [.bet (-1), .deal, .bet (-1), .deal] (by decide +kernel))

end Clubs.Numpy

import Verif.Lemmas.Page3
import Verif.Props.Render

/-!
# C67: the page in the browser shows the table
-/

namespace Clubs

open Svg Spec

variable {ps cs : Nat → ℤ × ℤ} {n h c : Nat} {svg : Svg} {d : Dealer} {m : Message}

/-! ## the message of a table -/

/-- no hands before the first deal -/
theorem message_hands (hs : d.show .graphic = .ok (.sent m)) :
    m.holeCards.hands = d.holeCards.map fun hand => hand.map fun c => chars c.str := by
  unfold Dealer.show Dealer.renderConfig at hs
  cases hpay : d.payouts with
  | error e => rw [hpay] at hs; simp at hs
  | ok p =>
    rw [hpay] at hs
    simp only [Except.ok.injEq, Shown.sent.injEq] at hs
    subst hs
    show (convertHands (d.holeCards.map .hand)).hands = _
    by_cases hp : d.holeCards = []
    · rw [hp]; rfl
    · rw [convert_hands _ hp]
      show List.map _ (List.map _ _) = _
      rw [List.map_map]
      refine List.map_congr_left fun hand _ => ?_
      show List.map _ (List.map _ _) = _
      rw [List.map_map]
      rfl

theorem message_fields (hs : d.show .graphic = .ok (.sent m)) :
    m.action = d.action ∧ m.active = d.active ∧ m.button = d.button ∧ m.pot = d.pot ∧ m.stacks = d.stacks ∧
    m.streetCommits = d.streetCommits ∧ m.communityCards.cards = d.communityCards.map fun c => chars c.str := by
  unfold Dealer.show Dealer.renderConfig at hs
  cases hpay : d.payouts with
  | error e => rw [hpay] at hs; simp at hs
  | ok p =>
    rw [hpay] at hs
    simp only [Except.ok.injEq, Shown.sent.injEq] at hs
    subst hs
    refine ⟨rfl, rfl, rfl, rfl, rfl, rfl, ?_⟩
    show (convertHands (d.communityCards.map .card)).cards = _
    rw [convert_cards]
    show List.map _ (List.map _ _) = _
    rw [List.map_map]
    rfl

theorem sum_toNat {l : List Int} (h : ∀ k ∈ l, 0 ≤ k) : ((l.map Int.toNat).sum : Int) = l.sum := by
  induction l with
  | nil => rfl
  | cons a l ih =>
    have := h a (by simp)
    rw [List.map_cons, List.sum_cons, List.sum_cons, Nat.cast_add, ih fun k hk => h k (by simp [hk])]
    omega

theorem fits_message (hm : IsMessage n h c d m) : MsgFits n h c m := by
  have hseat := reachable_seated hm.reachable
  obtain ⟨e1, e2, e3, e4, e5, e6, e7⟩ := message_fields hm.sent
  have e8 := message_hands hm.sent
  have hc : c = (d.cfg.numCommunityCards.map Int.toNat).sum := by
    have := sum_toNat hm.community
    have := hm.board
    omega
  have he : d.holeCards = [] ∧ d.communityCards = [] ∨ d.holeCards ≠ [] := by
    rcases (reachable_dealt hm.reachable).shape with ⟨h1, h2, -⟩ | ⟨h1, -⟩
    · exact .inl ⟨h1, h2⟩
    · right
      intro e
      rw [e] at h1
      have := hseat.two
      simp at h1
      omega
  refine ⟨?_, ?_, ?_, ?_, ?_⟩
  · rw [e8, List.length_map]
    rcases he with he | he
    · simp [he.1]
    · rw [(C39_hole hm.reachable (.inr he) hm.enough).1, hm.players]
  · rw [e8]
    intro hand hh
    obtain ⟨x, hx, rfl⟩ := List.mem_map.1 hh
    rw [List.length_map, (C39_hole hm.reachable (.inr (List.ne_nil_of_mem hx)) hm.enough).2 x hx, hm.hole]
  · rw [e7, List.length_map, hc]
    rcases he with he | he
    · simp [he.2]
    · rw [C40_size hm.reachable (.inr he) hm.enough]
      exact boardSize_le _ _
  · rw [e3, hm.players]; exact hseat.button
  · rw [e1, hm.players]; exact hseat.action

theorem suit_real (hd : Reachable d) {x : Card} (hx : x ∈ allCards d) : x.suit ∈ ['♣', '♠', '♥', '♦'] := by
  obtain ⟨k, u, -, -, hn⟩ := ((C39_cards hd).2.2 x).1 hx
  obtain ⟨r, -, u, hu, rfl⟩ := card_of_new hn
  have : ∀ u < 4, suitSymbol u ∈ ['♣', '♠', '♥', '♦'] := by decide
  exact this u hu

theorem hole_real (hd : Reachable d) {x : Card} {hand : List Card} (hh : hand ∈ d.holeCards) (hx : x ∈ hand) :
    x.suit ∈ ['♣', '♠', '♥', '♦'] := by
  refine suit_real hd ?_
  unfold allCards
  simp only [List.mem_append, List.mem_flatten]
  exact .inl (.inl ⟨hand, hh, hx⟩)

theorem board_real (hd : Reachable d) {x : Card} (hx : x ∈ d.communityCards) : x.suit ∈ ['♣', '♠', '♥', '♦'] := by
  refine suit_real hd ?_
  unfold allCards
  simp only [List.mem_append, List.mem_flatten]
  exact .inl (.inr hx)

/-- the card in the message at a place for a hole card -/
theorem holeOf_eq (hm : d.show .graphic = .ok (.sent m)) (i j : Nat) :
    holeOf m i j = (if isIn d i then (d.holeCards.getD i [])[j]? else none).map fun c => chars c.str := by
  unfold holeOf
  obtain ⟨-, e2, -⟩ := message_fields hm
  rw [e2, message_hands hm]
  have : d.active[i]? = some true ↔ isIn d i := by
    unfold isIn
    rw [List.getD_eq_getElem?_getD]
    cases d.active[i]? <;> simp
  simp only [this]
  split_ifs
  · simp only [List.getD_eq_getElem?_getD, List.getElem?_map]
    cases d.holeCards[i]? <;> simp
  · rfl

theorem cardEff_shows {kb kt : Key} (hk : kb ≠ kt) {x : Option Card} (hx : ∀ y, x = some y → y.suit ∈ ['♣', '♠', '♥', '♦'])
    (empty : String) (l l' : Looks) :
    ShowsCard empty x (cardEff kb kt kb (x.map fun c => chars c.str) { l with fill := some empty })
      (cardEff kb kt kt (x.map fun c => chars c.str) { l' with text := [] }) := by
  cases x with
  | none => exact ⟨rfl, rfl⟩
  | some y =>
    have h1 := (cardW_real hk y (hx y rfl) { l with fill := some empty }).1
    have h2 := (cardW_real hk y (hx y rfl) { l' with text := [] }).2
    show _ = _ ∧ _ = _ ∧ _ = _ ∧ _ = _
    simp only [cardEff, Option.map_some, h1, h2]
    trivial

theorem shown_hole (hm : IsMessage n h c d m) (i j : Nat) (y : Card)
    (hy : (if isIn d i then (d.holeCards.getD i [])[j]? else none) = some y) : y.suit ∈ ['♣', '♠', '♥', '♦'] := by
  split_ifs at hy
  have hy := List.mem_of_getElem? hy
  by_cases hi : i < d.holeCards.length
  · rw [getD_get hi] at hy
    exact hole_real hm.reachable (List.getElem_mem hi) hy
  · simp [List.getElem?_eq_none (Nat.le_of_not_lt hi)] at hy

/-- the page after a message -/
theorem shows_deliver (hm : IsMessage n h c d m) (hp : d.holeCards ≠ []) (p : Page) :
    ShowsTable n h c d (applyW (resetW n h c ++ updateW m) p) := by
  have hseat := reachable_seated hm.reachable
  obtain ⟨e1, e2, e3, e4, e5, e6, e7⟩ := message_fields hm.sent
  have e8 : m.holeCards.hands.length = n := by
    rw [message_hands hm.sent, List.length_map]
    exact (C39_hole hm.reachable (.inr hp) hm.enough).1.trans hm.players.symm
  have num : ∀ {l : List Int} {i : Nat}, i < l.length → numText l[i]? = intStr (l.getD i 0) := by
    intro l i hi
    rw [List.getD_eq_getElem?_getD, List.getElem?_eq_getElem hi]
    rfl
  refine ⟨?_, ?_, ?_, ?_, ?_, ?_, ?_, ?_⟩
  · intro i hi
    show (applyW _ p (Key.chipsText i).str).text = _
    rw [applyW_key, final_stack m (by omega) hi, e5, num (by rw [hseat.stacks, ← hm.players]; exact hi)]
    rfl
  · intro i hi
    show (applyW _ p (Key.commitText i).str).text = _
    rw [applyW_key, final_bet m (by omega), e6, num (by rw [hseat.streetCommits, ← hm.players]; exact hi)]
    rfl
  · show (applyW _ p Key.potText.str).text = _
    rw [applyW_key, final_pot, e4]
  · intro i hi
    show (applyW _ p (Key.buttonBackground i).str).fill = _
    rw [applyW_key, final_button m hi, e3]
  · intro i hi
    show (applyW _ p (Key.background i).str).fill = _
    rw [applyW_key, final_action m hi, e1]
  · intro j hj
    show ShowsCard _ _ (applyW _ p (Key.communityCardBackground (j + 1)).str) (applyW _ p (Key.communityCardText (j + 1)).str)
    rw [applyW_key, applyW_key, (final_board m hj _).1, (final_board m hj _).2, e7, List.getElem?_map]
    exact cardEff_shows (by simp) (fun y hy => board_real hm.reachable (List.mem_of_getElem? hy)) _ _ _
  · show (applyW _ p (Key.communityCardBackground 0).str).fill = _
    rw [applyW_key, (final_deck m _).1]
  · intro i hi j hj
    have k1 : "card-background-".toList ++ decimal i ++ "-".toList ++ decimal j = (Key.cardBackground i j).str := by
      show _ = "card-background-".toList ++ (decimal i ++ ("-".toList ++ decimal j))
      simp only [List.append_assoc]
    have k2 : "card-text-".toList ++ decimal i ++ "-".toList ++ decimal j = (Key.cardText i j).str := by
      show _ = "card-text-".toList ++ (decimal i ++ ("-".toList ++ decimal j))
      simp only [List.append_assoc]
    rw [k1, k2, applyW_key, applyW_key, (final_hole m hi hj _).1, (final_hole m hi hj _).2, holeOf_eq hm.sent]
    exact cardEff_shows (by simp) (shown_hole hm i j) _ _ _

/-! ## C67 -/

/-- **C67**: whatever the page looked like before, after a message the script has run without error and the page shows the
table: every stack, bet and the pot, the button, whose turn it is, the community cards and the hole cards of the players who
have not folded, and nothing in the other places for cards. -/
theorem C67_shows (hs : svgPoker ps cs n h c = .ok svg) (hm : IsMessage n h c d m) (hp : d.holeCards ≠ []) (p : Page) :
    ∃ p', onConfig (document svg) (some m) p = .ok () p' ∧ ShowsTable n h c d p' := by
  rw [svgPoker_eq] at hs
  obtain rfl := Except.ok.inj hs
  exact ⟨_, does_some (fits_message hm) p, shows_deliver hm hp p⟩

/-! ## what the page showed before does not matter -/

theorem touched {k : Key} (hk : k ∈ treeKeys n h c) (hz : k.kind ≠ 0) :
    (∃ i < n, k = .chipsText i) ∨ (∃ i < n, ∃ j < h, k = .cardBackground i j) ∨ (∃ i < n, ∃ j < h, k = .cardText i j) ∨
    (∃ i < n, k = .background i) ∨ k = .communityCardBackground 0 ∨ (∃ j < c, k = .communityCardBackground (j + 1)) ∨
    k = .communityCardText 0 ∨ (∃ j < c, k = .communityCardText (j + 1)) ∨ k = .potText ∨
    (∃ i < n, k = .buttonBackground i) ∨ (∃ i < n, k = .commitText i) := by
  simp only [treeKeys, playerKeys, commitKeys, communityKeys, List.mem_append, List.mem_flatMap, List.mem_cons, List.mem_range,
    List.not_mem_nil, or_false] at hk
  cases k <;> simp [Key.kind] at hz hk ⊢
  all_goals first
    | exact hk
    | (rename_i j
       rcases j with _ | j
       · exact .inl rfl
       · exact .inr ⟨j, by omega, rfl⟩)

/-- the script never changes anything else -/
theorem same_deliver (hm : IsMessage n h c d m) (hp : d.holeCards ≠ []) {p0 p q : Page} (h1 : Frame n h c p0 p)
    (h2 : Frame n h c p0 q) :
    LooksSame (applyW (resetW n h c ++ updateW m) p) (applyW (resetW n h c ++ updateW m) q) := by
  intro s
  have fit := fits_message hm
  have pr : ∀ w ∈ resetW n h c ++ updateW m, Proper n h c w := by
    intro w hw
    rcases List.mem_append.1 hw with hw | hw
    · exact proper_reset w hw
    · exact proper_update fit w hw
  by_cases hs : ∃ k ∈ treeKeys n h c, k.kind ≠ 0 ∧ k.str = s
  · obtain ⟨k, hk, hz, rfl⟩ := hs
    have g1 := h1.1 k hk hz
    have g2 := h2.1 k hk hz
    have e8 : m.holeCards.hands.length = n := by
      rw [message_hands hm.sent, List.length_map]
      exact (C39_hole hm.reachable (.inr hp) hm.enough).1.trans hm.players.symm
    rw [applyW_key, applyW_key]
    generalize hl : p k.str = l at g1 ⊢
    generalize hl' : q k.str = l' at g2 ⊢
    have pre : ∀ i j, "card-text-".toList <+: (Key.cardText i j).str := fun i j => ⟨decimal i ++ ("-".toList ++ decimal j), rfl⟩
    have pre' : ∀ j, "card-text-".toList <+: (Key.communityCardText j).str := fun j => ⟨"community-".toList ++ decimal j, rfl⟩
    have back : ∀ (kb kt : Key) (hkk : kb ≠ kt) (x : Option Card) (_ : ∀ y, x = some y → y.suit ∈ ['♣', '♠', '♥', '♦']) (v : String),
        l.text = l'.text → l.stroke = l'.stroke →
        cardEff kb kt kb (x.map fun c => chars c.str) { l with fill := some v } =
        cardEff kb kt kb (x.map fun c => chars c.str) { l' with fill := some v } := by
      intro kb kt hkk x hx v t1 t2
      rw [t1, t2]
    have face : ∀ (kb kt : Key) (hkk : kb ≠ kt) (x : Option Card) (_ : ∀ y, x = some y → y.suit ∈ ['♣', '♠', '♥', '♦']),
        cardEff kb kt kt (x.map fun c => chars c.str) { l with text := [] } =
        cardEff kb kt kt (x.map fun c => chars c.str) { l' with text := [] } ∨
        (cardEff kb kt kt (x.map fun c => chars c.str) { l with text := [] }).text = [] ∧
        (cardEff kb kt kt (x.map fun c => chars c.str) { l' with text := [] }).text = [] := by
      intro kb kt hkk x hx
      cases x with
      | none => exact .inr ⟨rfl, rfl⟩
      | some y =>
        left
        simp only [Option.map_some, cardEff]
        rw [(cardW_real hkk y (hx y rfl) _).2, (cardW_real hkk y (hx y rfl) _).2]
    rcases touched hk hz with ⟨i, hi, rfl⟩ | ⟨i, hi, j, hj, rfl⟩ | ⟨i, hi, j, hj, rfl⟩ | ⟨i, hi, rfl⟩ | rfl | ⟨j, hj, rfl⟩ | rfl |
      ⟨j, hj, rfl⟩ | rfl | ⟨i, hi, rfl⟩ | ⟨i, hi, rfl⟩
    · rw [final_stack m (by omega) hi, final_stack m (by omega) hi]
      exact ⟨rfl, .inl ⟨g1.1.symm.trans g2.1, g1.2.symm.trans g2.2⟩⟩
    · rw [(final_hole m hi hj _).1, (final_hole m hi hj _).1, holeOf_eq hm.sent,
        back _ _ (by simp) _ (shown_hole hm i j) _ (g1.1.symm.trans g2.1) (g1.2.symm.trans g2.2)]
      exact ⟨rfl, .inl ⟨rfl, rfl⟩⟩
    · rw [(final_hole m hi hj _).2, (final_hole m hi hj _).2, holeOf_eq hm.sent]
      rcases face (.cardBackground i j) (.cardText i j) (by simp) _ (shown_hole hm i j) with e | ⟨e1, e2⟩
      · rw [e]; exact ⟨rfl, .inl ⟨rfl, rfl⟩⟩
      · exact ⟨e1.trans e2.symm, .inr ⟨pre i j, e1⟩⟩
    · rw [final_action m hi, final_action m hi]
      exact ⟨g1.1.symm.trans g2.1, .inl ⟨rfl, g1.2.symm.trans g2.2⟩⟩
    · rw [(final_deck m _).1, (final_deck m _).1]
      exact ⟨g1.1.symm.trans g2.1, .inl ⟨rfl, g1.2.symm.trans g2.2⟩⟩
    · rw [(final_board m hj _).1, (final_board m hj _).1, (message_fields hm.sent).2.2.2.2.2.2, List.getElem?_map,
        back _ _ (by simp) _ (fun y hy => board_real hm.reachable (List.mem_of_getElem? hy)) _ (g1.1.symm.trans g2.1)
          (g1.2.symm.trans g2.2)]
      exact ⟨rfl, .inl ⟨rfl, rfl⟩⟩
    · rw [(final_deck m _).2, (final_deck m _).2]
      exact ⟨g1.1.symm.trans g2.1, .inl ⟨rfl, g1.2.symm.trans g2.2⟩⟩
    · rw [(final_board m hj _).2, (final_board m hj _).2, (message_fields hm.sent).2.2.2.2.2.2, List.getElem?_map]
      rcases face (.communityCardBackground (j + 1)) (.communityCardText (j + 1)) (by simp) _
        (fun y hy => board_real hm.reachable (List.mem_of_getElem? hy)) with e | ⟨e1, e2⟩
      · rw [e]; exact ⟨rfl, .inl ⟨rfl, rfl⟩⟩
      · exact ⟨e1.trans e2.symm, .inr ⟨pre' _, e1⟩⟩
    · rw [final_pot, final_pot]
      exact ⟨rfl, .inl ⟨g1.1.symm.trans g2.1, g1.2.symm.trans g2.2⟩⟩
    · rw [final_button m hi, final_button m hi]
      exact ⟨g1.1.symm.trans g2.1, .inl ⟨rfl, g1.2.symm.trans g2.2⟩⟩
    · rw [final_bet m (by omega), final_bet m (by omega)]
      exact ⟨rfl, .inl ⟨g1.1.symm.trans g2.1, g1.2.symm.trans g2.2⟩⟩
  · have hs' : ∀ k ∈ treeKeys n h c, k.kind ≠ 0 → k.str ≠ s := fun k h1 h2 h3 => hs ⟨k, h1, h2, h3⟩
    rw [← (applyW_frame pr p).2 s hs', ← (applyW_frame pr q).2 s hs', ← h1.2 s hs', ← h2.2 s hs']
    exact ⟨rfl, .inl ⟨rfl, rfl⟩⟩

/-- a message that may reach the page: an empty configuration or one of a table of this size -/
def MayReach (n h c : Nat) (x : Option Message) : Prop := ∀ m, x = some m → ∃ d, IsMessage n h c d m

theorem frame_deliver {x : Option Message} (hx : MayReach n h c x) (p : Page) :
    Frame n h c p (deliver (document (pokerTree ps cs n h c)) x p) := by
  cases x with
  | none => exact frame_none p
  | some m =>
    obtain ⟨d, hd⟩ := hx m rfl
    exact frame_some (fits_message hd) p

/-- **C67**: nothing of earlier tables is left on the page: two pages that were loaded alike and then received any messages,
the last one the same, look the same. -/
theorem C67_last (hs : svgPoker ps cs n h c = .ok svg) (hm : IsMessage n h c d m) (hp : d.holeCards ≠ []) (p0 : Page)
    (xs ys : List (Option Message)) (hx : ∀ x ∈ xs, MayReach n h c x) (hy : ∀ y ∈ ys, MayReach n h c y) :
    LooksSame (deliver (document svg) (some m) (xs.foldl (fun p x => deliver (document svg) x p) p0))
      (deliver (document svg) (some m) (ys.foldl (fun p x => deliver (document svg) x p) p0)) := by
  rw [svgPoker_eq] at hs
  obtain rfl := Except.ok.inj hs
  have fr : ∀ (xs : List (Option Message)) (p : Page), (∀ x ∈ xs, MayReach n h c x) →
      Frame n h c p (xs.foldl (fun p x => deliver (document (pokerTree ps cs n h c)) x p) p) := by
    intro xs
    induction xs with
    | nil => exact fun p _ => Frame.refl p
    | cons x xs ih =>
      exact fun p hx => (frame_deliver (hx x (by simp)) p).trans (ih _ fun y hy => hx y (by simp [hy]))
  rw [deliver_some (fits_message hm), deliver_some (fits_message hm)]
  exact same_deliver hm hp (fr xs p0 hx) (fr ys p0 hy)

/-! ## the cards of folded players -/

theorem forM_zipIdx_congr {α : Type} (f : α × Nat → Js Unit) : ∀ (l l' : List α) (k : Nat), l.length = l'.length →
    (∀ i (h : i < l.length) (h' : i < l'.length), f (l[i], k + i) = f (l'[i], k + i)) →
    (l.zipIdx k).forM f = (l'.zipIdx k).forM f
  | [], [], _, _, _ => rfl
  | a :: l, b :: l', k, hl, h => by
    have h0 : f (a, k) = f (b, k) := h 0 (by simp) (by simp)
    have h1 := forM_zipIdx_congr f l l' (k + 1) (by simpa using hl) fun i hi hi' => by
        have := h (i + 1) (by simp; omega) (by simp; omega)
        simp only [List.getElem_cons_succ] at this
        rw [Nat.add_right_comm, Nat.add_assoc]
        exact this
    show (f (a, k) >>= fun _ => (l.zipIdx (k + 1)).forM f) = (f (b, k) >>= fun _ => (l'.zipIdx (k + 1)).forM f)
    rw [h0, h1]

/-- **C67**: the page does not depend on the cards of players who have folded (although the message holds them, C64): with
other cards for them, the script does the same, on any page. -/
theorem C67_folded (doc : Svg) (d : Dealer) (H : List (List Card)) (m m' : Message)
    (h1 : d.show .graphic = .ok (.sent m)) (h2 : { d with holeCards := H }.show .graphic = .ok (.sent m'))
    (hl : H.length = d.holeCards.length) (ha : ∀ i, isIn d i → H[i]? = d.holeCards[i]?) :
    onConfig doc (some m) = onConfig doc (some m') := by
  obtain ⟨a1, a2, a3, a4, a5, a6, a7⟩ := message_fields h1
  obtain ⟨b1, b2, b3, b4, b5, b6, b7⟩ := message_fields h2
  have a8 := message_hands h1
  have b8 := message_hands h2
  have e1 : updatePlayers doc m = updatePlayers doc m' := by
    unfold updatePlayers
    rw [a2, b2, a5, b5, a6, b6]
    refine forM_zipIdx_congr _ _ _ 0 (by rw [a8, b8]; simp [hl]) fun i hi hi' => ?_
    by_cases hact : d.active[0 + i]? = some true
    · have e := ha i (by rw [Nat.zero_add] at hact; unfold isIn; rw [List.getD_eq_getElem?_getD, hact]; rfl)
      have e' : m.holeCards.hands[i]? = m'.holeCards.hands[i]? := by
        rw [a8, b8]
        show (List.map _ d.holeCards)[i]? = (List.map _ H)[i]?
        rw [List.getElem?_map, List.getElem?_map, e]
      rw [List.getElem?_eq_getElem hi, List.getElem?_eq_getElem hi'] at e'
      rw [Option.some.inj e']
    · simp only [hact, if_false]
  have e2 : updateCommunity doc m = updateCommunity doc m' := by
    unfold updateCommunity
    rw [a7, b7, a4, b4]
  have e3 : updateButton doc m = updateButton doc m' := by
    unfold updateButton
    rw [a3, b3]
  have e4 : updateAction doc m = updateAction doc m' := by
    unfold updateAction
    rw [a1, b1]
  simp only [onConfig, e1, e2, e3, e4]

/-! ## the server -/

/-- **C67**: all pages that are open, whenever they connected, show the last table that `render` was called for. -/
theorem C67_server (hs : svgPoker ps cs n h c = .ok svg) (hm : IsMessage n h c d m) (hp : d.holeCards ≠ [])
    (es es' : List ServerEvent) (he : ∀ e ∈ es', ∃ p, e = .connect p) :
    ∀ p ∈ (Server.run svg (es ++ .message m :: es')).pages, ShowsTable n h c d p := by
  have show1 : ∀ p, ShowsTable n h c d (deliver (document svg) (some m) p) := by
    rw [svgPoker_eq] at hs
    obtain rfl := Except.ok.inj hs
    intro p
    rw [deliver_some (fits_message hm)]
    exact shows_deliver hm hp p
  unfold Server.run
  rw [List.foldl_append, List.foldl_cons]
  generalize List.foldl (Server.step svg) ⟨none, []⟩ es = s0
  have inv : ∀ (es' : List ServerEvent) (s : Server), (∀ e ∈ es', ∃ p, e = .connect p) → s.config = some m →
      (∀ p ∈ s.pages, ShowsTable n h c d p) → ∀ p ∈ (es'.foldl (Server.step svg) s).pages, ShowsTable n h c d p := by
    intro es'
    induction es' with
    | nil => exact fun s _ _ hp => hp
    | cons e es' ih =>
      intro s he hc hp
      obtain ⟨q, rfl⟩ := he e (by simp)
      refine ih (s.step svg (.connect q)) (fun e h => he e (by simp [h])) hc fun p hp => ?_
      obtain ⟨p, -, rfl⟩ := List.mem_map.1 (show p ∈ List.map _ _ from hp)
      rw [hc]
      exact show1 p
  refine inv es' _ he rfl fun p hp => ?_
  obtain ⟨p, -, rfl⟩ := List.mem_map.1 (show p ∈ List.map _ _ from hp)
  exact show1 p

/-- there are as many pages as have connected -/
theorem C67_pages (es : List ServerEvent) : (Server.run svg es).pages.length =
    (es.filter fun e => match e with | .connect _ => true | .message _ => false).length := by
  unfold Server.run
  have : ∀ (es : List ServerEvent) (s : Server), (es.foldl (Server.step svg) s).pages.length = s.pages.length +
      (es.filter fun e => match e with | .connect _ => true | .message _ => false).length := by
    intro es
    induction es with
    | nil => exact fun s => rfl
    | cons e es ih =>
      intro s
      rw [List.foldl_cons, ih]
      cases e with
      | connect p => simp [Server.step]; omega
      | message m => simp [Server.step]
  simpa using this es ⟨none, []⟩

/-- **C67**: if all pages were loaded alike, they look the same after the first table was shown. -/
theorem C67_pages_same (hs : svgPoker ps cs n h c = .ok svg) (hm : IsMessage n h c d m) (hp : d.holeCards ≠ []) (p0 : Page)
    (es es' : List ServerEvent) (he : ∀ e ∈ es', ∃ p, e = .connect p)
    (h0 : ∀ e ∈ es ++ es', ∀ p, e = .connect p → p = p0) (h1 : ∀ e ∈ es, ∀ x, e = .message x → ∃ d, IsMessage n h c d x) :
    ∀ p ∈ (Server.run svg (es ++ .message m :: es')).pages, ∀ q ∈ (Server.run svg (es ++ .message m :: es')).pages,
      LooksSame p q := by
  rw [svgPoker_eq] at hs
  obtain rfl := Except.ok.inj hs
  -- every page is a page before the last message, plus that message
  have inv1 : ∀ (es : List ServerEvent) (s : Server), (∀ e ∈ es, ∀ p, e = .connect p → p = p0) →
      (∀ e ∈ es, ∀ x, e = .message x → ∃ d, IsMessage n h c d x) → MayReach n h c s.config → (∀ p ∈ s.pages, Frame n h c p0 p) →
      ∀ p ∈ (es.foldl (Server.step (pokerTree ps cs n h c)) s).pages, Frame n h c p0 p := by
    intro es
    induction es with
    | nil => exact fun s _ _ _ hp => hp
    | cons e es ih =>
      intro s he hx hc hp
      cases e with
      | connect q =>
        refine ih _ (fun e h => he e (by simp [h])) (fun e h => hx e (by simp [h])) hc fun p h => ?_
        obtain ⟨p, hp', rfl⟩ := List.mem_map.1 (show p ∈ List.map _ _ from h)
        refine Frame.trans ?_ (frame_deliver hc p)
        rcases List.mem_append.1 hp' with hp' | hp'
        · exact hp p hp'
        · rw [List.mem_singleton.1 hp', he (.connect q) (by simp) q rfl]
          exact Frame.refl p0
      | message x =>
        have hr : MayReach n h c (some x) := fun y hy => by
          cases hy
          exact hx (.message x) (by simp) x rfl
        refine ih _ (fun e h => he e (by simp [h])) (fun e h => hx e (by simp [h])) hr fun p h => ?_
        obtain ⟨p, hp', rfl⟩ := List.mem_map.1 (show p ∈ List.map _ _ from h)
        exact (hp p hp').trans (frame_deliver hr p)
  have hmr : MayReach n h c (some m) := fun y hy => by
    cases hy
    exact ⟨d, hm⟩
  have inv2 : ∀ (es' : List ServerEvent) (s : Server), (∀ e ∈ es', ∃ p, e = .connect p) →
      (∀ e ∈ es', ∀ p, e = .connect p → p = p0) → s.config = some m →
      (∀ p ∈ s.pages, ∃ q, Frame n h c p0 q ∧ p = deliver (document (pokerTree ps cs n h c)) (some m) q) →
      ∀ p ∈ (es'.foldl (Server.step (pokerTree ps cs n h c)) s).pages,
        ∃ q, Frame n h c p0 q ∧ p = deliver (document (pokerTree ps cs n h c)) (some m) q := by
    intro es'
    induction es' with
    | nil => exact fun s _ _ _ hp => hp
    | cons e es' ih =>
      intro s he hx hc hp
      obtain ⟨q, rfl⟩ := he e (by simp)
      refine ih (s.step _ (.connect q)) (fun e h => he e (by simp [h])) (fun e h => hx e (by simp [h])) hc fun p h => ?_
      obtain ⟨p, hp', rfl⟩ := List.mem_map.1 (show p ∈ List.map _ _ from h)
      rw [hc]
      refine ⟨p, ?_, rfl⟩
      rcases List.mem_append.1 hp' with hp' | hp'
      · obtain ⟨r, hr, rfl⟩ := hp p hp'
        exact hr.trans (frame_deliver hmr r)
      · rw [List.mem_singleton.1 hp', hx (.connect q) (by simp) q rfl]
        exact Frame.refl p0
  have all : ∀ p ∈ (Server.run (pokerTree ps cs n h c) (es ++ .message m :: es')).pages,
      ∃ q, Frame n h c p0 q ∧ p = deliver (document (pokerTree ps cs n h c)) (some m) q := by
    unfold Server.run
    rw [List.foldl_append, List.foldl_cons]
    refine inv2 es' _ he (fun e h => h0 e (by simp [h])) rfl fun p h => ?_
    obtain ⟨p, hp', rfl⟩ := List.mem_map.1 (show p ∈ List.map _ _ from h)
    refine ⟨p, ?_, rfl⟩
    exact inv1 es ⟨none, []⟩ (fun e h => h0 e (by simp [h])) h1 (fun y hy => by cases hy) (by simp) p hp'
  intro p hp1 q hq1
  obtain ⟨p, f1, rfl⟩ := all p hp1
  obtain ⟨q, f2, rfl⟩ := all q hq1
  rw [deliver_some (fits_message hm), deliver_some (fits_message hm)]
  exact same_deliver hm hp f1 f2

/-! ## what the page does not show -/

/-- the text of a stack after the page was reset -/
theorem reset_stack {i : Nat} (hi : i < n) (l : Looks) : eff (resetPlayerW n h) (.chipsText i) l = { l with text := "0".toList } := by
  unfold resetPlayerW
  rw [eff_append, eff_flatMap _ List.nodup_range (List.mem_range.2 hi), eff_cons,
    eff_kind (K := [4]) (by
      intro w hw
      obtain ⟨j, -, rfl⟩ := List.mem_map.1 hw
      simp [Key.kind, wFill]) (by simp [Key.kind]),
    eff_kind (K := [2, 3]) (by
      intro w hw
      simp only [List.mem_append, List.mem_map] at hw
      rcases hw with ⟨j, -, rfl⟩ | ⟨j, -, rfl⟩ <;> simp [Key.kind, wText, wFill]) (by simp [Key.kind])]
  · simp [wText]
  · intro b hb w hw
    simp only [List.mem_append, List.mem_map, List.mem_cons] at hw
    rcases hw with rfl | ⟨j, -, rfl⟩ | ⟨j, -, rfl⟩ <;> simp [wText, wFill, hb]

/-- Before the first `reset` there are no hands, and the script goes through the hands: then every stack on the page is 0,
whatever the players have, and the bets stay as they were. -/
theorem C67_before_deal (hs : svgPoker ps cs n h c = .ok svg) (hm : IsMessage n h c d m) (hp : d.holeCards = []) (p : Page) :
    ∃ p', onConfig (document svg) (some m) p = .ok () p' ∧ ∀ i < n, (p' ("chips-text-".toList ++ decimal i)).text = "0".toList ∧
      p' ("street-commit-text-".toList ++ decimal i) = p ("street-commit-text-".toList ++ decimal i) := by
  rw [svgPoker_eq] at hs
  obtain rfl := Except.ok.inj hs
  refine ⟨_, does_some (fits_message hm) p, fun i hi => ?_⟩
  have e : updatePlayersW m = [] := by
    unfold updatePlayersW
    rw [message_hands hm.sent, hp]
    rfl
  constructor
  · show (applyW _ p (Key.chipsText i).str).text = _
    rw [applyW_key, eff_all, eff_kind resetCommunity_kinds (by simp [Key.kind]), eff_kind resetButton_kinds (by simp [Key.kind]),
      e, eff_kind updateCommunity_kinds (by simp [Key.kind]), eff_kind button_kinds (by simp [Key.kind]),
      eff_kind updateAction_kinds (by simp [Key.kind]), reset_stack hi]
    rfl
  · show applyW _ p (Key.commitText i).str = p (Key.commitText i).str
    rw [applyW_key, eff_all, eff_kind resetPlayer_kinds (by simp [Key.kind]), eff_kind resetCommunity_kinds (by simp [Key.kind]),
      eff_kind resetButton_kinds (by simp [Key.kind]), e, eff_kind updateCommunity_kinds (by simp [Key.kind]),
      eff_kind button_kinds (by simp [Key.kind]), eff_kind updateAction_kinds (by simp [Key.kind])]
    rfl

/-- a table before the first `reset` whose players have 20 chips each, but the page shows 0 (and so not the table) -/
theorem C67_before_deal_false (p : Page) : ∃ d m, IsMessage 2 1 0 d m ∧ d.holeCards = [] ∧ d.stacks = [20, 20] ∧
    (svgPoker ps cs 2 1 0 = .ok svg →
      ∃ p', onConfig (document svg) (some m) p = .ok () p' ∧ (p' "chips-text-0".toList).text = "0".toList ∧
        ¬ ShowsTable 2 1 0 d p') := by
  have h : (match Dealer.new (small 2 [1, 2] 20) id with
      | .ok d => (match d.show .graphic with | .ok (.sent _) => true | _ => false) && decide (d.holeCards = [] ∧
          d.stacks = [20, 20] ∧ Enough d.cfg ∧ (∀ k ∈ d.cfg.numCommunityCards, 0 ≤ k) ∧ 2 = d.cfg.numPlayers ∧
          1 = d.cfg.numHoleCards.toNat ∧ 0 = d.cfg.numCommunityCards.sum)
      | .error _ => false) = true := by decide +kernel
  cases hd : Dealer.new (small 2 [1, 2] 20) id with
  | error e => rw [hd] at h; simp at h
  | ok d =>
    rw [hd] at h
    simp only [Bool.and_eq_true, decide_eq_true_eq] at h
    obtain ⟨h, h1, h2, h3, h4, h5, h6, h7⟩ := h
    cases hw : d.show .graphic with
    | error e => rw [hw] at h; simp at h
    | ok x =>
      cases x with
      | printed s => rw [hw] at h; simp at h
      | sent m =>
        have hm : IsMessage 2 1 0 d m := ⟨Reachable.new isShuffle_id hd, h3, h4, h5, h6, by simpa using h7, hw⟩
        refine ⟨d, m, hm, h1, h2, fun hs => ?_⟩
        obtain ⟨p', h8, h9⟩ := C67_before_deal hs hm h1 p
        refine ⟨p', h8, (h9 0 (by omega)).1, fun t => ?_⟩
        have := t.stack 0 (by omega)
        rw [(h9 0 (by omega)).1] at this
        simp [stack, h2, intStr, decimal] at this
        revert this
        decide

/-- The empty configuration, which only pages get that connect before the first message, empties the page, but not the bets. -/
theorem C67_empty (hs : svgPoker ps cs n h c = .ok svg) (p : Page) :
    ∃ p', onConfig (document svg) none p = .ok () p' ∧ ∀ i < n, (p' ("chips-text-".toList ++ decimal i)).text = "0".toList ∧
      p' ("street-commit-text-".toList ++ decimal i) = p ("street-commit-text-".toList ++ decimal i) := by
  rw [svgPoker_eq] at hs
  obtain rfl := Except.ok.inj hs
  refine ⟨_, does_none p, fun i hi => ?_⟩
  unfold resetW
  constructor
  · show (applyW _ p (Key.chipsText i).str).text = _
    rw [applyW_key, eff_append, eff_append, reset_stack hi, eff_kind resetCommunity_kinds (by simp [Key.kind]),
      eff_kind resetButton_kinds (by simp [Key.kind])]
  · show applyW _ p (Key.commitText i).str = p (Key.commitText i).str
    rw [applyW_key, eff_append, eff_append, eff_kind resetPlayer_kinds (by simp [Key.kind]),
      eff_kind resetCommunity_kinds (by simp [Key.kind]), eff_kind resetButton_kinds (by simp [Key.kind])]

/-- a hand with a folded player, on the second street: the message fits the picture for three players, one hole card and two
community cards -/
example : ∃ d m, IsMessage 3 1 2 d m ∧ d.holeCards ≠ [] ∧ d.communityCards.length = 2 ∧ d.active = [true, true, false] := by
  obtain ⟨S, d, -, h2, h3⟩ := hand_exists (board 3 [1, 2, 0] 10) [.bet 2, .bet 1, .bet 0, .bet 2, .bet (-1)]
    (P := fun S d => (match d.show .graphic with | .ok (.sent _) => true | _ => false) = true ∧ d.holeCards ≠ [] ∧
      d.communityCards.length = 2 ∧ d.active = [true, true, false] ∧
      Enough d.cfg ∧ (∀ k ∈ d.cfg.numCommunityCards, 0 ≤ k) ∧ 3 = d.cfg.numPlayers ∧
          1 = d.cfg.numHoleCards.toNat ∧ 2 = d.cfg.numCommunityCards.sum) (by decide +kernel)
  obtain ⟨h, h1, h4, h5, h6, h7, h8, h9, h10⟩ := h3
  cases hw : d.show .graphic with
  | error e => rw [hw] at h; simp at h
  | ok x =>
    cases x with
    | printed s => rw [hw] at h; simp at h
    | sent m => exact ⟨d, m, ⟨h2, h6, h7, h8, h9, by simpa using h10, hw⟩, h1, h4, h5⟩

end Clubs

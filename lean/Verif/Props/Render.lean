import Verif.Model.Render
import Verif.Lemmas.Card
import Verif.Lemmas.Play
import Verif.Props.Dealing

/-!
# C61–C64: printed cards, `render`, the message to the browser
-/

namespace Clubs

open Spec

/-! ## C61: printing cards -/

/-- every card made by the constructor is one of the 52 -/
theorem card_of_new {s : List Char} {c : Card} (h : Card.new s = .ok c) : ∃ r < 13, ∃ u < 4, c = mkCard r u := by
  match s, h with
  | [], h => simp [Card.new] at h
  | [_], h => simp [Card.new] at h
  | c0 :: c1 :: rest, h =>
    rw [Card.new_cons] at h
    cases hr : rankOf c0 <;> cases hs : suitOf c1 <;> simp [hr, hs] at h
    exact ⟨_, rankOf_lt hr, _, suitOf_lt hs, h.symm⟩

/-- **C61**: a card is printed as the symbol of its rank followed by the symbol of its suit. -/
theorem C61_printed (c0 c1 : Char) (rest : List Char) (c : Card) (h : Card.new (c0 :: c1 :: rest) = .ok c) :
    ∃ r u, rankOf c0 = some r ∧ suitOf c1 = some u ∧ c.str = [rankSymbol r, suitSymbol u] := by
  rw [Card.new_cons] at h
  cases hr : rankOf c0 <;> cases hs : suitOf c1 <;> simp [hr, hs] at h
  exact ⟨_, _, rfl, rfl, by rw [← h]; rfl⟩

/-- **C61**: different cards are printed differently. -/
theorem C61_injective (s t : List Char) (c d : Card) (hc : Card.new s = .ok c) (hd : Card.new t = .ok d)
    (h : c.str = d.str) : c = d := by
  obtain ⟨r, hr, u, hu, rfl⟩ := card_of_new hc
  obtain ⟨r', hr', u', hu', rfl⟩ := card_of_new hd
  have i1 : ∀ r < 13, ∀ r' < 13, ¬ rankSymbol r = rankSymbol r' ∨ r = r' := by decide
  have i2 : ∀ u < 4, ∀ u' < 4, ¬ suitSymbol u = suitSymbol u' ∨ u = u' := by decide
  simp only [Card.str, mkCard, List.cons.injEq, and_true] at h
  rw [(i1 r hr r' hr').resolve_left (fun hn => hn h.1), (i2 u hu u' hu').resolve_left (fun hn => hn h.2)]

/-- **C61** does not hold in full: what is printed for a card cannot be read back, for no card at all. -/
theorem C61_false (s : List Char) (c : Card) (h : Card.new s = .ok c) : Card.new c.str = .error .invalidSuit := by
  obtain ⟨r, hr, u, hu, rfl⟩ := card_of_new h
  have : ∀ r < 13, ∀ u < 4, Card.new (mkCard r u).str = .error .invalidSuit := by decide +kernel
  exact this r hr u hu

/-- … but it can with the suit's letter in place of its symbol. -/
theorem C61_reread_partial (s : List Char) (c : Card) (h : Card.new s = .ok c) :
    ∃ r u, c.str = [rankSymbol r, suitSymbol u] ∧ Card.new [rankSymbol r, suitLetter u] = .ok c := by
  obtain ⟨r, hr, u, hu, rfl⟩ := card_of_new h
  have : ∀ r < 13, ∀ u < 4, Card.new [rankSymbol r, suitLetter u] = .ok (mkCard r u) := by decide +kernel
  exact ⟨r, u, rfl, this r hr u hu⟩

example : ∃ c, Card.new ['t', 'h', 'x'] = .ok c ∧ c.str = ['T', '♥'] := ⟨mkCard 8 1, by decide, by decide⟩

/-- a list of cards that the constructor made -/
def RealCards (l : List Card) : Prop := ∀ c ∈ l, ∃ s, Card.new s = .ok c

theorem strs_inj : ∀ {l m : List Card}, RealCards l → RealCards m → l.map Card.str = m.map Card.str → l = m
  | [], [], _, _, _ => rfl
  | [], _ :: _, _, _, h => by simp at h
  | _ :: _, [], _, _, h => by simp at h
  | a :: l, b :: m, hl, hm, h => by
    simp only [List.map_cons, List.cons.injEq] at h
    obtain ⟨s, hs⟩ := hl a (by simp)
    obtain ⟨t, ht⟩ := hm b (by simp)
    rw [C61_injective s t a b hs ht h.1,
      strs_inj (fun c hc => hl c (by simp [hc])) (fun c hc => hm c (by simp [hc])) h.2]

theorem join_strs_inj : ∀ {l m : List Card}, join [','] (l.map Card.str) = join [','] (m.map Card.str) →
    l.map Card.str = m.map Card.str
  | [], [], _ => rfl
  | [], [b], h => by simp [join, Card.str] at h
  | [], b :: b' :: m, h => by simp [join, Card.str] at h
  | [a], [], h => by simp [join, Card.str] at h
  | a :: a' :: l, [], h => by simp [join, Card.str] at h
  | [a], [b], h => by simpa [join] using h
  | [a], b :: b' :: m, h => by simp [join, Card.str] at h
  | a :: a' :: l, [b], h => by simp [join, Card.str] at h
  | a :: a' :: l, b :: b' :: m, h => by
    have e : ∀ (x y : Card) (z : List Card), join [','] ((x :: y :: z).map Card.str) =
        x.rank :: x.suit :: ',' :: join [','] ((y :: z).map Card.str) := by
      intro x y z; simp [join, Card.str]
    rw [e, e] at h
    simp only [List.cons.injEq] at h
    have ih := join_strs_inj (l := a' :: l) (m := b' :: m) h.2.2.2
    rw [List.map_cons, List.map_cons (f := Card.str) (a := b), ih]
    simp [Card.str, h.1, h.2.1]

/-- **C61**, decks: `str(deck)` tells the cards left in the deck and their order. -/
theorem C61_deck (d e : Deck) (hd : RealCards d.cards) (he : RealCards e.cards) (h : d.str = e.str) :
    d.cards = e.cards := by
  unfold Deck.str at h
  simp only [List.cons.injEq, true_and] at h
  exact strs_inj hd he (join_strs_inj (List.append_cancel_right h))

/-! ## C62: the render mode -/

variable {d : Dealer} {start : Except Err Unit} {mode : String}

/-- **C62**: the first `render` of a dealer follows the mode: "ascii" prints the string of the table, "human" starts a
server and sends a message to it, and any other mode raises `InvalidRenderModeError`. -/
theorem C62_first (d : Dealer) (start : Except Err Unit) (mode : String) :
    (mode = "ascii" → (d.render none start mode).1 = some .ascii ∧
      ∀ s, (d.render none start mode).2 = .ok (.printed s) ↔ d.str = .ok s) ∧
    (mode = "human" → start = .ok () → (d.render none start mode).1 = some .graphic ∧
      ∀ m, (d.render none start mode).2 = .ok (.sent m) ↔ ∃ c, d.renderConfig = .ok c ∧ m = jsonify c) ∧
    (mode = "human" → ∀ e, start = .error e → d.render none start mode = (none, .error e)) ∧
    (mode ≠ "ascii" → mode ≠ "human" → d.render none start mode = (none, .error .invalidRenderMode)) := by
  refine ⟨?_, ?_, ?_, ?_⟩
  · rintro rfl
    refine ⟨rfl, fun s => ?_⟩
    show d.show .ascii = _ ↔ _
    unfold Dealer.show Dealer.str
    cases d.renderConfig <;> simp
  · rintro rfl rfl
    refine ⟨rfl, fun m => ?_⟩
    show d.show .graphic = _ ↔ _
    unfold Dealer.show
    cases d.renderConfig <;> simp [eq_comm]
  · rintro rfl e rfl; rfl
  · intro h1 h2
    unfold Dealer.render
    simp only [h1, h2, if_false]

/-- **C62**, as far as it is true: once a viewer has been started, every later `render` uses this viewer, **whatever the
mode**. -/
theorem C62_later_partial (d : Dealer) (v : ViewerKind) (start : Except Err Unit) (mode : String) :
    d.render (some v) start mode = (some v, d.show v) := rfl

/-- … so after a first `render("ascii")` every `render` prints the table. -/
theorem C62_ascii (d : Dealer) (start : Except Err Unit) (l : List (Dealer × Except Err Unit × String)) :
    renderAll none ((d, start, "ascii") :: l) =
      (d.str.map Shown.printed) :: l.map (fun x => x.1.str.map Shown.printed) := by
  have e : ∀ d : Dealer, d.show .ascii = d.str.map Shown.printed := by
    intro d
    unfold Dealer.show Dealer.str
    cases d.renderConfig <;> rfl
  have h : ∀ l : List (Dealer × Except Err Unit × String),
      renderAll (some .ascii) l = l.map (fun x => x.1.str.map Shown.printed) := by
    intro l
    induction l with
    | nil => rfl
    | cons x l ih =>
      obtain ⟨d, s, m⟩ := x
      rw [renderAll, C62_later_partial]
      simp only [List.map_cons, ih, e]
  rw [renderAll]
  show d.show .ascii :: renderAll (some .ascii) l = _
  rw [e, h]

/-- **C62** does not hold in full: an unknown mode is accepted after the first `render`, and "human" then prints the ASCII
table. (Witness: a freshly dealt table.) -/
theorem C62_false : ∃ (S : List Int) (d : Dealer) (s : Str), InHand S d ∧ Reachable d ∧ d.str = .ok s ∧
    renderAll none [(d, .ok (), "ascii"), (d, .ok (), "lala"), (d, .ok (), "human")] =
      [.ok (.printed s), .ok (.printed s), .ok (.printed s)] := by
  obtain ⟨S, d, -, h1, h2, -, h3⟩ := played_exists (a := small 2 [1, 2] 20) (cs := [])
    (f := fun _ d _ => match d.renderConfig with | .ok _ => true | .error _ => false) (by decide +kernel)
  cases hc : d.renderConfig with
  | error e => rw [hc] at h3; simp at h3
  | ok c =>
    have hs : d.str = .ok (parseString d.viewer c) := by unfold Dealer.str; rw [hc]
    refine ⟨S, d, _, h1, h2, hs, ?_⟩
    rw [C62_ascii, hs]
    simp only [List.map_cons, List.map_nil, hs, Except.map]

/-! ## C63: the message to the browser -/

theorem convertLoop_cards : ∀ (l : List Card) (hs : List (List Str)) (cs : List Str),
    convertLoop (l.map .card) hs cs = (hs, cs ++ l.map Card.str)
  | [], hs, cs => by simp [convertLoop]
  | c :: l, hs, cs => by
    rw [List.map_cons, convertLoop, convertLoop_cards]
    simp

theorem convertLoop_hands : ∀ (l : List (List Card)) (hs : List (List Str)) (cs : List Str),
    (convertLoop (l.map .hand) hs cs).1 = hs ++ l.map (List.map Card.str)
  | [], hs, cs => by simp [convertLoop]
  | c :: l, hs, cs => by
    rw [List.map_cons, convertLoop, convertLoop_hands]
    simp

theorem convert_cards (l : List Card) : convertHands (l.map .card) = .flat (l.map Card.str) := by
  unfold convertHands
  rw [convertLoop_cards]
  simp

theorem convert_hands (l : List (List Card)) (h : l ≠ []) :
    convertHands (l.map .hand) = .nested (l.map (List.map Card.str)) := by
  unfold convertHands
  have h1 := convertLoop_hands l [] []
  generalize convertLoop (l.map .hand) [] [] = p at h1
  obtain ⟨hs, cs⟩ := p
  simp only [List.nil_append] at h1
  subst h1
  cases l with
  | nil => exact absurd rfl h
  | cons a l => rfl

/-- **C63**: on a table with players the message has the state of the table: seat to act, flags, button, pot, stacks,
bets, payouts (those `_payouts` gives), the last action, and all cards as two-character strings. -/
theorem C63_message (d : Dealer) (m : Message) (hp : d.holeCards ≠ []) (h : d.show .graphic = .ok (.sent m)) :
    m.action = d.action ∧ m.active = d.active ∧ m.button = d.button ∧ m.pot = d.pot ∧ m.stacks = d.stacks ∧
    m.streetCommits = d.streetCommits ∧ d.payouts = .ok m.payouts ∧ m.prevAction = d.history.getLast? ∧
    (m.done = true ↔ ∀ b ∈ d.done, b = true) ∧
    m.allIn = List.zipWith (fun (a : Bool) s => a && s == 0) d.active d.stacks ∧
    m.communityCards = .flat (d.communityCards.map fun c => [c.rank, c.suit]) ∧
    m.holeCards = .nested (d.holeCards.map fun hand => hand.map fun c => [c.rank, c.suit]) := by
  unfold Dealer.show Dealer.renderConfig at h
  cases hpay : d.payouts with
  | error e => rw [hpay] at h; simp at h
  | ok p =>
    rw [hpay] at h
    simp only [Except.ok.injEq, Shown.sent.injEq] at h
    subst h
    refine ⟨rfl, rfl, rfl, rfl, rfl, rfl, rfl, rfl, ?_, rfl, ?_, ?_⟩
    · simp [jsonify, List.all_eq_true]
    · exact convert_cards _
    · exact convert_hands _ hp

/-! ## C64: the message reveals everybody's cards -/

theorem same_message (d e : Dealer) (m : Message) (hd : ∀ h ∈ d.holeCards, RealCards h) (he : ∀ h ∈ e.holeCards, RealCards h)
    (h1 : d.show .graphic = .ok (.sent m)) (h2 : e.show .graphic = .ok (.sent m)) : d.holeCards = e.holeCards := by
  have key : ∀ {d : Dealer}, d.show .graphic = .ok (.sent m) → m.holeCards = convertHands (d.holeCards.map .hand) := by
    intro d h
    unfold Dealer.show Dealer.renderConfig at h
    cases hpay : d.payouts with
    | error e => rw [hpay] at h; simp at h
    | ok p =>
      rw [hpay] at h
      simp only [Except.ok.injEq, Shown.sent.injEq] at h
      subst h
      rfl
  have k := (key h1).symm.trans (key h2)
  by_cases n1 : d.holeCards = []
  · by_cases n2 : e.holeCards = []
    · rw [n1, n2]
    · rw [convert_hands _ n2, n1] at k
      simp [convertHands, convertLoop] at k
  · by_cases n2 : e.holeCards = []
    · rw [convert_hands _ n1, n2] at k
      simp [convertHands, convertLoop] at k
    · rw [convert_hands _ n1, convert_hands _ n2] at k
      simp only [JsonCards.nested.injEq] at k
      have : ∀ {l m : List (List Card)}, (∀ h ∈ l, RealCards h) → (∀ h ∈ m, RealCards h) →
          l.map (List.map Card.str) = m.map (List.map Card.str) → l = m := by
        intro l
        induction l with
        | nil => intro m _ _ h; cases m <;> simp at h ⊢
        | cons a l ih =>
          intro m hl hm h
          cases m with
          | nil => simp at h
          | cons b m =>
            simp only [List.map_cons, List.cons.injEq] at h
            rw [strs_inj (hl a (by simp)) (hm b (by simp)) h.1,
              ih (fun c hc => hl c (by simp [hc])) (fun c hc => hm c (by simp [hc])) h.2]
      exact this hd he k

/-- **C64** is false, always: from the message to the browser the hole cards of **all** players can be read, also those of
folded players and while the hand is running: tables with the same message have the same hole cards. -/
theorem C64_false (d e : Dealer) (m : Message) (hd : Reachable d) (he : Reachable e)
    (h1 : d.show .graphic = .ok (.sent m)) (h2 : e.show .graphic = .ok (.sent m)) : d.holeCards = e.holeCards := by
  have real : ∀ {d : Dealer}, Reachable d → ∀ h ∈ d.holeCards, RealCards h := by
    intro d hd h hh c hc
    have := ((C39_cards hd).2.2 c).1 (by
      unfold allCards
      simp only [List.mem_append, List.mem_flatten]
      exact .inl (.inl ⟨h, hh, hc⟩))
    obtain ⟨k, u, -, -, hn⟩ := this
    exact ⟨_, hn⟩
  exact same_message d e m (real hd) (real he) h1 h2

/-- a table with a message, two players and real cards -/
example : ∃ d m, Reachable d ∧ d.holeCards ≠ [] ∧ d.show .graphic = .ok (.sent m) := by
  obtain ⟨S, d, -, h1, h2, -, h3⟩ := played_exists (a := small 2 [1, 2] 20) (cs := [])
    (f := fun _ d _ => (match d.show .graphic with | .ok (.sent _) => true | _ => false) && decide (d.holeCards ≠ []))
    (by decide +kernel)
  simp only [Bool.and_eq_true, decide_eq_true_eq] at h3
  cases hs : d.show .graphic with
  | error e => rw [hs] at h3; simp at h3
  | ok x =>
    cases x with
    | printed s => rw [hs] at h3; simp at h3
    | sent m => exact ⟨d, m, h2, h3.2, hs⟩

end Clubs

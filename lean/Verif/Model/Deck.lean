import Verif.Model.Card

/-! # `clubs/poker/card.py`: `Deck` -/

namespace Clubs

/-- An instance of `Deck` (`card.py:130-262`). -/
structure Deck where
  numSuits : Nat
  numRanks : Nat
  fullDeck : List Card
  cards : List Card
  tricked : Bool
  topIdcs : List Nat
  bottomIdcs : List Nat
  deriving DecidableEq, Repr

/-- What `random.shuffle` did to the list it was given. Theorems assume of it only `IsShuffle`. -/
abbrev Shuffle := List Card → List Card

/-- The only assumption on `random.shuffle`: it permutes its argument. -/
def IsShuffle (shuf : Shuffle) : Prop := ∀ l, (shuf l).Perm l

/-- `Deck.shuffle` (`card.py:209-226`). The indices were computed by `trick` from `fullDeck`, so
`self.full_deck[idx]` does not raise; an index out of range is dropped here. -/
def Deck.shuffle (d : Deck) (shuf : Shuffle) : Deck :=
  if d.tricked && !d.topIdcs.isEmpty && !d.bottomIdcs.isEmpty then
    let topCards := d.topIdcs.filterMap (d.fullDeck[·]?)
    let bottomCards := d.bottomIdcs.filterMap (d.fullDeck[·]?)
    { d with cards := topCards ++ shuf bottomCards }
  else
    { d with cards := shuf d.fullDeck }

/-- The nested loop `for rank in ranks: for suit in suits: append(Card(rank + suit))`
(`card.py:158-162`). -/
def buildDeck (numSuits numRanks : Nat) : Except Err (List Card) :=
  let ranks := STR_RANKS.drop (STR_RANKS.length - numRanks)
  let suits := (CHAR_SUIT_TO_INT_SUIT.map (·.1)).take numSuits
  (ranks.flatMap fun r => suits.map fun s => [r, s]).mapM Card.new

/-- `Deck.__init__` (`card.py:144-166`), for integer arguments. -/
def Deck.new (numSuits numRanks : Int) (shuf : Shuffle) : Except Err Deck :=
  if numRanks < 1 ∨ numRanks > 13 then .error .invalidRank
  else if numSuits < 1 ∨ numSuits > 4 then .error .invalidSuit
  else match buildDeck numSuits.toNat numRanks.toNat with
    | .error e => .error e
    | .ok full =>
      let d : Deck :=
        { numSuits := numSuits.toNat, numRanks := numRanks.toNat, fullDeck := full, cards := [],
          tricked := false, topIdcs := [], bottomIdcs := [] }
      .ok (d.shuffle shuf)

/-- `Deck.__len__` (`card.py:176-184`) -/
def Deck.len (d : Deck) : Nat := d.cards.length

/-- The loop of `Deck.draw` (`card.py:202-206`): at most `n` times pop the first card. -/
def drawLoop : Nat → List Card → List Card → List Card × List Card
  | 0, acc, cards => (acc, cards)
  | _ + 1, acc, [] => (acc, [])
  | n + 1, acc, c :: cs => drawLoop n (acc ++ [c]) cs

/-- `Deck.draw` (`card.py:186-207`): the drawn cards and the deck afterwards. `range(n)` is empty for
negative `n`. -/
def Deck.draw (d : Deck) (n : Int) : List Card × Deck :=
  let r := drawLoop n.toNat [] d.cards
  (r.1, { d with cards := r.2 })

/-- `self.full_deck.index(card)` (`card.py:245`), by `Card.__eq__`. -/
def cardIndex (l : List Card) (c : Card) : Except Err Nat :=
  match l.findIdx? (fun x => x.eq c) with
  | some i => .ok i
  | none => .error .valueError

/-- `Deck.trick` (`card.py:228-249`). On `ValueError` nothing has been assigned yet. The order in
which Python iterates over the set difference is immaterial (the cards are shuffled afterwards);
ascending order is used here. -/
def Deck.trick (d : Deck) (top : List Card) : Except Err Deck :=
  match top.mapM (cardIndex d.fullDeck) with
  | .error e => .error e
  | .ok idcs =>
    .ok { d with
          topIdcs := idcs
          bottomIdcs := (List.range (d.numRanks * d.numSuits)).filter (fun i => !idcs.contains i)
          tricked := true }

/-- `Deck.untrick` (`card.py:251-262`) -/
def Deck.untrick (d : Deck) : Deck :=
  { d with tricked := false, topIdcs := [], bottomIdcs := [] }

end Clubs

import Verif.Model.Deck
import Verif.Spec.Cards

/-!
# Decks: vocabulary for C03–C05
-/

namespace Clubs.Spec

/-- The letter of a suit number -/
def suitLetter : Nat → Char
  | 0 => 'S' | 1 => 'H' | 2 => 'D' | _ => 'C'

/-- One call on a deck. Each shuffle carries what the random generator did. -/
inductive DeckOp
  | draw (n : Int)
  | shuffle (shuf : Shuffle)
  | trick (top : List Card)
  | untrick

/-- A deck together with the cards drawn since the last shuffle. -/
structure DeckRun where
  deck : Deck
  drawn : List Card

/-- Carry out one call. `trick` with a card that is not in the deck raises; the caller goes on with
the deck as it was. -/
def DeckOp.apply (s : DeckRun) : DeckOp → DeckRun
  | .draw n => ⟨(s.deck.draw n).2, s.drawn ++ (s.deck.draw n).1⟩
  | .shuffle shuf => ⟨s.deck.shuffle shuf, []⟩
  | .trick top => match s.deck.trick top with
    | .ok d => ⟨d, s.drawn⟩
    | .error _ => s
  | .untrick => ⟨s.deck.untrick, s.drawn⟩

/-- Carry out a list of calls. -/
def runDeck (s : DeckRun) (ops : List DeckOp) : DeckRun := ops.foldl DeckOp.apply s

/-- The caller's side: shuffles permute, and a list of cards passed to `trick` has no card twice. -/
def DeckOp.Legal : DeckOp → Prop
  | .shuffle shuf => IsShuffle shuf
  | .trick top => top.Pairwise (fun a b => a.eq b = false)
  | _ => True

/-- `draw` and `shuffle` -/
def DeckOp.isDrawOrShuffle : DeckOp → Prop
  | .draw _ => True
  | .shuffle _ => True
  | _ => False

end Clubs.Spec

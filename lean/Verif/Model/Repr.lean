import Verif.Model.Strings
import Verif.Model.Render

/-! # `__repr__`

The address that `id(self)` returns is a parameter. -/

namespace Clubs

/-- `Card.__repr__` (`card.py:99-100`) -/
def Card.repr (ident : Nat) (c : Card) : Str := "Card (".toList ++ decimal ident ++ "): ".toList ++ c.str

/-- `Deck.__repr__` (`card.py:173-174`) -/
def Deck.repr (ident : Nat) (d : Deck) : Str := "Deck (".toList ++ decimal ident ++ "): ".toList ++ d.str

/-- `Evaluator.__repr__` (`evaluator.py:75-76`) -/
def Evaluator.repr (ident : Nat) (e : Evaluator) : Str := "Evaluator (".toList ++ decimal ident ++ "): ".toList ++ e.str

/-- `Dealer.__repr__` (`engine.py:240-245`, the same in `engine_numpy.py:237-242`) -/
def Dealer.repr (ident : Nat) (d : Dealer) : Str :=
  "Dealer (".toList ++ decimal ident ++ ") - num players: ".toList ++ decimal d.cfg.numPlayers ++ ", num streets: ".toList ++
    decimal d.cfg.numStreets

end Clubs

import Verif.Model.Py

/-! # `clubs/poker/card.py`: `Card` -/

namespace Clubs

/-- `STR_RANKS`, `card.py:8` -/
def STR_RANKS : List Char := ['2', '3', '4', '5', '6', '7', '8', '9', 'T', 'J', 'Q', 'K', 'A']

/-- `INT_RANKS`, `card.py:9` -/
def INT_RANKS : List Nat := List.range 13

/-- `PRIMES`, `card.py:10` -/
def PRIMES : List Nat := [2, 3, 5, 7, 11, 13, 17, 19, 23, 29, 31, 37, 41]

/-- Python `dict` built from pairs: look up the last pair with the key. Here keys are distinct, so
the first match is the same. -/
def dictGet {α β : Type} [BEq α] (d : List (α × β)) (k : α) : Option β := d.lookup k

/-- `CHAR_RANK_TO_INT_RANK`, `card.py:12` -/
def CHAR_RANK_TO_INT_RANK : List (Char × Nat) := STR_RANKS.zip INT_RANKS

/-- `CHAR_SUIT_TO_INT_SUIT`, `card.py:13-18` (a dict keeps insertion order) -/
def CHAR_SUIT_TO_INT_SUIT : List (Char × Nat) := [('S', 1), ('H', 2), ('D', 4), ('C', 8)]

/-- `PRETTY_SUITS`, `card.py:20-25` -/
def PRETTY_SUITS : List (Nat × Char) :=
  [(1, Char.ofNat 9824), (2, Char.ofNat 9829), (4, Char.ofNat 9830), (8, Char.ofNat 9827)]

/-- `str.upper` of one character, as far as the two dictionaries can see it: Python's `upper` maps
to a character of `23456789TJQKASHDC` exactly that character, its ASCII lower-case letter, and
U+017F (long s, whose upper case is `S`). Every other non-ASCII character maps to a string that is
in neither dictionary; it is left unchanged here. -/
def pyUpper (c : Char) : Char :=
  if c = Char.ofNat 0x17F then 'S' else c.toUpper

/-- An instance of `Card` (`card.py:28-127`). `_bin_str` (`card.py:89`), which is never read, is left
out. -/
structure Card where
  /-- `self._int` -/
  int : Nat
  /-- `self.suit` -/
  suit : Char
  /-- `self.rank` -/
  rank : Char
  deriving DecidableEq, Repr

/-- `Card.__init__` (`card.py:59-91`). `string[0]` and `string[1]` are both read (61-62) before the
dictionary look-ups. The last two look-ups cannot fail after the first two. -/
def Card.new (string : List Char) : Except Err Card :=
  match string with
  | [] => .error .indexError
  | [_] => .error .indexError
  | c0 :: c1 :: _ =>
    let rankChar := pyUpper c0
    let suitChar := pyUpper c1
    match dictGet CHAR_RANK_TO_INT_RANK rankChar with
    | none => .error .invalidRank
    | some rankInt =>
      match dictGet CHAR_SUIT_TO_INT_SUIT suitChar with
      | none => .error .invalidSuit
      | some suitInt =>
        match PRIMES[rankInt]?, dictGet PRETTY_SUITS suitInt, STR_RANKS[rankInt]? with
        | some rankPrime, some pretty, some rankStr =>
          let bitrank := (1 <<< rankInt) <<< 16
          let suit := suitInt <<< 12
          let rank := rankInt <<< 8
          .ok { int := bitrank ||| suit ||| rank ||| rankPrime, suit := pretty, rank := rankStr }
        | _, _, _ => .error .keyError

/-- `Card.__eq__` on two cards (`card.py:124-126`). -/
def Card.eq (a b : Card) : Bool := a.int == b.int

/-- `Card.__str__` (`card.py:96-97`) -/
def Card.str (c : Card) : List Char := [c.rank, c.suit]

end Clubs

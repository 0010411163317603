import Verif.Model.Card

/-!
# `clubs/poker/evaluator.py`: `LookupTable` and `Evaluator`

Numbers of hands are `Int` because the code's formulas can go negative. The model reads the code for
decks of at most 13 ranks (`Deck` enforces this, `card.py:145`; `Evaluator` alone does not check).
-/

namespace Clubs

/-! ## module-level helpers -/

/-- `_ncr` (`evaluator.py:663-667`): the product of `range(n, n-r, -1)` floor-divided by the product
of `range(1, r+1)`, with `r` first replaced by `min(r, n-r)`; both ranges are empty for `r ≤ 0`. -/
def ncr (n r : Int) : Int :=
  let r := min r (n - r)
  let numer := ((List.range r.toNat).map fun (i : Nat) => n - (i : Int)).foldl (· * ·) 1
  let denom := ((List.range r.toNat).map fun (i : Nat) => (i : Int) + 1).foldl (· * ·) 1
  numer / denom

/-- `x & -x` for `x ≥ 0` (`evaluator.py:659`): Python's negative ints act like infinite two's
complement, here truncated to the bits of `x`. -/
def lowBit (x : Nat) : Nat := x &&& (2 ^ (x.log2 + 1) - x)

/-- One iteration of the generator `_lexographic_next_bit` (`evaluator.py:658-659`), for `lex > 0`
(`lex - 1` is then non-negative). -/
def nextBits (lex : Nat) : Nat :=
  let temp := (lex ||| (lex - 1)) + 1
  temp ||| (((lowBit temp / lowBit lex) >>> 1) - 1)

/-- The first `n` values yielded by `_lexographic_next_bit(bits)` (`evaluator.py:650-660`). -/
def genBits : Nat → Nat → List Nat
  | 0, _ => []
  | n + 1, bits => bits :: genBits n (nextBits bits)

/-- `_prime_product_from_rank_bits` (`evaluator.py:634-640`) -/
def primeFromBits (rankbits : Nat) : Nat :=
  INT_RANKS.foldl (fun product i =>
    if rankbits &&& (1 <<< i) ≠ 0 then product * PRIMES.getD i 0 else product) 1

/-- `_prime_product_from_hand` (`evaluator.py:643-647`) -/
def primeFromHand (cards : List Card) : Nat :=
  cards.foldl (fun product c => product * (c.int &&& 0xFF)) 1

/-! ## hand classes -/

/-- The nine keys of `hand_dict` (`evaluator.py:245-264`). -/
inductive HandClass
  | straightFlush | fourKind | fullHouse | flush | straight | threeKind | twoPair | pair | highCard
  deriving DecidableEq, Repr

/-- The dictionary key / class name used by the code. -/
def HandClass.name : HandClass → String
  | .straightFlush => "straight flush"
  | .fourKind => "four of a kind"
  | .fullHouse => "full house"
  | .flush => "flush"
  | .straight => "straight"
  | .threeKind => "three of a kind"
  | .twoPair => "two pair"
  | .pair => "pair"
  | .highCard => "high card"

/-- Position of the name in alphabetical order, which is how `sorted` (`evaluator.py:282`) breaks
ties between equal counts. (`nameOrd_spec` proves that it is the order of the strings.) -/
def HandClass.nameOrd : HandClass → Nat
  | .flush => 0
  | .fourKind => 1
  | .fullHouse => 2
  | .highCard => 3
  | .pair => 4
  | .straight => 5
  | .straightFlush => 6
  | .threeKind => 7
  | .twoPair => 8

/-- `ORDER_STRINGS` (`evaluator.py:204`) -/
def ORDER_STRINGS : List String := ["sf", "fk", "fh", "fl", "st", "tk", "tp", "pa", "hc"]

/-- The classes in the order of `s_hands` (`evaluator.py:267-277`). -/
def CLASS_LIST : List HandClass :=
  [.straightFlush, .fourKind, .fullHouse, .flush, .straight, .threeKind, .twoPair, .pair, .highCard]

/-- `True + x` -/
def b2i (b : Bool) : Int := if b then 1 else 0

/-! ## number of (suited, unsuited) hands in each class, `evaluator.py:345-475` -/

/-- `LookupTable._straight_flush` (`evaluator.py:345-355`) -/
def nStraightFlush (suits ranks cards : Int) (low : Bool) : Int × Int :=
  if cards < 3 ∨ suits < 2 then (0, 0) else
  let unsuited := ranks - (cards - 1) + b2i low
  (max unsuited (unsuited * suits), unsuited)

/-- `LookupTable._four_of_a_kind` (`evaluator.py:357-366`) -/
def nFourKind (suits ranks cards : Int) : Int × Int :=
  if cards < 4 ∨ suits < 4 then (0, 0) else
  let unsuited := ncr ranks 1 * ncr (ranks - 1) (cards - 4)
  (max unsuited (unsuited * suits ^ (cards - 4).toNat), unsuited)

/-- `LookupTable._full_house` (`evaluator.py:368-383`) -/
def nFullHouse (suits ranks cards : Int) : Int × Int :=
  if cards < 5 ∨ suits < 3 then (0, 0) else
  let unsuited := ncr ranks 1 * ncr (ranks - 1) 1 * ncr (ranks - 2) (cards - 5)
  (max unsuited (unsuited * ncr suits 3 * ncr suits 2 * suits ^ (cards - 5).toNat), unsuited)

/-- `LookupTable._flush` (`evaluator.py:385-397`) -/
def nFlush (suits ranks cards : Int) (low : Bool) : Int × Int :=
  if cards < 3 ∨ suits < 2 then (0, 0) else
  let straightFlushes := ranks - (cards - 1) + b2i low
  let unsuited := ncr ranks cards - straightFlushes
  (max unsuited (unsuited * suits), unsuited)

/-- `LookupTable._straight` (`evaluator.py:399-416`) -/
def nStraight (suits ranks cards : Int) (low : Bool) : Int × Int :=
  if cards < 3 then (0, 0) else
  let unsuited := ranks - (cards - 1) + b2i low
  let straightFlushes := if suits > 1 then unsuited * suits else 0
  let suited := max unsuited (unsuited * suits ^ cards.toNat - straightFlushes)
  (if suits < 2 then unsuited else suited, unsuited)

/-- `LookupTable._three_of_a_kind` (`evaluator.py:418-431`) -/
def nThreeKind (suits ranks cards : Int) : Int × Int :=
  if cards < 3 ∨ suits < 3 then (0, 0) else
  let unsuited := ncr ranks 1 * ncr (ranks - 1) (cards - 3)
  (max unsuited (unsuited * ncr suits 3 * ncr suits 3 ^ (cards - 3).toNat), unsuited)

/-- `LookupTable._two_pair` (`evaluator.py:433-445`) -/
def nTwoPair (suits ranks cards : Int) : Int × Int :=
  if cards < 4 ∨ suits < 2 then (0, 0) else
  let unsuited := ncr ranks 2 * ncr (ranks - 2) (cards - 4)
  (max unsuited (unsuited * ncr suits 2 ^ 2 * suits ^ (cards - 4).toNat), unsuited)

/-- `LookupTable._pair` (`evaluator.py:447-458`) -/
def nPair (suits ranks cards : Int) : Int × Int :=
  if cards < 2 ∨ suits < 2 then (0, 0) else
  let unsuited := ncr ranks 1 * ncr (ranks - 1) (cards - 2)
  (max unsuited (unsuited * ncr suits 2 * suits ^ (cards - 2).toNat), unsuited)

/-- `LookupTable._high_card` (`evaluator.py:460-475`) -/
def nHighCard (suits ranks cards : Int) (low : Bool) : Int × Int :=
  let straights := if cards > 2 then ranks - (cards - 1) + b2i low else 0
  let unsuited := ncr ranks cards - straights
  let suited := max unsuited (unsuited * (suits ^ cards.toNat - suits))
  (if suits < 2 then unsuited else suited, unsuited)

/-- The (suited, unsuited) entries of `hand_dict` (`evaluator.py:224-264`). -/
def classCount (suits ranks cards : Int) (low : Bool) : HandClass → Int × Int
  | .straightFlush => nStraightFlush suits ranks cards low
  | .fourKind => nFourKind suits ranks cards
  | .fullHouse => nFullHouse suits ranks cards
  | .flush => nFlush suits ranks cards low
  | .straight => nStraight suits ranks cards low
  | .threeKind => nThreeKind suits ranks cards
  | .twoPair => nTwoPair suits ranks cards
  | .pair => nPair suits ranks cards
  | .highCard => nHighCard suits ranks cards low

/-! ## the lookup table -/

/-- One value of `hand_dict`: `"suited"`, `"unsuited"`, `"cumulative unsuited"`, and `"rank"`, which
is only set when the cumulative count is positive (`evaluator.py:301-302`). -/
structure ClassInfo where
  suited : Int
  unsuited : Int
  cumulative : Int
  rank : Option Nat
  deriving DecidableEq, Repr

/-- A Python `dict` from ints to ints: newest entry first, so the first match is the current value. -/
abbrev Dict := List (Nat × Int)

/-- `d[k]`, raising `KeyError` -/
def Dict.get (d : Dict) (k : Nat) : Except Err Int :=
  match List.lookup k d with
  | some v => .ok v
  | none => .error .keyError

/-- `d[k] = v` -/
def Dict.set (d : Dict) (k : Nat) (v : Int) : Dict := (k, v) :: d

/-- An instance of `LookupTable` -/
structure Table where
  handDict : HandClass → ClassInfo
  rankedHands : List HandClass
  maxRank : Int
  suitedLookup : Dict
  unsuitedLookup : Dict

/-- insertion into a list sorted by `(count, name)`, before the first larger-or-equal element -/
def insertHand (c : Int × HandClass) : List (Int × HandClass) → List (Int × HandClass)
  | [] => [c]
  | d :: l =>
    if c.1 < d.1 ∨ (c.1 = d.1 ∧ c.2.nameOrd ≤ d.2.nameOrd) then c :: d :: l
    else d :: insertHand c l

/-- `sorted(s_hands)` (`evaluator.py:282`): sort the tuples `(count, name)`. -/
def sortHands (l : List (Int × HandClass)) : List (Int × HandClass) := l.foldr insertHand []

/-- `self.ORDER_STRINGS.index(hand)` (`evaluator.py:284`) -/
def orderIndex (s : String) : Except Err Nat :=
  match ORDER_STRINGS.findIdx? (· == s) with
  | some i => .ok i
  | none => .error .valueError

/-- `evaluator.py:281-285`: the classes from best to worst. The indices returned by `orderIndex` are
below 9, so `s_hands[idx]` does not raise; the default is never used. -/
def orderedClasses (count : HandClass → Int × Int) (order : Option (List String)) :
    Except Err (List HandClass) :=
  match order with
  | none => .ok ((sortHands (CLASS_LIST.map fun c => ((count c).1, c))).map (·.2))
  | some o =>
    match o.mapM orderIndex with
    | .error e => .error e
    | .ok idcs => .ok (idcs.map fun i => CLASS_LIST.getD i .highCard)

/-- State of the loop `evaluator.py:294-304`. -/
structure RankState where
  handDict : HandClass → ClassInfo
  rankedHands : List HandClass
  rank : Nat
  cumulative : Int

/-- One iteration of the loop `evaluator.py:297-304` -/
def rankStep (st : RankState) (c : HandClass) : RankState :=
  let info := st.handDict c
  let cumulative := st.cumulative + info.unsuited
  if cumulative > 0 then
    { handDict := fun x => if x = c then { info with cumulative, rank := some st.rank } else st.handDict x
      rankedHands := st.rankedHands ++ [c]
      rank := st.rank + 1
      cumulative }
  else
    { st with
      handDict := fun x => if x = c then { info with cumulative } else st.handDict x
      cumulative }

/-- The loop `evaluator.py:294-304`. Before it an entry has neither `"cumulative unsuited"` nor
`"rank"`; every class gets the former, since all nine are in the list. -/
def rankLoop (count : HandClass → Int × Int) (classes : List HandClass) : RankState :=
  classes.foldl rankStep
    { handDict := fun c => { suited := (count c).1, unsuited := (count c).2, cumulative := 0, rank := none }
      rankedHands := [], rank := 0, cumulative := 0 }

/-- `LookupTable._get_rank` (`evaluator.py:626-631`). `ranked_hands[rank - 1]` exists whenever
`rank > 0`. -/
def getRank (handDict : HandClass → ClassInfo) (rankedHands : List HandClass) (c : HandClass) :
    Except Err Int :=
  match (handDict c).rank with
  | none => .error .keyError
  | some 0 => .ok 0
  | some (r + 1) =>
    match rankedHands[r]? with
    | none => .error .indexError
    | some better => .ok ((handDict better).cumulative + 1)

/-- `int("0b...", 2)` -/
def binVal (bits : List Bool) : Nat := bits.foldl (fun acc b => 2 * acc + (if b then 1 else 0)) 0

/-- The loop `evaluator.py:486-488`: append the value of the string, drop the last character. -/
def straightLoop : Nat → List Bool → List Nat
  | 0, _ => []
  | n + 1, bits => binVal bits :: straightLoop n bits.dropLast

/-- `LookupTable._gen_straight_flush` (`evaluator.py:477-499`) -/
def genStraightFlush (cards ranks : Int) (low : Bool) : List Nat :=
  let top := List.replicate cards.toNat true ++ List.replicate (13 - cards).toNat false
  let straights := straightLoop (ranks - (cards - 1)).toNat top
  if low then
    straights ++ [binVal ([true] ++ List.replicate (ranks - cards).toNat false
      ++ List.replicate (cards - 1).toNat true ++ List.replicate (13 - ranks).toNat false)]
  else straights

/-- `LookupTable._gen_flush` (`evaluator.py:501-519`); `13 - ranks ≥ 0` as ranks are at most 13. -/
def genFlush (cards ranks : Int) (straightFlushes : List Nat) : List Nat :=
  let gen := genBits (ncr ranks cards).toNat (binVal (List.replicate cards.toNat true))
  ((gen.map fun b => b <<< (13 - ranks).toNat).filter fun f => !straightFlushes.contains f).reverse

/-- The loop `evaluator.py:549-552` / the assignments of `evaluator.py:588-611`: store the keys in the
dictionary with consecutive ranks. -/
def storeAll : List Nat → Int → Dict → Dict
  | [], _, d => d
  | k :: ks, r, d => storeAll ks (r + 1) (d.set k r)

/-- `add_to_dict` of `LookupTable._flushes` (`evaluator.py:541-553`) -/
def addFlushes (handDict : HandClass → ClassInfo) (rankedHands : List HandClass) (c : HandClass)
    (rankBits : List Nat) (lookup : Dict) : Except Err Dict :=
  if (handDict c).cumulative = 0 then .ok lookup
  else if (rankBits.length : Int) ≠ (handDict c).unsuited then .error .assertionError
  else match getRank handDict rankedHands c with
    | .error e => .error e
    | .ok handRank => .ok (storeAll (rankBits.map primeFromBits) handRank lookup)

/-- `LookupTable._flushes` (`evaluator.py:521-562`): the suited and the unsuited dictionary. -/
def flushes (handDict : HandClass → ClassInfo) (rankedHands : List HandClass)
    (ranks cards : Int) (low : Bool) : Except Err (Dict × Dict) := do
  let straightFlushes :=
    if (handDict .straightFlush).cumulative ≠ 0 ∨ (handDict .straight).cumulative ≠ 0
    then genStraightFlush cards ranks low else []
  let fls :=
    if (handDict .flush).cumulative ≠ 0 ∨ (handDict .highCard).cumulative ≠ 0
    then genFlush cards ranks straightFlushes else []
  let suited ← addFlushes handDict rankedHands .straightFlush straightFlushes []
  let suited ← addFlushes handDict rankedHands .flush fls suited
  let unsuited ← addFlushes handDict rankedHands .straight straightFlushes []
  let unsuited ← addFlushes handDict rankedHands .highCard fls unsuited
  return (suited, unsuited)

/-- `backwards_ranks` (`evaluator.py:571`): `range(12, 12 - ranks, -1)` -/
def backwardsRanks (ranks : Int) : List Nat := (List.range ranks.toNat).map fun i => 12 - i

/-- `set(l)`, as a list without repetitions (`evaluator.py:578`) -/
def distinct (l : List Nat) : List Nat :=
  l.foldr (fun x acc => if acc.contains x then acc else x :: acc) []

/-- The products recorded by the loop `evaluator.py:588-611`, in the order in which they are
recorded. -/
def multipleProducts (ranks cards : Int) (multiples : List Nat) : Except Err (List Nat) := do
  let br := backwardsRanks ranks
  -- `len(set(multiples)) > 1` (578)
  let combs :=
    if (distinct multiples).length > 1 then permutations multiples.length br
    else combinations multiples.length br
  let parts ← combs.mapM fun cardRanks => do
    let base := (cardRanks.zip multiples).foldl (fun p cm => p * PRIMES.getD cm.1 0 ^ cm.2) 1
    let numKickers : Int := cards - (multiples.sum : Nat)
    if numKickers ≠ 0 then
      let kickers := cardRanks.foldl (fun l r => l.erase r) br
      let combs ← combinationsInt numKickers kickers
      return combs.map fun ks => ks.foldl (fun p k => p * PRIMES.getD k 0) base
    else
      return [base]
  return parts.flatten

/-- `add_to_dict` of `LookupTable._multiples` (`evaluator.py:567-616`) -/
def addMultiples (handDict : HandClass → ClassInfo) (rankedHands : List HandClass)
    (ranks cards : Int) (c : HandClass) (multiples : List Nat) (lookup : Dict) : Except Err Dict :=
  if (handDict c).cumulative = 0 then .ok lookup
  else do
    let handRank ← getRank handDict rankedHands c
    let products ← multipleProducts ranks cards multiples
    if (products.length : Int) ≠ (handDict c).unsuited then .error .assertionError
    else return storeAll products handRank lookup

/-- `LookupTable._multiples` (`evaluator.py:564-624`). The dictionary is updated in place, so the
ignored return values of 618-622 do not matter. -/
def multiples (handDict : HandClass → ClassInfo) (rankedHands : List HandClass)
    (ranks cards : Int) (lookup : Dict) : Except Err Dict := do
  let l ← addMultiples handDict rankedHands ranks cards .fourKind [4] lookup
  let l ← addMultiples handDict rankedHands ranks cards .fullHouse [3, 2] l
  let l ← addMultiples handDict rankedHands ranks cards .threeKind [3] l
  let l ← addMultiples handDict rankedHands ranks cards .twoPair [2, 2] l
  addMultiples handDict rankedHands ranks cards .pair [2] l

/-- `LookupTable.__init__` (`evaluator.py:206-322`) -/
def Table.new (suits ranks cards : Int) (low : Bool) (order : Option (List String)) :
    Except Err Table := do
  match order with
  | none => pure ()
  | some o => if ORDER_STRINGS.any (fun s => !o.contains s) then throw Err.invalidOrder
  let count := classCount suits ranks cards low
  let classes ← orderedClasses count order
  let st := rankLoop count classes
  let (suited, unsuited) ← flushes st.handDict st.rankedHands ranks cards low
  let unsuited ← multiples st.handDict st.rankedHands ranks cards unsuited
  -- `if not self.hand_dict["flush"]["cumulative unsuited"]` (318)
  let suited := if (st.handDict .flush).cumulative = 0 then unsuited else suited
  return { handDict := st.handDict, rankedHands := st.rankedHands, maxRank := st.cumulative,
           suitedLookup := suited, unsuitedLookup := unsuited }

/-- `LookupTable.lookup` (`evaluator.py:324-343`). `reduce(or_, [])` raises `TypeError`. -/
def Table.lookup (t : Table) (cards : List Card) : Except Err Int :=
  if cards.foldl (fun a c => a &&& c.int) 0xF000 ≠ 0 then
    match cards with
    | [] => .error .typeError
    | c :: cs =>
      let handOr := (cs.foldl (fun a c => a ||| c.int) c.int) >>> 16
      t.suitedLookup.get (primeFromBits handOr)
  else t.unsuitedLookup.get (primeFromHand cards)

/-! ## the evaluator -/

/-- An instance of `Evaluator` (`evaluator.py:13-70`; the string `hand_ranks` is `Evaluator.str` in `Model/Strings`). -/
structure Evaluator where
  suits : Int
  ranks : Int
  cardsForHand : Int
  mandatoryHoleCards : Int
  table : Table

/-- `Evaluator.__init__` (`evaluator.py:36-70`). Of the string formatting only the division by
`total` (67), which can raise, is modelled. -/
def Evaluator.new (suits ranks cards : Int) (mandatory : Int) (low : Bool)
    (order : Option (List String)) : Except Err Evaluator :=
  if cards < 1 ∨ cards > 5 then .error .invalidHandSize
  else match Table.new suits ranks cards low order with
    | .error e => .error e
    | .ok t =>
      let total := (t.rankedHands.map fun c => (t.handDict c).suited).sum
      if total = 0 ∧ t.rankedHands ≠ [] then .error .zeroDivision
      else .ok { suits, ranks, cardsForHand := cards, mandatoryHoleCards := mandatory, table := t }

/-- The list `all_card_combs` (`evaluator.py:99-119`) -/
def Evaluator.handCombs (e : Evaluator) (hole comm : List Card) : Except Err (List (List Card)) :=
  if e.mandatoryHoleCards ≠ 0 then
    match combinationsInt e.mandatoryHoleCards hole with
    | .error err => .error err
    | .ok holeCombs =>
      let numComm := e.cardsForHand - e.mandatoryHoleCards
      if numComm ≠ 0 then
        match combinationsInt numComm comm with
        | .error err => .error err
        | .ok commCombs => .ok (productConcat holeCombs commCombs)
      else .ok holeCombs
  else combinationsInt e.cardsForHand (hole ++ comm)

/-- The loop `evaluator.py:121-127` -/
def minLoop (t : Table) : List (List Card) → Int → Except Err Int
  | [], minimum => .ok minimum
  | h :: hs, minimum =>
    match t.lookup h with
    | .error e => .error e
    | .ok score => minLoop t hs (if score < minimum then score else minimum)

/-- `Evaluator.evaluate` (`evaluator.py:78-127`) -/
def Evaluator.evaluate (e : Evaluator) (hole comm : List Card) : Except Err Int :=
  match e.handCombs hole comm with
  | .error err => .error err
  | .ok combs => minLoop e.table combs e.table.maxRank

/-- The loop `evaluator.py:149-151` -/
def rankClassLoop (t : Table) (handRank : Int) : List HandClass → Except Err String
  | [] => .error .invalidHandRank
  | c :: cs => if handRank ≤ (t.handDict c).cumulative then .ok c.name else rankClassLoop t handRank cs

/-- `Evaluator.get_rank_class` (`evaluator.py:129-157`) -/
def Evaluator.getRankClass (e : Evaluator) (handRank : Int) : Except Err String :=
  if handRank < 0 then .error .invalidHandRank
  else rankClassLoop e.table handRank e.table.rankedHands

end Clubs

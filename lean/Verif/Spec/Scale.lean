import Verif.Spec.Table

/-!
# Other units of chips: vocabulary for C91

All amounts of chips are multiplied by `k`, everything else stays as it is.
-/

namespace Clubs.Spec

variable (k : Int)

/-- all amounts of a list -/
def scaleAll (l : List Int) : List Int := l.map (k * ·)

/-- a raise size, if it is a number of chips -/
def scaleSize : RaiseSize → RaiseSize
  | .int n => .int (k * n)
  | s => s

/-- the configuration: blinds, antes, raise sizes and the start stack -/
def scaleConfig (c : Config) : Config :=
  { c with
    blinds := scaleAll k c.blinds
    antes := scaleAll k c.antes
    bigBlind := k * c.bigBlind
    raiseSizes := c.raiseSizes.map (scaleSize k)
    startStack := k * c.startStack }

/-- the table: stacks, pot, bets, the largest raise and the bets in the history -/
def scaleTable (d : Dealer) : Dealer :=
  { d with
    cfg := scaleConfig k d.cfg
    history := d.history.map fun h => (h.1, k * h.2.1, h.2.2)
    largestRaise := k * d.largestRaise
    pot := k * d.pot
    potCommits := scaleAll k d.potCommits
    «stacks» := scaleAll k d.stacks
    streetCommits := scaleAll k d.streetCommits }

/-- an observation -/
def scaleView (o : Observation) : Observation :=
  { o with
    call := k * o.call
    maxRaise := k * o.maxRaise
    minRaise := k * o.minRaise
    pot := k * o.pot
    «stacks» := scaleAll k o.stacks
    streetCommits := scaleAll k o.streetCommits }

/-- the result of `step`: observation and payouts; the done flags and exceptions stay the same -/
def scaleResult (r : Except Err StepOut) : Except Err StepOut :=
  r.map fun o => (scaleView k o.1, scaleAll k o.2.1, o.2.2)

/-- a bet -/
def scaleBet : PyNum → PyNum
  | .fin q => .fin (k * q)
  | b => b

/-- the bet is a whole number of chips, or not a number -/
def WholeBet (bet : PyNum) : Prop := ∀ q, bet = .fin q → ∃ z : Int, q = z

/-- an argument of the constructor that is an amount or a list of amounts -/
def scaleArg : ListOr Int → ListOr Int
  | .scalar a => .scalar (k * a)
  | .list l => .list (scaleAll k l)

/-- a raise size as it is given to the constructor -/
def scaleRaw : RawRaise → RawRaise
  | .int n => .int (k * n)
  | r => r

/-- the raise sizes given to the constructor -/
def scaleRaws : ListOr RawRaise → ListOr RawRaise
  | .scalar a => .scalar (scaleRaw k a)
  | .list l => .list (l.map (scaleRaw k))

/-- the arguments of the constructor -/
def scaleArgs (a : DealerArgs) : DealerArgs :=
  { a with
    blinds := scaleArg k a.blinds
    antes := scaleArg k a.antes
    raiseSizes := scaleRaws k a.raiseSizes
    startStack := k * a.startStack }

end Clubs.Spec

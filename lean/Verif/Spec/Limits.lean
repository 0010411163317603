import Verif.Spec.Table
import Verif.Spec.Turn

/-! Vocabulary of C100: the same table with other limits for the bets. -/

namespace Clubs.Spec

/-- the same table with other raise sizes and other numbers of raises -/
def relimit (rs : List RaiseSize) (nr : List NumRaises) (d : Dealer) : Dealer :=
  { d with cfg := { d.cfg with raiseSizes := rs, numRaises := nr } }

/-- an observation without the two numbers that depend on the limits -/
def sansRaises (o : Observation) : Observation := { o with minRaise := 0, maxRaise := 0 }

/-- what `step` returns, apart from the two numbers that depend on the limits -/
def sansRaisesOut (r : Except Err StepOut) : Except Err StepOut := r.map fun o => (sansRaises o.1, o.2)

/-- the second rules are those of the first without a limit: the same, but that pot limits may be lifted and more raises may be allowed -/
structure Looser (rs rs' : List RaiseSize) (nr nr' : List NumRaises) : Prop where
  sizes : ∀ (i : Nat) x, rs[i]? = some x → ∃ y, rs'[i]? = some y ∧ (y = x ∨ (x = .pot ∧ y = .inf))
  raises : ∀ (i : Nat) x, nr[i]? = some x → ∃ y, nr'[i]? = some y ∧ (y = x ∨ y = .inf ∨ ∃ m n, x = .fin m ∧ y = .fin n ∧ m ≤ n)

/-- the bet `q` at the first table is not more than what is offered there (after rounding); nobody is in debt -/
def Within (d d' : Dealer) (q : Rat) : Prop :=
  ∃ obs obs' a b, Shows d obs ∧ Shows d' obs' ∧ d.action = some a ∧ 0 ≤ stack d a ∧ obs.minRaise ≤ obs.maxRaise ∧
    obs'.minRaise ≤ obs'.maxRaise ∧ Rounded q b ∧ (b ≤ obs.call ∨ b ≤ obs.maxRaise)

end Clubs.Spec

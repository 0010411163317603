import Verif.Spec.Turn

/-!
# Replaying a hand from its history: vocabulary for C83

An entry of the history is the seat, the chips put in and whether the bet was negative.
-/

namespace Clubs.Spec

/-- the bet that repeats an entry of the history -/
def replayBet (e : Nat × Int × Bool) : PyNum := if e.2.2 then .fin (-1) else .fin e.2.1

/-- the bets that repeat a history -/
def replay (h : List (Nat × Int × Bool)) : List PyNum := h.map replayBet

end Clubs.Spec

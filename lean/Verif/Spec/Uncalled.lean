import Verif.Spec.Division

/-! Vocabulary of C105: chips that nobody matched. -/

namespace Clubs.Spec

/-- nobody but seat `i` put in more than `m` chips -/
def OthersPut (d : Dealer) (i : Nat) (m : Int) : Prop := 0 ≤ m ∧ ∀ k < d.cfg.numPlayers, k ≠ i → contribution d k ≤ m

/-- every other player with a hand as good as that of seat `i` finds chips when it is their turn -/
def TiedServed (d : Dealer) (s : Nat → Int) (i : Nat) : Prop :=
  ∀ k < d.cfg.numPlayers, k ≠ i → isIn d k → s k = s i → Served d.cfg.numPlayers (inB d) (contribution d) s k

end Clubs.Spec

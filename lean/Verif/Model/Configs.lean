import Verif.Model.Engine

/-! # `clubs/configs.py` -/

namespace Clubs

/-- `LEDUC_TWO_PLAYER` (`configs.py:30-46`) -/
def LEDUC_TWO_PLAYER : DealerArgs where
  numPlayers := 2
  numStreets := 2
  blinds := .scalar 0
  antes := .scalar 1
  raiseSizes := .scalar (.int 2)
  numRaises := .scalar (.fin 2)
  numSuits := 2
  numRanks := 3
  numHoleCards := 1
  numCommunityCards := .list [0, 1]
  numCardsForHand := 2
  mandatoryNumHoleCards := 0
  startStack := 10

/-- `KUHN_TWO_PLAYER` (`configs.py:48-64`) -/
def KUHN_TWO_PLAYER : DealerArgs where
  numPlayers := 2
  numStreets := 1
  blinds := .scalar 0
  antes := .scalar 1
  raiseSizes := .list [.int 1]
  numRaises := .list [.fin 1]
  numSuits := 1
  numRanks := 3
  numHoleCards := 1
  numCommunityCards := .list [0]
  numCardsForHand := 1
  mandatoryNumHoleCards := 0
  startStack := 10

/-- `KUHN_THREE_PLAYER` (`configs.py:66-82`) -/
def KUHN_THREE_PLAYER : DealerArgs := { KUHN_TWO_PLAYER with numPlayers := 3 }

/-- `LIMIT_HOLDEM_TWO_PLAYER` (`configs.py:84-100`) -/
def LIMIT_HOLDEM_TWO_PLAYER : DealerArgs where
  numPlayers := 2
  numStreets := 4
  blinds := .list [1, 2]
  antes := .scalar 0
  raiseSizes := .list [.int 2, .int 2, .int 4, .int 4]
  numRaises := .list [.fin 3, .fin 4, .fin 4, .fin 4]
  numSuits := 4
  numRanks := 13
  numHoleCards := 2
  numCommunityCards := .list [0, 3, 1, 1]
  numCardsForHand := 5
  mandatoryNumHoleCards := 0
  startStack := 200

/-- `LIMIT_HOLDEM_SIX_PLAYER` (`configs.py:102-118`) -/
def LIMIT_HOLDEM_SIX_PLAYER : DealerArgs :=
  { LIMIT_HOLDEM_TWO_PLAYER with numPlayers := 6, blinds := .list [1, 2, 0, 0, 0, 0] }

/-- `LIMIT_HOLDEM_NINE_PLAYER` (`configs.py:120-136`) -/
def LIMIT_HOLDEM_NINE_PLAYER : DealerArgs :=
  { LIMIT_HOLDEM_TWO_PLAYER with numPlayers := 9, blinds := .list [1, 2, 0, 0, 0, 0, 0, 0, 0] }

/-- `NO_LIMIT_HOLDEM_TWO_PLAYER` (`configs.py:138-154`) -/
def NO_LIMIT_HOLDEM_TWO_PLAYER : DealerArgs :=
  { LIMIT_HOLDEM_TWO_PLAYER with raiseSizes := .scalar .inf, numRaises := .scalar .inf }

/-- `NO_LIMIT_HOLDEM_SIX_PLAYER` (`configs.py:156-172`) -/
def NO_LIMIT_HOLDEM_SIX_PLAYER : DealerArgs :=
  { NO_LIMIT_HOLDEM_TWO_PLAYER with numPlayers := 6, blinds := .list [1, 2, 0, 0, 0, 0] }

/-- `NO_LIMIT_HOLDEM_NINE_PLAYER` (`configs.py:174-190`) -/
def NO_LIMIT_HOLDEM_NINE_PLAYER : DealerArgs :=
  { NO_LIMIT_HOLDEM_TWO_PLAYER with numPlayers := 9, blinds := .list [1, 2, 0, 0, 0, 0, 0, 0, 0] }

/-- `NO_LIMIT_HOLDEM_BB_ANTE_NINE_PLAYER` (`configs.py:192-208`) -/
def NO_LIMIT_HOLDEM_BB_ANTE_NINE_PLAYER : DealerArgs :=
  { NO_LIMIT_HOLDEM_TWO_PLAYER with
    numPlayers := 9
    blinds := .list [2, 4, 0, 0, 0, 0, 0, 0, 0]
    antes := .list [0, 1, 0, 0, 0, 0, 0, 0, 0] }

/-- `POT_LIMIT_OMAHA_TWO_PLAYER` (`configs.py:210-226`) -/
def POT_LIMIT_OMAHA_TWO_PLAYER : DealerArgs :=
  { NO_LIMIT_HOLDEM_TWO_PLAYER with
    raiseSizes := .scalar .pot, numHoleCards := 4, mandatoryNumHoleCards := 2 }

/-- `POT_LIMIT_OMAHA_SIX_PLAYER` (`configs.py:228-244`) -/
def POT_LIMIT_OMAHA_SIX_PLAYER : DealerArgs :=
  { POT_LIMIT_OMAHA_TWO_PLAYER with numPlayers := 6, blinds := .list [1, 2, 0, 0, 0, 0] }

/-- `POT_LIMIT_OMAHA_NINE_PLAYER` (`configs.py:246-262`) -/
def POT_LIMIT_OMAHA_NINE_PLAYER : DealerArgs :=
  { POT_LIMIT_OMAHA_TWO_PLAYER with numPlayers := 9, blinds := .list [1, 2, 0, 0, 0, 0, 0, 0, 0] }

/-- `SHORT_DECK_TWO_PLAYER` (`configs.py:264-280`) -/
def SHORT_DECK_TWO_PLAYER : DealerArgs :=
  { NO_LIMIT_HOLDEM_TWO_PLAYER with
    numRanks := 9
    order := some ["sf", "fk", "fl", "fh", "st", "tk", "tp", "pa", "hc"] }

/-- `SHORT_DECK_SIX_PLAYER` (`configs.py:282-298`) -/
def SHORT_DECK_SIX_PLAYER : DealerArgs :=
  { SHORT_DECK_TWO_PLAYER with numPlayers := 6, blinds := .list [1, 2, 0, 0, 0, 0] }

/-- `SHORT_DECK_NINE_PLAYER` (`configs.py:300-316`) -/
def SHORT_DECK_NINE_PLAYER : DealerArgs :=
  { SHORT_DECK_TWO_PLAYER with numPlayers := 9, blinds := .list [1, 2, 0, 0, 0, 0, 0, 0, 0] }

/-- All configurations of `clubs/configs.py`. -/
def ALL_CONFIGS : List DealerArgs :=
  [LEDUC_TWO_PLAYER, KUHN_TWO_PLAYER, KUHN_THREE_PLAYER, LIMIT_HOLDEM_TWO_PLAYER,
   LIMIT_HOLDEM_SIX_PLAYER, LIMIT_HOLDEM_NINE_PLAYER, NO_LIMIT_HOLDEM_TWO_PLAYER,
   NO_LIMIT_HOLDEM_SIX_PLAYER, NO_LIMIT_HOLDEM_NINE_PLAYER, NO_LIMIT_HOLDEM_BB_ANTE_NINE_PLAYER,
   POT_LIMIT_OMAHA_TWO_PLAYER, POT_LIMIT_OMAHA_SIX_PLAYER, POT_LIMIT_OMAHA_NINE_PLAYER,
   SHORT_DECK_TWO_PLAYER, SHORT_DECK_SIX_PLAYER, SHORT_DECK_NINE_PLAYER]

end Clubs

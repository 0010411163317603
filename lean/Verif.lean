import Verif.Model.Deck
import Verif.Model.Evaluator
import Verif.Model.Engine
import Verif.Model.Configs
import Verif.Model.Ascii
import Verif.Model.Numpy
import Verif.Model.Alias
import Verif.Model.NumpyAlias
import Verif.Props.Cards
import Verif.Props.Decks
import Verif.Props.Counting
import Verif.Props.Evaluator
import Verif.Props.Money
import Verif.Props.Ends
import Verif.Props.Betting
import Verif.Props.Flow
import Verif.Props.Showdown
import Verif.Props.Dealing
import Verif.Props.Config
import Verif.Props.Level
import Verif.Props.EqualStart
import Verif.Props.Deep
import Verif.Props.Program
import Verif.Props.Observation
import Verif.Props.Page
import Verif.Props.Odds
import Verif.Props.Rarity
import Verif.Props.Rectangle
import Verif.Props.Render
import Verif.Props.Secrecy
import Verif.Props.Svg
import Verif.Props.Ascii
import Verif.Props.Orders
import Verif.Props.Square
import Verif.Props.NumpyMoney
import Verif.Props.NumpyFlow
import Verif.Props.NumpyShow
import Verif.Props.NumpySame
import Verif.Props.NumpyCards
import Verif.Props.NumpyOdds
import Verif.Props.Alias
import Verif.Props.NumpyAlias
import Verif.Props.SpeedTest
import Verif.Props.Strings
import Verif.Props.Values
import Verif.Props.Turn
import Verif.Props.NumpyTurn
import Verif.Props.NumpyTurnHand
import Verif.Props.Memory
import Verif.Props.Limits
import Verif.Spec.Orbit
import Verif.Lemmas.Ring
import Verif.Lemmas.Orbit
import Verif.Props.Orbit
import Verif.Spec.Calls
import Verif.Lemmas.Calls
import Verif.Props.Calls
import Verif.Spec.Sure
import Verif.Props.Sure
import Verif.Spec.Broke
import Verif.Props.Broke
import Verif.Spec.Uncalled
import Verif.Props.Uncalled
import Verif.Props.Replay
import Verif.Props.NumpyReplay
import Verif.Props.Suits
import Verif.Props.NumpySuits
import Verif.Model.Words
import Verif.Spec.Words
import Verif.Lemmas.Words
import Verif.Lemmas.Words2
import Verif.Props.Words
import Verif.Model.NumpyRender
import Verif.Spec.NumpyRender
import Verif.Spec.NumpyPage
import Verif.Lemmas.NumpyRender
import Verif.Lemmas.NumpyAfter
import Verif.Props.NumpyAfter
import Verif.Props.NumpyRender
import Verif.Props.NumpyPage
import Verif.Conform.Engine
import Verif.Conform.Evaluator
import Verif.Conform.Ascii
import Verif.Spec.Better
import Verif.Lemmas.Better
import Verif.Lemmas.Blind
import Verif.Lemmas.TwoDeals
import Verif.Props.Better
import Verif.Props.NumpyBetter
import Verif.Model.Viewer
import Verif.Spec.Viewer
import Verif.Props.Viewer
import Verif.Spec.Scale
import Verif.Lemmas.Scale
import Verif.Props.Scale
import Verif.Props.NumpyScale
import Verif.Spec.Fair
import Verif.Lemmas.Fair
import Verif.Props.Fair
import Verif.Props.NumpyFair
import Verif.Spec.Ask
import Verif.Lemmas.Hist
import Verif.Props.Ask
import Verif.Props.Account
import Verif.Spec.Division
import Verif.Lemmas.Division
import Verif.Props.Division
import Verif.Props.Stuck
import Verif.Props.NumpyStuck
import Verif.Props.Promise
import Verif.Props.Rounds
import Verif.Props.Cost
import Verif.Props.PotLimit
import Verif.Props.Behind
import Verif.Props.Exchange
import Verif.Props.BlindGame
import Verif.Props.NumpyBlindGame
import Verif.Props.Folded
import Verif.Props.HandOrder
import Verif.Props.Repr
import Verif.Props.DeckSize
import Verif.Props.Mandatory
import Verif.Props.Board
import Verif.Props.LowStraight

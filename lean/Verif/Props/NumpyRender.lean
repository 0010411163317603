import Verif.Props.NumpyAfter
import Verif.Props.Secrecy
import Verif.Props.Ascii
import Verif.Props.Render

/-!
# C87: the pictures of the array engine
-/

namespace Clubs.Numpy

open Spec

variable {S : List Int} {d d' e : Dealer} {bet : PyNum} {out : StepOut} {s : Str} {pays : List Int}

/-! ## when there is a picture -/

/-- before the last street is over, with two or more players in, the payouts are the losses of the others -/
theorem payouts_running (hst : d.street < d.cfg.numStreets) (h2 : 2 ≤ countTrue d.active) :
    payouts d = .ok (List.zipWith (fun (c : Int) (a : Bool) => -1 * c * (if !a then 1 else 0)) d.potCommits d.active) := by
  unfold payouts
  simp only []
  rw [if_neg (by omega), if_neg (by omega)]

/-- **C87**: a table whose payouts can be computed has a picture exactly if the number of the button is the number of a seat; otherwise
`str` and `render` raise `IndexError`. -/
theorem C87_exact (h : ArrayInHand S d) (hr : ArrayReachable d) (hp : payouts d = .ok pays) :
    (d.button < d.cfg.numPlayers → ∃ s, str d = .ok s) ∧ (d.cfg.numPlayers ≤ d.button → str d = .error .indexError) := by
  obtain ⟨c, -, -, h1⟩ := str_of h hr hp
  rw [h1]
  refine ⟨fun hb => ⟨_, if_pos hb⟩, fun hb => if_neg (by omega)⟩

/-- **C87** (part: as long as the button has not passed the last seat; see `C87_false`): while a hand is running there is a picture. -/
theorem C87_running_partial (h : ArrayInHand S d) (hr : ArrayReachable d) (hrun : Running d) :
    (d.button < d.cfg.numPlayers → ∃ s, str d = .ok s) ∧ (d.cfg.numPlayers ≤ d.button → str d = .error .indexError) := by
  obtain ⟨⟨a, ha⟩, hst⟩ := hrun
  obtain ⟨hl, h2⟩ := live_of_array h ha
  exact C87_exact h hr (payouts_running hst (h2 hst))

/-- **C87**: after a deal with `reset_button` there is a picture; after any other deal there is one exactly if the button was not at the last
seat before. -/
theorem C87_dealt {rb rs : Bool} {shuf : Shuffle} {obs : Observation} (hd : ArrayReachable d) (hs : IsShuffle shuf)
    (hr : reset d rb rs shuf = (d', .ok obs)) :
    (rb = true ∨ d.button + 1 < d.cfg.numPlayers → ∃ s, str d' = .ok s) ∧
    (rb = false → d.cfg.numPlayers ≤ d.button + 1 → str d' = .error .indexError) := by
  have hse := array_seated hd
  obtain ⟨hb, -⟩ := C72_reset hse hr
  have hcfg : d'.cfg = d.cfg := by have := reset_cfg d rb rs shuf; rwa [hr] at this
  have hrd : ArrayReachable d' := by have := ArrayReachable.reset rb rs hs hd; rwa [hr] at this
  have hin' := ArrayInHand.dealt hse hs hr
  obtain ⟨hl, hst, -⟩ := dealt_live hse (reset_ok_atSeat hse hr)
  obtain ⟨a, ha, -⟩ := hl.action
  have hrun : Running d' := ⟨⟨a, ha⟩, by rw [show d'.street = 0 from hst]; exact hl.oneStreet⟩
  obtain ⟨h1, h2⟩ := C87_running_partial hin' hrd hrun
  have htwo : 2 ≤ d.cfg.numPlayers := hse.two
  rw [hcfg, hb] at h1 h2
  refine ⟨?_, ?_⟩
  · rintro (rfl | h3)
    · exact h1 (by simp; omega)
    · refine h1 ?_
      cases rb <;> simp <;> omega
  · rintro rfl h3
    exact h2 (by simpa using h3)

set_option maxRecDepth 100000 in
/-- three hands with two players, each after the first dealt without `reset_button`, have their button at 0, 1 and 2 -/
example : ∃ S d, ArrayInHand S d ∧ ArrayReachable d ∧ Running d ∧ d.button = 1 ∧ d.cfg.numPlayers = 2 ∧
    (str d).toOption.isSome = true :=
  hand_exists (small 2 [1, 2] 20) [.bet (-1), .deal] (by decide +kernel)

set_option maxRecDepth 100000 in
/-- **C87 is false** for longer sessions: the third hand at a table of two has no picture. -/
theorem C87_false : ∃ S d, ArrayInHand S d ∧ ArrayReachable d ∧ NonNegative S d.cfg ∧ SizesOk d.cfg ∧ Running d ∧
    d.cfg.numPlayers = 2 ∧ d.button = 2 ∧ (match str d with | .error e => decide (e = .indexError) | .ok _ => false) = true :=
  hand_exists (small 2 [1, 2] 20) [.bet (-1), .deal, .bet (-1), .deal] (by decide +kernel)

/-! ## what it shows -/

/-- **C87**: a picture shows the table as it is, see C57. The hand is over exactly if all streets have been played or at most one player is
left; so while all players are all-in and cards are still to come, their cards are hidden and the pot and the bets are shown. -/
theorem C87_picture (h : ArrayInHand S d) (hr : ArrayReachable d) (hs : str d = .ok s) :
    ∃ (F : StrConfig) (pays : List Int), s = formatTable F TABLE ∧ payouts d = .ok pays ∧
    (∀ i < d.cfg.numPlayers,
      ArraySeatText d i (F.get ("p" ++ toString (d.viewer.pos i))) ∧
      (HandOver d → Amount (F.get ("p" ++ toString (d.viewer.pos i) ++ "c")) (pays.getD i 0)) ∧
      (¬ HandOver d → Amount (F.get ("p" ++ toString (d.viewer.pos i) ++ "c")) (streetBet d i)) ∧
      F.get ("b" ++ toString (d.viewer.pos i)) = (if i = d.button then "D ".toList else []) ∧
      (HandOver d → F.get ("a" ++ toString (d.viewer.pos i)) = []) ∧
      (∀ a, d.action = some a → ¬ HandOver d → F.get ("a" ++ toString (d.viewer.pos i)) =
        if isIn d i ∧ stack d i = 0 then "A".toList else if i = a then "X".toList else [])) ∧
    (¬ HandOver d → Amount (F.get "pot") d.pot) ∧ (HandOver d → F.get "pot" = "0".toList) ∧
    F.get "ccs" = "[".toList ++ join ",".toList (d.communityCards.map Card.str ++
      List.replicate (d.cfg.numCommunityCards.sum - d.communityCards.length).toNat "--".toList) ++ "]".toList := by
  obtain ⟨c, pays, hp, hc, -, hb, rfl⟩ := str_ok h hr hs
  exact ⟨strConfig d.viewer c, pays, rfl, hp, array_fields h hr hb hp hc⟩

/-- **C87**: a picture depends on the hole cards and the deck only through the cards of the player to act, as long as the hand is running:
tables that differ only in what the player to act cannot see have the same picture. -/
theorem C87_secret (h : ArrayInHand S d) (hrun : Running d) (he : Alike d e)
    (hole : ∀ a, d.action = some a → e.holeCards.getD a [] = d.holeCards.getD a []) : str e = str d := by
  obtain ⟨⟨a, ha⟩, hst⟩ := hrun
  obtain ⟨hl, h2⟩ := live_of_array h ha
  have h2 := h2 hst
  have hpd := payouts_running hst h2
  have hpe : payouts e = payouts d := by
    rw [hpd, he.eq_swap]
    exact payouts_running (d := { d with holeCards := _, deck := _ }) hst h2
  have hd : (done d).all id = false := by
    rw [Bool.eq_false_iff]
    intro hc
    rcases (done_all_iff d).1 hc with h3 | h3 <;> omega
  obtain ⟨c, hc, c1, c2, c3⟩ : ∃ c, renderConfig d = .ok c ∧ c.done = (done d).all id ∧ c.action = d.action ∧
      c.holeCards = d.holeCards := by
    unfold renderConfig
    rw [hpd]
    exact ⟨_, rfl, rfl, rfl, rfl⟩
  have hce : renderConfig e = .ok { c with holeCards := e.holeCards } := by
    unfold renderConfig at hc ⊢
    rw [hpe]
    rw [hpd] at hc ⊢
    simp only [Except.ok.injEq] at hc ⊢
    rw [← hc]
    have hv := he.visible
    generalize e.holeCards = H at *
    generalize e.deck = D at *
    subst hv
    rfl
  have hvw : e.viewer = d.viewer := by rw [he.visible]; rfl
  unfold str
  rw [hc, hce, hvw]
  simp only []
  unfold parseAny
  rw [parseString_congr (by rw [c3]; exact he.seats)]
  intro i _ h3
  rw [c1, c2, c3] at *
  rcases h3 with h3 | h3
  · rw [hd] at h3; cases h3
  · exact hole i h3.symm

/-- **C87**: the cards of players who are not in the hand are never shown, not even after the hand. -/
theorem C87_folded {H : List (List Card)} (hlen : H.length = d.holeCards.length)
    (hole : ∀ i, isIn d i → H.getD i [] = d.holeCards.getD i []) :
    str ({ d with holeCards := H } : Dealer) = str d := by
  have h1 : payouts ({ d with holeCards := H } : Dealer) = payouts d := by
    have h2 : evalRound ({ d with holeCards := H } : Dealer) = evalRound d := by
      unfold evalRound evalHands
      rw [← evalHands_congr hlen hole]
      rfl
    unfold payouts
    rw [h2]
  unfold str renderConfig
  rw [h1]
  cases payouts d with
  | error x => rfl
  | ok p =>
    simp only []
    unfold parseAny
    have := parseString_congr (v := d.viewer) (c := {
      action := d.action
      active := d.active
      allIn := List.zipWith (fun (active : Bool) stack => active && stack == 0) d.active d.stacks
      communityCards := d.communityCards
      button := d.button
      done := (done d).all id
      holeCards := d.holeCards
      pot := d.pot
      payouts := p
      prevAction := d.history.getLast?
      streetCommits := d.streetCommits
      «stacks» := d.stacks }) hlen (fun i hi _ => hole i hi)
    rw [← this]
    rfl

/-! ## the messages -/

/-- **C87**: the message under the table is empty while the hand is running; after it it lists the seats with a positive entry in what the
table reports as payouts. -/
theorem C87_message (h : ArrayInHand S d) (hr : ArrayReachable d) (hs : str d = .ok s) :
    ∃ (F : StrConfig) (pays : List Int) (ws : List (Nat × Int)), s = formatTable F TABLE ∧ payouts d = .ok pays ∧
      IsWinners pays ws ∧ (HandOver d → F.get "win" = winText ws) ∧ (¬ HandOver d → F.get "win" = []) := by
  obtain ⟨c, pays, hp, hc, hpay, hb, rfl⟩ := str_ok h hr hs
  have hdone : c.done = true ↔ HandOver d := by
    rw [← array_done_iff]
    unfold renderConfig at hc
    rw [hp] at hc
    simp only [Except.ok.injEq] at hc
    rw [← hc]
  have hwin : (strConfig d.viewer c).get "win" = parseWinString c c.done := rfl
  refine ⟨strConfig d.viewer c, pays, winners pays, rfl, hp, winners_isWinners _, ?_, ?_⟩
  · intro hd
    rw [hwin, hdone.2 hd, parseWinString_eq, hpay]
  · intro hd
    rw [hwin]
    unfold parseWinString
    rw [if_neg (fun hx => hd (hdone.1 hx))]

/-- **C87** (part: for hands that end with a showdown at tables with equal antes; see `C87_false_message`): after the hand the message under
the table lists exactly the seats whose payout was positive, with their payouts. -/
theorem C87_showdown_partial {t : Nat → Int} (h : ArrayInHand S d) (hr : ArrayReachable d) (hn : NonNegative S d.cfg) (hz : SizesOk d.cfg)
    (hcov : Covers S d.cfg) (he : EqualAntes d.cfg) (hS : ∀ x ∈ S, 0 < x) (hb : d.button < d.cfg.numPlayers) (hrun : Running d)
    (hs : step d bet = (d', .ok out)) (hsh : AtShowdown d') (hrk : Ranks d' t) :
    ∃ (F : StrConfig) (ws : List (Nat × Int)), str d' = .ok (formatTable F TABLE) ∧ IsWinners out.2.1 ws ∧
      F.get "win" = winText ws := by
  have h' : ArrayInHand S d' := by have := ArrayInHand.step bet h; rwa [hs] at this
  have hr' : ArrayReachable d' := by have := ArrayReachable.step bet hr; rwa [hs] at this
  have hcfg : d'.cfg = d.cfg := by have := step_cfg d bet; rwa [hs] at this
  have hbut : d'.button = d.button := by have := C72_step d bet; rwa [hs] at this
  have hne : d.action ≠ none := fun h0 => by obtain ⟨⟨a, ha⟩, -⟩ := hrun; rw [h0] at ha; cases ha
  have hend : d'.action = none := by
    obtain ⟨x, -, -, -, -, -, -, -, -, -, -, -, -, -, -, k⟩ := step_showdown h hn hz hrun hs hsh
    rcases k with ⟨e, -, k, -⟩ | ⟨obs, p, -, -, -, k⟩
    · cases k
    · exact k
  have hpay : payouts d' = .ok out.2.1 := by
    have h1 := C86_equal_partial h hn hz hcov he hS hrun hs hsh hrk (.fin 0)
    obtain ⟨-, -, -, -, -, -, h2⟩ := after_end h hne hs hend (.fin 0)
    rw [h1] at h2
    cases hp : payouts d' with
    | error e => rw [hp] at h2; cases h2
    | ok p =>
      rw [hp] at h2
      simp only [Except.map, Prod.mk.injEq, Except.ok.injEq, true_and] at h2
      rw [h2]
  obtain ⟨s, hstr⟩ := (C87_exact h' hr' hpay).1 (by rw [hcfg, hbut]; exact hb)
  obtain ⟨F, pays, ws, h1, h2, h3, h4, -⟩ := C87_message h' hr' hstr
  rw [hpay] at h2
  cases h2
  exact ⟨F, ws, by rw [hstr, h1], h3, h4 (.inl hsh.1)⟩

/-- the last line of a picture, without the spaces around it -/
def lastLine (d : Dealer) : Option Str :=
  (str d).toOption.map fun s => (s.reverse.takeWhile (· ≠ '\n')).reverse.dropWhile (· = ' ') |>.reverse |>.dropWhile (· = ' ')
    |>.reverse

/-- the last line but one -/
def actionLine (d : Dealer) : Option Str :=
  (str d).toOption.map fun s => (((s.reverse.dropWhile (· ≠ '\n')).drop 1).takeWhile (· ≠ '\n')).reverse.dropWhile (· = ' ')
    |>.reverse |>.dropWhile (· = ' ') |>.reverse

set_option maxRecDepth 100000 in
/-- a showdown -/
example : ∃ S d d' out, ArrayInHand S d ∧ ArrayReachable d ∧ step d (.fin 10) = (d', .ok out) ∧ NonNegative S d.cfg ∧ SizesOk d.cfg ∧
    Covers S d.cfg ∧ EqualAntes d.cfg ∧ (∀ x ∈ S, 0 < x) ∧ d.button < d.cfg.numPlayers ∧ Running d ∧ AtShowdown d' ∧
    Ranks d' (strength [5, 4]) :=
  step_exists (small 2 [1, 2] 10) [.bet 10] (.fin 10) (by decide +kernel)

set_option maxRecDepth 100000 in
example : ∃ S d d' out, ArrayInHand S d ∧ ArrayReachable d ∧ step d (.fin 10) = (d', .ok out) ∧
    lastLine d' = some "Player 2 won 10".toList :=
  step_exists (small 2 [1, 2] 10) [.bet 10] (.fin 10) (by decide +kernel)

set_option maxRecDepth 100000 in
/-- **C87 is false** of the message for hands that end because all others fold: player 2 won 1 chip, the message names nobody. -/
theorem C87_false_message : ∃ S d d' out, ArrayInHand S d ∧ ArrayReachable d ∧ step d (.fin (-1)) = (d', .ok out) ∧ NonNegative S d.cfg ∧
    SizesOk d.cfg ∧ d'.action = none ∧ out.2.1 = [-1, 1] ∧ lastLine d' = some "Player  won".toList :=
  step_exists (small 2 [1, 2] 10) [] (.fin (-1)) (by decide +kernel)

/-- **C87** (part: if exactly the negative bets are folds, as C55; see `C87_false_line`): after a step that does not end the hand, the line
under the table says who moved, what they did and whose turn it is. -/
theorem C87_line_partial {a b : Nat} (h : ArrayInHand S d) (hr : ArrayReachable d) (hn : NonNegative S d.cfg) (hz : SizesOk d.cfg)
    (hbt : d.button < d.cfg.numPlayers) (ha : d.action = some a) (h0 : 0 ≤ stack d a)
    (hs : step d bet = (d', .ok out)) (hb : d'.action = some b) (hf : BelowZero bet ↔ ¬ isIn d' a) :
    ∃ (F : StrConfig) (t : Str), str d' = .ok (formatTable F TABLE) ∧ DidText d d' a t ∧
      F.get "action" = "Player ".toList ++ decimal (a + 1) ++ " ".toList ++ t ++ "Action on Player ".toList ++ decimal (b + 1) := by
  rw [← isNeg_iff] at hf
  have h' : ArrayInHand S d' := by have := ArrayInHand.step bet h; rwa [hs] at this
  have hr' : ArrayReachable d' := by have := ArrayReachable.step bet hr; rwa [hs] at this
  have hcfg : d'.cfg = d.cfg := by have := step_cfg d bet; rwa [hs] at this
  have hbut : d'.button = d.button := by have := C72_step d bet; rwa [hs] at this
  obtain ⟨hso, hl, -⟩ := sound_of_action h hn hz ha
  have hpot : 0 ≤ (atSeat d).pot := nn_pot hl hso.nn
  have htwo : 2 ≤ d.cfg.numPlayers := hl.seated.two
  have key : (∃ p, payouts d' = .ok p) ∧ (done d').all id = false ∧ 0 ≤ moved d d' a ∧
      d'.history = d.history ++ [(a, moved d d' a, bet.isNeg)] := by
    cases step_cases h ha bet with
    | refused e h1 => rw [h1] at hs; cases hs
    | stuck b c lo hi e x hb' hbs hx hlx hp h1 => rw [h1] at hs; cases hs
    | ended b' c lo hi p x obs hb' hbs hx hlx hp hd ho h1 =>
      rw [h1] at hs
      obtain ⟨rfl, -⟩ := Prod.mk.inj hs
      cases hb
    | goesOn b' c lo hi p x obs hb' hbs hx hlx hp hd ho h1 =>
      rw [h1] at hs
      obtain ⟨rfl, -⟩ := Prod.mk.inj hs
      refine ⟨⟨p, hp⟩, hd, ?_⟩
      have e1 := (afterBet_sound_of h hn hz ha hb' hbs hx).2
      have hs0 : (atSeat d).betSizes = .ok (c, lo, hi) := hbs
      have e2 := (contribution_afterBet hl.seated bet.isNeg c (Clubs.cleanBet b' c lo hi) a (hl.seated.action a ha)).1
      have e3 := betOf_nonneg (b := b') hl.seated hpot hs0 bet.isNeg
      have e4 := cleanBet_le hs0 b'
      have e5 := (afterBet_fields (atSeat d) bet.isNeg c (Clubs.cleanBet b' c lo hi)).2.2.2.1
      rw [← e1] at e2 e5
      have hseat : (atSeat d).seat = a := seat_some ha
      rw [hseat] at e2 e4
      rw [if_pos rfl] at e2
      have h0' : 0 ≤ stack (atSeat d) a := h0
      have hmin : min (stack (atSeat d) a) (betOf bet.isNeg c (Clubs.cleanBet b' c lo hi)) =
          betOf bet.isNeg c (Clubs.cleanBet b' c lo hi) := by
        unfold betOf
        split <;> omega
      rw [hmin] at e2
      have e6 : moved d x a = betOf bet.isNeg c (Clubs.cleanBet b' c lo hi) := by
        have e2' : contribution x a = contribution d a + _ := e2
        unfold moved
        omega
      rw [e6]
      refine ⟨e3, ?_⟩
      have e5' : x.history = d.history ++ [((atSeat d).seat, betOf bet.isNeg c (Clubs.cleanBet b' c lo hi), bet.isNeg)] := e5
      rw [e5', hseat]
  obtain ⟨⟨p, hp⟩, hdone, hmv, hhist⟩ := key
  obtain ⟨c, hc, -, hstr⟩ := str_of h' hr' hp
  rw [if_pos (by rw [hcfg, hbut]; exact hbt)] at hstr
  unfold renderConfig at hc
  rw [hp] at hc
  simp only [Except.ok.injEq] at hc
  have c1 : c.done = false := by rw [← hc]; exact hdone
  have c2 : c.prevAction = some (a, moved d d' a, bet.isNeg) := by
    rw [← hc]
    show d'.history.getLast? = _
    rw [hhist, List.getLast?_append]
    rfl
  have c3 : c.action = some b := by rw [← hc]; exact hb
  have n1 : intStr ((a : Int) + 1) = decimal (a + 1) := by rw [intStr_nonneg (by omega)]; rfl
  have n2 : intStr ((b : Int) + 1) = decimal (b + 1) := by rw [intStr_nonneg (by omega)]; rfl
  refine ⟨strConfig d'.viewer c, if bet.isNeg = true then "folded ".toList else if moved d d' a ≠ 0 then
    "bet ".toList ++ intStr (moved d d' a) ++ " ".toList else "checked ".toList, hstr, ?_, ?_⟩
  · unfold DidText
    by_cases hneg : bet.isNeg = true
    · rw [if_pos hneg]
      exact .inl ⟨hf.1 hneg, rfl⟩
    · have hin : isIn d' a := by
        by_contra hx
        exact hneg (hf.2 hx)
      rw [if_neg hneg]
      by_cases hm : moved d d' a = 0
      · rw [if_neg (by simpa using hm)]
        exact .inr (.inl ⟨hin, hm, rfl⟩)
      · rw [if_pos hm, intStr_nonneg hmv]
        exact .inr (.inr ⟨hin, by omega, rfl⟩)
  · show parseActionString c c.done = _
    rw [c1]
    unfold parseActionString
    rw [c2, c3]
    simp only [Bool.false_eq_true, if_false, actionNumber, n1, n2]

set_option maxRecDepth 100000 in
example : ∃ S d d' out, ArrayInHand S d ∧ ArrayReachable d ∧ step d (.fin 5) = (d', .ok out) ∧ NonNegative S d.cfg ∧ SizesOk d.cfg ∧
    d.button < d.cfg.numPlayers ∧ d.action = some 0 ∧ 0 ≤ stack d 0 ∧ d'.action = some 1 ∧ isIn d' 0 ∧
    actionLine d' = some "Player 1 bet 5 Action on Player 2".toList :=
  step_exists (small 3 [1, 2, 0] 20) [] (.fin 5) (by decide +kernel)

set_option maxRecDepth 100000 in
/-- **C87 is false** of the line: of a player who folds by betting 0 it is said that they checked, and of a player who stays in with a bet
of −1 that they folded. -/
theorem C87_false_line : (∃ S d d' out, ArrayInHand S d ∧ ArrayReachable d ∧ step d (.fin 0) = (d', .ok out) ∧ d.action = some 0 ∧
      ¬ isIn d' 0 ∧ actionLine d' = some "Player 1 checked Action on Player 2".toList) ∧
    ∃ S d d' out, ArrayInHand S d ∧ ArrayReachable d ∧ step d (.fin (-1)) = (d', .ok out) ∧ d.action = some 2 ∧
      isIn d' 2 ∧ actionLine d' = some "Player 3 folded Action on Player 2".toList :=
  ⟨step_exists (small 3 [1, 2, 0] 20) [] (.fin 0) (by decide +kernel),
    step_exists (small 3 [1, 2, 0] 20) [.bet 2, .bet 1] (.fin (-1)) (by decide +kernel)⟩

/-! ## `render` -/

/-- **C87**: the first `render` of a dealer follows the mode, as C62. -/
theorem C87_mode (d : Dealer) (start : Except Err Unit) (mode : String) :
    (mode = "ascii" → (render d none start mode).1 = some .ascii ∧
      ∀ s, (render d none start mode).2 = .ok (.printed s) ↔ str d = .ok s) ∧
    (mode = "human" → start = .ok () → (render d none start mode).1 = some .graphic ∧
      ∀ m, (render d none start mode).2 = .ok (.sent m) ↔ ∃ c, renderConfig d = .ok c ∧ m = jsonify c) ∧
    (mode = "human" → ∀ e, start = .error e → render d none start mode = (none, .error e)) ∧
    (mode ≠ "ascii" → mode ≠ "human" → render d none start mode = (none, .error .invalidRenderMode)) ∧
    (∀ v, render d (some v) start mode = (some v, «show» d v)) := by
  refine ⟨?_, ?_, ?_, ?_, fun _ => rfl⟩
  · rintro rfl
    refine ⟨rfl, fun s => ?_⟩
    show «show» d .ascii = _ ↔ _
    unfold «show» str
    cases renderConfig d with
    | error e => simp
    | ok c =>
      simp only []
      cases parseAny d.viewer c <;> simp
  · rintro rfl rfl
    refine ⟨rfl, fun m => ?_⟩
    show «show» d .graphic = _ ↔ _
    unfold «show»
    cases renderConfig d <;> simp [eq_comm]
  · rintro rfl e rfl; rfl
  · intro h1 h2
    unfold render
    simp only [h1, h2, if_false]

end Clubs.Numpy

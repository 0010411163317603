import Verif.Lemmas.Secrecy
import Verif.Lemmas.Play
import Verif.Props.Showdown
import Verif.Model.Ascii

/-!
# C47, C48: hidden cards stay hidden
-/

namespace Clubs

open Spec

variable {S : List Int} {d d' e : Dealer} {bet : PyNum} {out : StepOut}

/-! ## C47 -/

/-- **C47**: if the tables `d` and `e` differ only in hole cards and undealt cards, and a step on `d` leaves the hand
running with `b` to act, then the same step on `e` has the same effect, and returns the same except that the observation
contains the hole cards `b` has on that table. The tables still differ only in hole cards and undealt cards. -/
theorem C47_step {b : Nat} (h : Alike d e) (hs : d.step bet = (d', .ok out)) (hb : d'.action = some b) :
    ∃ e', e.step bet = (e', .ok ({ out.1 with holeCards := e.holeCards.getD b [] }, out.2)) ∧ Alike d' e' ∧
      e'.holeCards = e.holeCards := by
  obtain ⟨e', h1, h2, h3, -⟩ := step_same h hs hb
  exact ⟨e', h1, h2, h3⟩

theorem alike_refl (d : Dealer) : Alike d d := ⟨rfl, rfl, rfl⟩

/-- the observation contains the hole cards of the player to act -/
theorem step_hole {b : Nat} (hs : d.step bet = (d', .ok out)) (hb : d'.action = some b) :
    out.1.holeCards = d.holeCards.getD b [] := by
  obtain ⟨e', h1, -, -⟩ := C47_step (alike_refl d) hs hb
  rw [hs] at h1
  have := (Prod.mk.inj h1).2
  simp only [Except.ok.injEq] at this
  rw [this]

/-- **C47**, one step: if the cards of the player to act next are the same on both tables, the results of the step are the
same. -/
theorem C47_same {b : Nat} (h : Alike d e) (hs : d.step bet = (d', .ok out)) (hb : d'.action = some b)
    (hole : e.holeCards.getD b [] = d.holeCards.getD b []) : (e.step bet).2 = .ok out := by
  obtain ⟨e', h1, -, -⟩ := C47_step h hs hb
  rw [h1, hole, ← step_hole hs hb]

/-- **C47**, a whole hand: if two tables differ only in the undealt cards and the hole cards of players other than `p`,
`p` is told the same on both, whatever the bets. -/
theorem C47_told (p : Nat) (bets : List PyNum) : ∀ {d e : Dealer}, Alike d e →
    e.holeCards.getD p [] = d.holeCards.getD p [] → told p e bets = told p d bets := by
  induction bets with
  | nil => intros; rfl
  | cons bet bets ih =>
    intro d e h hp
    have half : ∀ {d e : Dealer}, Alike d e → e.holeCards.getD p [] = d.holeCards.getD p [] →
        ∀ {d' : Dealer} {out : StepOut} {b : Nat}, d.step bet = (d', .ok out) → d'.action = some b →
        told p e (bet :: bets) = told p d (bet :: bets) := by
      intro d e h hp d' out b hs hb
      obtain ⟨e', h1, h2, h3⟩ := C47_step h hs hb
      obtain ⟨d'', h4, h5, h6⟩ := C47_step (alike_refl d) hs hb
      rw [hs] at h4
      have h7 : d' = d'' := (Prod.mk.inj h4).1
      subst h7
      have hb' : e'.action = some b := by rw [h2.visible]; exact hb
      unfold told
      rw [h1, hs]
      simp only [hb, hb']
      rw [ih h2 (by rw [h3, h6, hp])]
      by_cases hbp : b = p
      · subst hbp
        rw [hp, ← step_hole hs hb]
      · rw [if_neg hbp, if_neg hbp]
    cases hd : d.step bet with
    | mk d' r =>
      cases he : e.step bet with
      | mk e' r' =>
        by_cases h1 : ∃ out b, r = .ok out ∧ d'.action = some b
        · obtain ⟨out, b, rfl, hb⟩ := h1
          exact half h hp hd hb
        · by_cases h2 : ∃ out b, r' = .ok out ∧ e'.action = some b
          · obtain ⟨out, b, rfl, hb⟩ := h2
            exact (half h.symm hp.symm he hb).symm
          · have nil : ∀ {d d' : Dealer} {r : Except Err StepOut}, d.step bet = (d', r) →
                ¬ (∃ out b, r = .ok out ∧ d'.action = some b) → told p d (bet :: bets) = [] := by
              intro d d' r hd hn
              unfold told
              rw [hd]
              cases r with
              | error x => rfl
              | ok out =>
                simp only []
                cases hb : d'.action with
                | none => rfl
                | some b => exact absurd ⟨out, b, rfl, hb⟩ hn
            rw [nil hd h1, nil he h2]

/-- what `reset` deals does not influence anything else -/
theorem posted_swap (d : Dealer) (rb rs : Bool) (s1 s2 : Shuffle) :
    (d.posted rb rs s2).moveAction.moveAction = { (d.posted rb rs s1).moveAction.moveAction with
      communityCards := (d.posted rb rs s2).moveAction.moveAction.communityCards
      holeCards := (d.posted rb rs s2).moveAction.moveAction.holeCards
      deck := (d.posted rb rs s2).moveAction.moveAction.deck } := by
  unfold Dealer.posted Dealer.blindStart
  split <;> rfl

/-- **C47**, a new hand: if the same community cards are turned up, two shuffles give observations that differ at most in
the hole cards of the player to act, and if also the community cards to come are the same, tables that differ only in
hidden cards. -/
theorem C47_reset {d d1 d2 : Dealer} {rb rs : Bool} {s1 s2 : Shuffle} {o1 o2 : Observation} (hd : Reachable d)
    (h1 : d.reset rb rs s1 = (d1, .ok o1)) (h2 : d.reset rb rs s2 = (d2, .ok o2))
    (hc : d2.communityCards = d1.communityCards) :
    d2.action = d1.action ∧
    (∀ a, d1.action = some a → o1.holeCards = d1.holeCards.getD a [] ∧
      o2 = { o1 with holeCards := d2.holeCards.getD a [] }) ∧
    (d2.deck.cards.take (toDeal d1) = d1.deck.cards.take (toDeal d1) → Alike d1 d2) := by
  obtain ⟨-, -, e1, g1⟩ := reset_ok h1
  obtain ⟨-, -, e2, g2⟩ := reset_ok h2
  have key := posted_swap d rb rs s1 s2
  rw [← e1, ← e2, hc] at key
  have l1 := (dealt_live (reachable_seated hd) h1).1
  have l2 := (dealt_live (reachable_seated hd) h2).1
  have hcfg : d2.cfg = d1.cfg := by rw [key]
  have hlen : d2.holeCards.length = d1.holeCards.length := by rw [l1.holeLen, l2.holeLen, hcfg]
  have hvis : d2 = { d1 with holeCards := d2.holeCards, deck := d2.deck } := key
  have hact : d2.action = d1.action := by rw [hvis]
  refine ⟨hact, ?_, fun hk => ⟨hvis, hlen, hk⟩⟩
  intro a ha
  obtain ⟨hb, ho⟩ := observation_some ha g1
  refine ⟨ho, ?_⟩
  -- the same table with the deck of `d1`
  have hs : Alike d1 { d1 with holeCards := d2.holeCards } := ⟨rfl, hlen, rfl⟩
  have h3 := observation_same hs g1 ha
  have h4 : d2.observation false = ({ d1 with holeCards := d2.holeCards } : Dealer).observation false := by
    rw [hvis]; rfl
  rw [g2, h3] at h4
  simpa using h4

/-- **C47**, from the deal on: two shuffles that give `p` the same cards and the same board look the same to `p`. -/
theorem C47_hand {d d1 d2 : Dealer} {rb rs : Bool} {s1 s2 : Shuffle} {o1 o2 : Observation} (hd : Reachable d)
    (h1 : d.reset rb rs s1 = (d1, .ok o1)) (h2 : d.reset rb rs s2 = (d2, .ok o2))
    (hc : d2.communityCards = d1.communityCards)
    (hk : d2.deck.cards.take (toDeal d1) = d1.deck.cards.take (toDeal d1)) (p : Nat)
    (hp : d2.holeCards.getD p [] = d1.holeCards.getD p []) (bets : List PyNum) :
    (d1.action = some p → o2 = o1) ∧ told p d2 bets = told p d1 bets := by
  obtain ⟨-, h4, h5⟩ := C47_reset hd h1 h2 hc
  refine ⟨fun ha => ?_, C47_told p bets (h5 hk) hp⟩
  obtain ⟨g1, g2⟩ := h4 p ha
  rw [g2, hp, ← g1]

/-- a step after which the hands of two players can be exchanged without the third noticing -/
example : ∃ S d e d' out, InHand S d ∧ Alike d e ∧ e.holeCards ≠ d.holeCards ∧ d.step (.fin 2) = (d', .ok out) ∧
    d'.action = some 1 ∧ e.holeCards.getD 1 [] = d.holeCards.getD 1 [] := by
  obtain ⟨S, d, d', out, h1, -, h2, h3, h4, h5⟩ := step_exists (small 3 [1, 2, 0] 10) [] (.fin 2) (P := fun S d d' out =>
    d'.action = some 1 ∧ d.holeCards.length = 3 ∧ d.holeCards.getD 0 [] ≠ d.holeCards.getD 2 []) (by decide +kernel)
  refine ⟨S, d, { d with holeCards := [d.holeCards.getD 2 [], d.holeCards.getD 1 [], d.holeCards.getD 0 []] }, d', out, h1,
    ⟨rfl, h4.symm, rfl⟩, ?_, h2, h3, rfl⟩
  intro hc
  exact h5 (congrArg (fun l => l.getD 2 []) hc)

/-! ## C48 -/

theorem parsePlayers_congr {v : Viewer} {c c' : RenderConfig} {done : Bool} (h1 : c'.stacks = c.stacks)
    (h2 : c'.active = c.active) (h3 : c'.holeCards.length = c.holeCards.length)
    (h4 : ∀ i, c.active.getD i false = true → (done = true ∨ some i = c.action) →
      c'.holeCards.getD i [] = c.holeCards.getD i []) :
    parsePlayers v c' done c.action = parsePlayers v c done c.action := by
  unfold parsePlayers
  rw [h1, h2]
  apply List.ext_getElem
  · simp [h3]
  · intro i hi1 hi2
    simp only [List.length_map, List.length_zipIdx, List.length_zip] at hi1 hi2
    simp only [List.getElem_map, List.getElem_zipIdx, List.getElem_zip]
    unfold playerString
    have ha : c.active.getD i false = c.active[i] := getD_eq _ _ _ (by omega)
    have hh := h4 i
    rw [getD_eq _ _ _ (by omega), getD_eq _ _ _ (by omega), getD_eq _ _ _ (by omega)] at hh
    simp only [Nat.zero_add]
    split
    · rfl
    · rename_i hx
      split
      · rename_i hy
        rw [hh (by simpa using hx) (by simpa using hy)]
      · rfl

theorem parseString_congr {v : Viewer} {c : RenderConfig} {H : List (List Card)} (h3 : H.length = c.holeCards.length)
    (h4 : ∀ i, c.active.getD i false = true → (c.done = true ∨ some i = c.action) →
      H.getD i [] = c.holeCards.getD i []) :
    parseString v { c with holeCards := H } = parseString v c := by
  unfold parseString strConfig
  have := parsePlayers_congr (v := v) (c := c) (c' := { c with holeCards := H }) (done := c.done) rfl rfl h3 h4
  simp only [this]
  rfl

theorem str_same (h : Alike d e) (hd : d.done.all id = false)
    (hole : ∀ a, d.action = some a → e.holeCards.getD a [] = d.holeCards.getD a []) :
    (∃ s, d.str = .ok s) ∧ e.str = d.str := by
  have hrun : ¬ (d.street ≥ d.cfg.numStreets ∨ countTrue d.active ≤ 1) := by
    intro hc
    rw [Dealer.done, if_pos hc] at hd
    simp at hd
  obtain ⟨p, hpd⟩ : ∃ p, d.payouts = .ok p := by
    unfold Dealer.payouts
    simp only []
    rw [if_neg (by omega), if_neg (by omega)]
    exact ⟨_, rfl⟩
  have hpe : e.payouts = .ok p := by
    rw [← hpd, h.eq_swap]
    unfold Dealer.payouts
    simp only []
    rw [if_neg (by show ¬ countTrue d.active = 1; omega), if_neg (by show ¬ d.street ≥ d.cfg.numStreets; omega),
      if_neg (by omega), if_neg (by omega)]
    rfl
  obtain ⟨c, hc, c1, c2, c3⟩ : ∃ c, d.renderConfig = .ok c ∧ c.done = d.done.all id ∧ c.action = d.action ∧
      c.holeCards = d.holeCards := by
    unfold Dealer.renderConfig
    rw [hpd]
    exact ⟨_, rfl, rfl, rfl, rfl⟩
  have hce : e.renderConfig = .ok { c with holeCards := e.holeCards } := by
    unfold Dealer.renderConfig at hc ⊢
    rw [hpd] at hc
    rw [hpe]
    simp only [Except.ok.injEq] at hc ⊢
    rw [← hc]
    have hv := h.visible
    generalize e.holeCards = H at *
    generalize e.deck = D at *
    subst hv
    rfl
  have hvw : e.viewer = d.viewer := by rw [h.visible]; rfl
  unfold Dealer.str
  rw [hc, hce, hvw]
  refine ⟨⟨_, rfl⟩, ?_⟩
  simp only []
  rw [parseString_congr (by rw [c3]; exact h.seats)]
  intro i _ h2
  rw [c1, c2, c3] at *
  rcases h2 with h2 | h2
  · rw [hd] at h2; cases h2
  · exact hole i h2.symm

/-- **C48** (partial: not if all players were put all-in by blinds and antes, see `C48_false`): while a hand is running,
the picture of the table depends on hidden cards only through the hole cards of the player to act. -/
theorem C48_running_partial (h : InHand S d) (hr : Running d) (hc : ∃ i, isIn d i ∧ stack d i ≠ 0) (he : Alike d e)
    (hole : ∀ a, d.action = some a → e.holeCards.getD a [] = d.holeCards.getD a []) :
    (∃ s, d.str = .ok s) ∧ e.str = d.str := by
  obtain ⟨⟨a, ha⟩, hst⟩ := hr
  obtain ⟨hl, h2⟩ := live_of_action h ha
  have := h2 hst
  apply str_same he _ hole
  rw [Dealer.done, if_neg (by omega), List.all_eq_false]
  obtain ⟨i, h3, h4⟩ := hc
  have hi : i < d.active.length := by
    by_contra hc
    unfold isIn at h3
    rw [getD_out _ _ _ (by omega)] at h3
    cases h3
  have hi2 : i < d.stacks.length := by rw [hl.seated.stacks, ← hl.seated.active]; exact hi
  refine ⟨_, List.getElem_mem (n := i) (by simp; omega), ?_⟩
  unfold isIn at h3
  unfold stack at h4
  rw [getD_eq _ _ _ hi] at h3
  rw [getD_eq _ _ _ hi2] at h4
  simp [h3, h4]

/-- **C48**: the same after every step that does not end the hand, without exception. -/
theorem C48_step {b : Nat} (hs : d.step bet = (d', .ok out)) (hb : d'.action = some b) (he : Alike d' e)
    (hole : e.holeCards.getD b [] = d'.holeCards.getD b []) : (∃ s, d'.str = .ok s) ∧ e.str = d'.str := by
  apply str_same he
  · exact step_notDone hs hb
  · intro a ha
    rw [hb] at ha
    cases ha
    exact hole

theorem evalHands_congr {H : List (List Card)} (hlen : H.length = d.holeCards.length)
    (hole : ∀ i, isIn d i → H.getD i [] = d.holeCards.getD i []) (cc : List Card) :
    d.evalHands H cc = d.evalHands d.holeCards cc := by
  unfold Dealer.evalHands
  congr 1
  funext i
  split
  · rename_i ha
    have hi := hole i ha
    by_cases hx : i < H.length
    · rw [getD_eq _ _ _ hx, getD_eq _ _ _ (by omega)] at hi
      rw [List.getElem?_eq_getElem hx, List.getElem?_eq_getElem (by omega), hi]
    · rw [List.getElem?_eq_none (by omega), List.getElem?_eq_none (by omega)]
  · rfl

/-- **C48**: the cards of players who are not in the hand are never shown, not even after the hand: changing them changes
nothing in the picture. -/
theorem C48_folded {H : List (List Card)} (hlen : H.length = d.holeCards.length)
    (hole : ∀ i, isIn d i → H.getD i [] = d.holeCards.getD i []) :
    ({ d with holeCards := H } : Dealer).str = d.str := by
  have h1 : ({ d with holeCards := H } : Dealer).payouts = d.payouts := by
    have h2 : ({ d with holeCards := H } : Dealer).evalRound = d.evalRound := by
      unfold Dealer.evalRound
      rw [← evalHands_congr hlen hole]
      rfl
    unfold Dealer.payouts
    rw [h2]
  unfold Dealer.str Dealer.renderConfig
  rw [h1]
  cases d.payouts with
  | error x => rfl
  | ok p =>
    simp only [Except.ok.injEq]
    exact parseString_congr (v := d.viewer) (c := {
      action := d.action
      active := d.active
      allIn := List.zipWith (fun (active : Bool) stack => active && stack == 0) d.active d.stacks
      communityCards := d.communityCards
      button := d.button
      done := d.done.all id
      holeCards := d.holeCards
      pot := d.pot
      payouts := p
      prevAction := d.history.getLast?
      streetCommits := d.streetCommits
      «stacks» := d.stacks }) hlen (fun i hi _ => hole i hi)

/-- the hand of seat 1 exchanged for the top card of the deck -/
def exchanged (d : Dealer) : Dealer :=
  { d with
    holeCards := d.holeCards.set 1 (d.deck.cards.take 1)
    deck := { d.deck with cards := d.holeCards.getD 1 [] ++ d.deck.cards.drop 1 } }

/-- the pictures of two tables -/
def pictures (d e : Dealer) : Option (Str × Str) :=
  match d.str, e.str with
  | .ok s, .ok t => some (s, t)
  | _, _ => none

set_option maxRecDepth 100000 in
/-- **C48 is false** if blinds put everybody all-in: player 0 is to act, and the picture shows the cards of player 1. -/
theorem C48_false : ∃ S d e, InHand S d ∧ Reachable d ∧ Running d ∧ Alike d e ∧ d.action = some 0 ∧
    e.holeCards.getD 0 [] = d.holeCards.getD 0 [] ∧ ∃ s t, d.str = .ok s ∧ e.str = .ok t ∧ s ≠ t := by
  obtain ⟨S, d, h1, h2, h3, h4, h5, h6, h7⟩ := hand_exists (small 2 [1, 1] 1) []
    (P := fun S d => Running d ∧ d.action = some 0 ∧ toDeal d = 0 ∧
      (exchanged d).holeCards.getD 0 [] = d.holeCards.getD 0 [] ∧
      (pictures d (exchanged d)).any (fun r => decide (r.1 ≠ r.2)) = true) (by decide +kernel)
  refine ⟨S, d, exchanged d, h1, h2, h3, ⟨rfl, ?_, ?_⟩, h4, h6, ?_⟩
  · simp [exchanged]
  · rw [h5]; rfl
  · unfold pictures at h7
    split at h7
    · rename_i s t hs ht
      exact ⟨s, t, hs, ht, by simpa using h7⟩
    · simp at h7

/-- a running hand with chips to bet -/
example : ∃ S d e, InHand S d ∧ Running d ∧ (∃ i, isIn d i ∧ stack d i ≠ 0) ∧ Alike d e ∧
    (∀ a, d.action = some a → e.holeCards.getD a [] = d.holeCards.getD a []) ∧ e.holeCards ≠ d.holeCards := by
  obtain ⟨S, d, h1, -, h3, h4, h5, h6, h7, h8, h9⟩ := hand_exists (small 2 [1, 2] 10) []
    (P := fun S d => Running d ∧ d.action = some 0 ∧ toDeal d = 0 ∧
      (exchanged d).holeCards.getD 0 [] = d.holeCards.getD 0 [] ∧ isIn d 0 ∧ stack d 0 ≠ 0 ∧
      (exchanged d).holeCards ≠ d.holeCards) (by decide +kernel)
  refine ⟨S, d, exchanged d, h1, h3, ⟨0, h7, h8⟩, ⟨rfl, ?_, ?_⟩, ?_, h9⟩
  · simp [exchanged]
  · rw [h5]; rfl
  · intro a ha
    rw [h4] at ha
    cases ha
    exact h6

end Clubs

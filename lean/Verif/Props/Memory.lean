import Verif.Props.Dealing
import Verif.Props.Replay
import Verif.Props.NumpyReplay
import Verif.Props.NumpyCards

/-!
# Property C99: only chips and button carry over from hand to hand
-/

namespace Clubs

open Spec

/-- tables that were created with the arguments `a` and used in any way since then -/
inductive Spec.UsedTable (a : DealerArgs) : Dealer → Prop
  | new {shuf : Shuffle} {d : Dealer} (hs : IsShuffle shuf) (h : Dealer.new a shuf = .ok d) : UsedTable a d
  | reset {d : Dealer} (rb rs : Bool) {shuf : Shuffle} (hs : IsShuffle shuf) (h : UsedTable a d) : UsedTable a (d.reset rb rs shuf).1
  | step {d : Dealer} (bet : PyNum) (h : UsedTable a d) : UsedTable a (d.step bet).1
  | trick {d : Dealer} {top : List Card} {deck : Deck} (h : UsedTable a d)
      (hp : top.Pairwise fun a b => a.eq b = false) (ht : d.deck.trick top = .ok deck) : UsedTable a { d with deck := deck }
  | untrick {d : Dealer} (h : UsedTable a d) : UsedTable a { d with deck := d.deck.untrick }

variable {d e : Dealer} {a : DealerArgs}

theorem used_reachable (h : UsedTable a d) : Reachable d := by
  induction h with
  | new hs h => exact .new hs h
  | reset rb rs hs _ ih => exact .reset rb rs hs ih
  | step bet _ ih => exact .step bet ih
  | trick _ hp ht ih => exact .trick ih hp ht
  | untrick _ ih => exact .untrick ih

/-! ## what stays of the deck -/

/-- a deck without its cards and without the marks of `trick` -/
def deckFrame (k : Deck) : Deck := { k.untrick with cards := [] }

/-- marks of `trick` are only on tricked decks -/
def Unmarked (k : Deck) : Prop := k.tricked = false → k.topIdcs = [] ∧ k.bottomIdcs = []

theorem shuffle_frame (k : Deck) (shuf : Shuffle) : deckFrame (k.shuffle shuf) = deckFrame k ∧ (Unmarked k → Unmarked (k.shuffle shuf)) := by
  unfold Deck.shuffle
  split <;> exact ⟨rfl, fun h => h⟩

theorem cards_frame (k : Deck) (cards : List Card) : deckFrame { k with cards := cards } = deckFrame k ∧ (Unmarked k → Unmarked { k with cards := cards }) :=
  ⟨rfl, fun h => h⟩

theorem shuffle_of_frame {k l : Deck} (h : deckFrame k = deckFrame l) (hk : Unmarked k) (hl : Unmarked l) (tk : k.tricked = false)
    (tl : l.tricked = false) (shuf : Shuffle) : k.shuffle shuf = l.shuffle shuf := by
  obtain ⟨hk1, hk2⟩ := hk tk
  obtain ⟨hl1, hl2⟩ := hl tl
  obtain ⟨a1, a2, a3, a4, a5, a6, a7⟩ := k
  obtain ⟨b1, b2, b3, b4, b5, b6, b7⟩ := l
  simp only at hk1 hk2 hl1 hl2 tk tl
  subst hk1 hk2 hl1 hl2 tk tl
  simp only [deckFrame, Deck.untrick, Deck.mk.injEq, and_true] at h
  obtain ⟨rfl, rfl, rfl⟩ := h
  rfl

theorem trick_of_frame {k l k' : Deck} {top : List Card} (h : deckFrame k = deckFrame l) (hk : k.trick top = .ok k') (shuf : Shuffle) :
    ∃ l', l.trick top = .ok l' ∧ k'.shuffle shuf = l'.shuffle shuf := by
  obtain ⟨a1, a2, a3, a4, a5, a6, a7⟩ := k
  obtain ⟨b1, b2, b3, b4, b5, b6, b7⟩ := l
  simp only [deckFrame, Deck.untrick, Deck.mk.injEq, and_true] at h
  obtain ⟨rfl, rfl, rfl⟩ := h
  unfold Deck.trick at hk ⊢
  split at hk
  · cases hk
  · rename_i idcs he
    simp only [Except.ok.injEq] at hk
    subst hk
    rw [show List.mapM _ top = _ from he]
    refine ⟨_, rfl, ?_⟩
    unfold Deck.shuffle
    split <;> rfl

theorem reset_frame (d : Dealer) (rb rs : Bool) (shuf : Shuffle) :
    deckFrame (d.reset rb rs shuf).1.deck = deckFrame d.deck ∧ (Unmarked d.deck → Unmarked (d.reset rb rs shuf).1.deck) := by
  have hsh := shuffle_frame d.deck shuf
  rcases reset_eq d rb rs shuf with ⟨-, -, h⟩ | ⟨-, ⟨-, h⟩ | ⟨-, h⟩⟩
  · rw [h]; exact ⟨rfl, fun h => h⟩
  · rw [h]; exact hsh
  · rw [h]
    obtain ⟨o, ho⟩ := blindStart_fields d rb rs shuf
    have e2 : (d.posted rb rs shuf).moveAction.moveAction.deck = (d.fresh rb rs shuf).deck := by
      show (d.blindStart rb rs shuf).deck = _
      rw [ho]
    rw [e2, (fresh_cards d rb rs shuf).2.2.2]
    have := cards_frame (d.deck.shuffle shuf) (((d.deck.shuffle shuf).cards.drop (d.cfg.numCommunityCards.getD 0 0).toNat).drop
        (d.cfg.numPlayers * d.cfg.numHoleCards.toNat))
    exact ⟨this.1.trans hsh.1, fun h => this.2 (hsh.2 h)⟩

theorem step_frame (hd : Seated d) (bet : PyNum) :
    deckFrame (d.step bet).1.deck = deckFrame d.deck ∧ (Unmarked d.deck → Unmarked (d.step bet).1.deck) := by
  cases ha : d.action with
  | none => rw [step_none ha]; exact ⟨rfl, fun h => h⟩
  | some a =>
    rcases step_some ha bet with ⟨e, -, h2⟩ | ⟨b, e, -, -, h2⟩ | ⟨b, c, lo, hi, -, -, h2⟩
    · rw [h2]; exact ⟨rfl, fun h => h⟩
    · rw [h2]; exact ⟨rfl, fun h => h⟩
    · rw [h2]
      have hx : deckFrame (d.afterBet bet.isNeg c (cleanBet b c lo hi)).deck = deckFrame d.deck ∧
          (Unmarked d.deck → Unmarked (d.afterBet bet.isNeg c (cleanBet b c lo hi)).deck) := by
        rw [(afterBet_cards hd.community bet.isNeg c (cleanBet b c lo hi)).2.2.1]
        exact cards_frame _ _
      rcases finish_cases (d.afterBet bet.isNeg c (cleanBet b c lo hi)) with ⟨e, -, h3⟩ | ⟨p, -, -, h3, -⟩ | ⟨p, -, -, h3, -⟩
      · rw [h3]; exact hx
      · rw [h3]; exact hx
      · rw [h3]; exact hx

theorem trick_frame {k l : Deck} {top : List Card} (h : k.trick top = .ok l) : deckFrame l = deckFrame k ∧ Unmarked l := by
  unfold Deck.trick at h
  split at h
  · cases h
  · simp only [Except.ok.injEq] at h
    subst h
    exact ⟨rfl, fun h => by cases h⟩

/-- the table the constructor makes does not depend on the shuffle, except for the order of the cards -/
theorem new_same {s s' : Shuffle} (h : Dealer.new a s = .ok d) (h' : Dealer.new a s' = .ok e) :
    d.cfg = e.cfg ∧ deckFrame d.deck = deckFrame e.deck ∧ Unmarked d.deck ∧ Unmarked e.deck ∧ d.deck.tricked = false := by
  unfold Dealer.new at h h'
  simp only [bind, Except.bind, pure, Except.pure] at h h'
  have hdeck : ∀ {s s' : Shuffle} {k l : Deck}, Deck.new a.numSuits a.numRanks s = .ok k → Deck.new a.numSuits a.numRanks s' = .ok l →
      deckFrame k = deckFrame l ∧ Unmarked k ∧ Unmarked l ∧ k.tricked = false := by
    intro s s' k l hk hl
    rw [Deck.new_eq] at hk hl
    split at hk
    · cases hk
    · rw [if_neg ‹_›] at hl
      split at hk
      · cases hk
      · rw [if_neg ‹_›] at hl
        simp only [Except.ok.injEq] at hk hl
        subst hk hl
        exact ⟨rfl, fun _ => ⟨rfl, rfl⟩, fun _ => ⟨rfl, rfl⟩, rfl⟩
  cases h1 : checkInp a.blinds a.numPlayers with
  | error x => rw [h1] at h; cases h
  | ok blinds =>
  rw [h1] at h h'
  simp only [] at h h'
  cases h2 : checkInp a.antes a.numPlayers with
  | error x => rw [h2] at h; cases h
  | ok antes =>
  rw [h2] at h h'
  simp only [] at h h'
  cases h3 : checkInp a.raiseSizes a.numStreets with
  | error x => rw [h3] at h; cases h
  | ok sizes =>
  rw [h3] at h h'
  simp only [] at h h'
  cases h4 : checkInp a.numRaises a.numStreets with
  | error x => rw [h4] at h; cases h
  | ok raises =>
  rw [h4] at h h'
  simp only [] at h h'
  cases h5 : checkInp a.numCommunityCards a.numStreets with
  | error x => rw [h5] at h; cases h
  | ok comm =>
  rw [h5] at h h'
  simp only [] at h h'
  cases h6 : pyGet blinds 1 with
  | error x => rw [h6] at h; cases h
  | ok big =>
  rw [h6] at h h'
  simp only [] at h h'
  cases h7 : sizes.mapM cleanRs with
  | error x => rw [h7] at h; cases h
  | ok sizes' =>
  rw [h7] at h h'
  simp only [] at h h'
  cases h8 : raises.mapM cleanNumRaises with
  | error x => rw [h8] at h; cases h
  | ok raises' =>
  rw [h8] at h h'
  simp only [] at h h'
  cases k1 : Deck.new a.numSuits a.numRanks s with
  | error x => rw [k1] at h; cases h
  | ok deck =>
  cases k2 : Deck.new a.numSuits a.numRanks s' with
  | error x => rw [k2] at h'; cases h'
  | ok deck' =>
  rw [k1] at h
  rw [k2] at h'
  simp only [] at h h'
  cases k3 : Evaluator.new a.numSuits a.numRanks a.numCardsForHand a.mandatoryNumHoleCards a.lowEndStraight a.order with
  | error x => rw [k3] at h; cases h
  | ok ev =>
  rw [k3] at h h'
  simp only [] at h h'
  cases k4 : dictGet POS_DICT a.numPlayers.toNat with
  | none => rw [k4] at h; cases h
  | some pos =>
  rw [k4] at h h'
  simp only [Except.ok.injEq] at h h'
  subst h h'
  exact ⟨rfl, hdeck k1 k2⟩

/-- all tables created with the same arguments agree in what cannot change -/
theorem used_same (h : UsedTable a d) : ∃ s d0, Dealer.new a s = .ok d0 ∧ d.cfg = d0.cfg ∧ deckFrame d.deck = deckFrame d0.deck ∧ Unmarked d.deck := by
  induction h with
  | new hs h => exact ⟨_, _, h, rfl, rfl, (new_same h h).2.2.1⟩
  | @reset d rb rs shuf hs h ih =>
    obtain ⟨s, d0, h1, h2, h3, h4⟩ := ih
    have := reset_frame d rb rs shuf
    exact ⟨s, d0, h1, (reset_cfg _ rb rs _).trans h2, this.1.trans h3, this.2 h4⟩
  | step bet h ih =>
    obtain ⟨s, d0, h1, h2, h3, h4⟩ := ih
    have := step_frame (reachable_seated (used_reachable h)) bet
    exact ⟨s, d0, h1, (step_cfg _ bet).trans h2, this.1.trans h3, this.2 h4⟩
  | trick h hp ht ih =>
    obtain ⟨s, d0, h1, h2, h3, h4⟩ := ih
    have := trick_frame ht
    exact ⟨s, d0, h1, h2, this.1.trans h3, this.2⟩
  | untrick h ih =>
    obtain ⟨s, d0, h1, h2, h3, h4⟩ := ih
    exact ⟨s, d0, h1, h2, h3, fun _ => ⟨rfl, rfl⟩⟩

theorem fresh_forgets (hc : d.cfg = e.cfg) {shuf : Shuffle} (hk : d.deck.shuffle shuf = e.deck.shuffle shuf) {rb rs : Bool}
    (hs : rs = true ∨ d.stacks = e.stacks) (hb : rb = true ∨ d.button = e.button) : d.fresh rb rs shuf = e.fresh rb rs shuf := by
  have hstart : startStacks d rs = startStacks e rs := by
    unfold startStacks
    rcases hs with rfl | hs
    · rw [hc]; rfl
    · rw [hc, hs]
  have hact : (if rs then List.replicate d.cfg.numPlayers true else d.stacks.map fun s => decide (s > 0)) =
      if rs then List.replicate e.cfg.numPlayers true else e.stacks.map fun s => decide (s > 0) := by
    rcases hs with rfl | hs
    · rw [hc]; rfl
    · rw [hc, hs]
  have hbut : (if rb then 0 else (d.button + 1) % d.cfg.numPlayers) = if rb then 0 else (e.button + 1) % e.cfg.numPlayers := by
    rcases hb with rfl | hb
    · rfl
    · rw [hc, hb]
  unfold Dealer.fresh
  simp only [hc] at hact hbut hstart ⊢
  rw [hact, hbut, hk, hstart]

theorem reset_forgets (hc : d.cfg = e.cfg) {shuf : Shuffle} (hk : d.deck.shuffle shuf = e.deck.shuffle shuf) {rb rs : Bool}
    (hs : rs = true ∨ d.stacks = e.stacks) (hb : rb = true ∨ d.button = e.button) :
    (d.reset rb rs shuf).2 = (e.reset rb rs shuf).2 ∧
    ∀ obs, (d.reset rb rs shuf).2 = .ok obs → (d.reset rb rs shuf).1 = (e.reset rb rs shuf).1 := by
  have hf := fresh_forgets hc hk hs hb
  have hp : d.posted rb rs shuf = e.posted rb rs shuf := by
    unfold Dealer.posted Dealer.blindStart
    rw [hf, hc]
  have hfew : ∀ x y : Dealer, (rs = true ∨ x.stacks = y.stacks) → rs = false → countTrue (x.stacks.map fun s => decide (s > 0)) ≤ 1 →
      ¬ (rs = true ∨ 2 ≤ countTrue (y.stacks.map fun s => decide (s > 0))) := by
    rintro x y (h1 | h1) h2 h3 (h4 | h4)
    · rw [h1] at h2; cases h2
    · rw [h1] at h2; cases h2
    · rw [h4] at h2; cases h2
    · rw [h1] at h3; omega
  rcases reset_eq d rb rs shuf with ⟨g1, g2, g⟩ | ⟨g1, g⟩
  · rcases reset_eq e rb rs shuf with ⟨k1, k2, k⟩ | ⟨k1, -⟩
    · rw [g, k]; exact ⟨rfl, fun obs h => by cases h⟩
    · exact absurd k1 (hfew _ _ hs g1 g2)
  · rcases reset_eq e rb rs shuf with ⟨k1, k2, -⟩ | ⟨-, k⟩
    · exact absurd g1 (hfew _ _ (hs.imp id Eq.symm) k1 k2)
    · rw [← hc, ← hp] at k
      rcases g with ⟨g2, g⟩ | ⟨g2, g⟩
      · rcases k with ⟨-, k⟩ | ⟨k2, -⟩
        · rw [g, k]; exact ⟨rfl, fun obs h => by cases h⟩
        · omega
      · rcases k with ⟨k2, -⟩ | ⟨-, k⟩
        · omega
        · rw [g, k]; exact ⟨rfl, fun _ _ => rfl⟩

/-- **C99**: what `reset` returns and the table it leaves depend on nothing but the arguments of the constructor, the chips of the players
(unless they are reset), the button (unless it is reset) and the shuffle. -/
theorem C99_reset (h : UsedTable a d) (h' : UsedTable a e) (ht : d.deck.tricked = false) (ht' : e.deck.tricked = false) {rb rs : Bool}
    (hs : rs = true ∨ d.stacks = e.stacks) (hb : rb = true ∨ d.button = e.button) (shuf : Shuffle) :
    (d.reset rb rs shuf).2 = (e.reset rb rs shuf).2 ∧
    ∀ obs, (d.reset rb rs shuf).2 = .ok obs → (d.reset rb rs shuf).1 = (e.reset rb rs shuf).1 := by
  obtain ⟨s1, d1, n1, c1, f1, u1⟩ := used_same h
  obtain ⟨s2, d2, n2, c2, f2, u2⟩ := used_same h'
  obtain ⟨n3, n4, -⟩ := new_same n1 n2
  exact reset_forgets (by rw [c1, c2, n3]) (shuffle_of_frame (f1.trans (n4.trans f2.symm)) u1 u2 ht ht' shuf) hs hb

/-- **C99**, tricked decks: with the same cards put on top, `trick` and the deal after it do not depend on the past either. -/
theorem C99_trick (h : UsedTable a d) (h' : UsedTable a e) {top : List Card} {k : Deck} (ht : d.deck.trick top = .ok k) {rb rs : Bool}
    (hs : rs = true ∨ d.stacks = e.stacks) (hb : rb = true ∨ d.button = e.button) (shuf : Shuffle) :
    ∃ l, e.deck.trick top = .ok l ∧
      (({ d with deck := k } : Dealer).reset rb rs shuf).2 = (({ e with deck := l } : Dealer).reset rb rs shuf).2 ∧
      ∀ obs, (({ d with deck := k } : Dealer).reset rb rs shuf).2 = .ok obs →
        (({ d with deck := k } : Dealer).reset rb rs shuf).1 = (({ e with deck := l } : Dealer).reset rb rs shuf).1 := by
  obtain ⟨s1, d1, n1, c1, f1, u1⟩ := used_same h
  obtain ⟨s2, d2, n2, c2, f2, u2⟩ := used_same h'
  obtain ⟨n3, n4, -⟩ := new_same n1 n2
  obtain ⟨l, hl, hk⟩ := trick_of_frame (f1.trans (n4.trans f2.symm)) ht shuf
  exact ⟨l, hl, reset_forgets (d := { d with deck := k }) (e := { e with deck := l }) (show d.cfg = e.cfg by rw [c1, c2, n3]) hk hs hb⟩

/-- **C99**: the whole hand that follows is the same: every step returns the same, whatever has been played at the two tables before. -/
theorem C99_hand (h : UsedTable a d) (h' : UsedTable a e) (ht : d.deck.tricked = false) (ht' : e.deck.tricked = false) {rb rs : Bool}
    (hs : rs = true ∨ d.stacks = e.stacks) (hb : rb = true ∨ d.button = e.button) {shuf : Shuffle} {d' : Dealer} {obs : Observation}
    (hr : d.reset rb rs shuf = (d', .ok obs)) :
    e.reset rb rs shuf = (d', .ok obs) ∧ ∀ (bets : List PyNum) (bet : PyNum),
      (Spec.afterBets d' bets).step bet = (Spec.afterBets (e.reset rb rs shuf).1 bets).step bet := by
  obtain ⟨h1, h2⟩ := C99_reset h h' ht ht' hs hb shuf
  rw [hr] at h1 h2
  have h3 := h2 obs rfl
  refine ⟨Prod.ext h3.symm h1.symm, fun bets bet => ?_⟩
  rw [← h3]

/-- **C99**: `reset(reset_button=True, reset_stacks=True)` makes every table as good as new: it does the same as at a table that has just been
created. -/
theorem C99_fresh {s : Shuffle} {d0 : Dealer} (hi : IsShuffle s) (h0 : Dealer.new a s = .ok d0) (h : UsedTable a d)
    (ht : d.deck.tricked = false) (shuf : Shuffle) :
    (d.reset true true shuf).2 = (d0.reset true true shuf).2 ∧
    ∀ obs, (d.reset true true shuf).2 = .ok obs → (d.reset true true shuf).1 = (d0.reset true true shuf).1 := by
  exact C99_reset h (.new hi h0) ht (new_same h0 h0).2.2.2.2 (.inl rfl) (.inl rfl) shuf

/-- a table, from a computation: the one the constructor makes, and the same after a hand -/
theorem used_exist (a : DealerArgs) (bets : List PyNum) {P : Dealer → Dealer → Prop} [∀ d e, Decidable (P d e)]
    (h : (Dealer.new a id).bind (fun d => .ok (decide (P d (Spec.afterBets (d.reset true true id).1 bets)))) = .ok true) :
    ∃ d e, UsedTable a d ∧ UsedTable a e ∧ P d e := by
  cases ht : Dealer.new a id with
  | error x => rw [ht] at h; cases h
  | ok d =>
    rw [ht] at h
    simp only [Except.bind, Except.ok.injEq, decide_eq_true_eq] at h
    have h1 : UsedTable a d := .new (fun _ => .refl _) ht
    refine ⟨_, _, h1, ?_, h⟩
    have : ∀ (bets : List PyNum) (e : Dealer), UsedTable a e → UsedTable a (Spec.afterBets e bets) := by
      intro bets
      induction bets with
      | nil => exact fun e he => he
      | cons b bets ih => exact fun e he => ih _ (.step b he)
    exact this bets _ (.reset true true (fun _ => .refl _) h1)

/-- a table that has just been created and one at which a hand has been played and ended in a draw: the next hand is the same -/
example : ∃ d e, UsedTable (ties 2 [1, 2] 10) d ∧ UsedTable (ties 2 [1, 2] 10) e ∧
    d.deck.tricked = false ∧ e.deck.tricked = false ∧ d.stacks = e.stacks ∧ d.button = e.button ∧ d.history ≠ e.history ∧
    d.holeCards ≠ e.holeCards ∧ d.deck ≠ e.deck ∧ (∃ d' obs, d.reset false false List.reverse = (d', .ok obs)) := by
  obtain ⟨d, e, h1, h2, h3, h4, h5, h6, h7, h8, h9, h10⟩ := used_exist (ties 2 [1, 2] 10) [.fin 1, .fin 0, .fin 0, .fin 0]
    (P := fun d e => d.deck.tricked = false ∧ e.deck.tricked = false ∧ d.stacks = e.stacks ∧ d.button = e.button ∧ d.history ≠ e.history ∧
      d.holeCards ≠ e.holeCards ∧ d.deck.cards ≠ e.deck.cards ∧ (d.reset false false List.reverse).2.isOk = true) (by decide +kernel)
  refine ⟨d, e, h1, h2, h3, h4, h5, h6, h7, h8, fun h => h9 (by rw [h]), ?_⟩
  cases hr : (d.reset false false List.reverse).2 with
  | error x => rw [hr] at h10; cases h10
  | ok obs => exact ⟨_, obs, Prod.ext rfl hr⟩

/-- chips do carry over: after a hand with a winner the next one is not that of a new table, unless the chips are reset -/
example : ∃ d e, UsedTable (small 2 [1, 2] 10) d ∧ UsedTable (small 2 [1, 2] 10) e ∧
    d.deck.tricked = false ∧ e.deck.tricked = false ∧ d.button = e.button ∧ d.stacks ≠ e.stacks ∧
    ((d.reset false false id).2.map (·.stacks)).toOption ≠ ((e.reset false false id).2.map (·.stacks)).toOption ∧
    ((d.reset false true id).2.map (·.stacks)).toOption = ((e.reset false true id).2.map (·.stacks)).toOption :=
  used_exist (small 2 [1, 2] 10) [.fin 1, .fin 0, .fin 0, .fin 0] (by decide +kernel)

/-- the last card of the deck, with which the second hand was not played, can be put on top at both tables -/
example : ∃ d e, UsedTable (ties 2 [1, 2] 10) d ∧ UsedTable (ties 2 [1, 2] 10) e ∧ d.stacks = e.stacks ∧ d.button = e.button ∧
    d.deck.cards ≠ e.deck.cards ∧ (d.deck.trick (d.deck.cards.drop 7)).isOk = true ∧ d.deck.cards.drop 7 ≠ [] :=
  used_exist (ties 2 [1, 2] 10) [.fin 1, .fin 0, .fin 0, .fin 0] (by decide +kernel)

end Clubs

namespace Clubs.Numpy

open Spec

/-- tables of the array engine that were created with the arguments `a` and used in any way since then -/
inductive UsedArrayTable (a : DealerArgs) : Dealer → Prop
  | new {shuf : Shuffle} {d : Dealer} (hs : IsShuffle shuf) (h : Numpy.new a shuf = .ok d) : UsedArrayTable a d
  | reset {d : Dealer} (rb rs : Bool) {shuf : Shuffle} (hs : IsShuffle shuf) (h : UsedArrayTable a d) :
      UsedArrayTable a (reset d rb rs shuf).1
  | step {d : Dealer} (bet : PyNum) (h : UsedArrayTable a d) : UsedArrayTable a (step d bet).1
  | trick {d : Dealer} {top : List Card} {deck : Deck} (h : UsedArrayTable a d)
      (hp : top.Pairwise fun a b => a.eq b = false) (ht : d.deck.trick top = .ok deck) : UsedArrayTable a { d with deck := deck }
  | untrick {d : Dealer} (h : UsedArrayTable a d) : UsedArrayTable a { d with deck := d.deck.untrick }

variable {d e : Dealer} {a : DealerArgs}

theorem used_reachable (h : UsedArrayTable a d) : ArrayReachable d := by
  induction h with
  | new hs h => exact .new hs h
  | reset rb rs hs _ ih => exact .reset rb rs hs ih
  | step bet _ ih => exact .step bet ih
  | trick _ hp ht ih => exact .trick ih hp ht
  | untrick _ ih => exact .untrick ih

theorem step_frame (hd : Seated (atSeat d)) (bet : PyNum) :
    deckFrame (step d bet).1.deck = deckFrame d.deck ∧ (Unmarked d.deck → Unmarked (step d bet).1.deck) := by
  have htwo : 2 ≤ d.cfg.numPlayers := hd.two
  cases ha : d.action with
  | none => rw [step_none ha]; exact ⟨rfl, fun h => h⟩
  | some a =>
    rcases step_some ha bet with ⟨e, -, h2⟩ | ⟨b, e, -, -, h2⟩ | ⟨b, c, lo, hi, -, -, h2⟩
    · rw [h2]; exact ⟨rfl, fun h => h⟩
    · rw [h2]; exact ⟨rfl, fun h => h⟩
    · rw [h2]
      have hx : deckFrame (afterBet d bet.isNeg c (cleanBet b c lo hi)).deck = deckFrame d.deck ∧
          (Unmarked d.deck → Unmarked (afterBet d bet.isNeg c (cleanBet b c lo hi)).deck) := by
        have e1 : (afterBet d bet.isNeg c (cleanBet b c lo hi)).deck = ((atSeat d).afterBet bet.isNeg c (cleanBet b c lo hi)).deck := by
          rw [← afterBet_atSeat (by omega)]; rfl
        rw [e1, (afterBet_cards hd.community bet.isNeg c (cleanBet b c lo hi)).2.2.1]
        exact cards_frame _ _
      rcases finish_cases (afterBet d bet.isNeg c (cleanBet b c lo hi)) with ⟨e, -, h3⟩ | ⟨p, -, -, h3, -⟩ | ⟨p, -, -, h3, -⟩
      · rw [h3]; exact hx
      · rw [h3]; exact hx
      · rw [h3]; exact hx

theorem used_same (h : UsedArrayTable a d) :
    ∃ s d0, Dealer.new a s = .ok d0 ∧ d.cfg = d0.cfg ∧ deckFrame d.deck = deckFrame d0.deck ∧ Unmarked d.deck := by
  induction h with
  | new hs h => exact ⟨_, _, h, rfl, rfl, (new_same h h).2.2.1⟩
  | @reset d rb rs shuf hs h ih =>
    obtain ⟨s, d0, h1, h2, h3, h4⟩ := ih
    have := reset_frame (atSeat d) rb rs shuf
    rw [← (reset_atSeat (array_seated (used_reachable h)) rb rs shuf).1] at this
    exact ⟨s, d0, h1, (reset_cfg _ rb rs _).trans h2, this.1.trans h3, this.2 h4⟩
  | step bet h ih =>
    obtain ⟨s, d0, h1, h2, h3, h4⟩ := ih
    have := step_frame (array_seated (used_reachable h)) bet
    exact ⟨s, d0, h1, (step_cfg _ bet).trans h2, this.1.trans h3, this.2 h4⟩
  | trick h hp ht ih =>
    obtain ⟨s, d0, h1, h2, h3, h4⟩ := ih
    have := trick_frame ht
    exact ⟨s, d0, h1, h2, this.1.trans h3, this.2⟩
  | untrick h ih =>
    obtain ⟨s, d0, h1, h2, h3, h4⟩ := ih
    exact ⟨s, d0, h1, h2, h3, fun _ => ⟨rfl, rfl⟩⟩

theorem fresh_forgets (hc : d.cfg = e.cfg) {shuf : Shuffle} (hk : d.deck.shuffle shuf = e.deck.shuffle shuf) {rb rs : Bool}
    (hs : rs = true ∨ d.stacks = e.stacks) (hb : rb = true ∨ d.button = e.button) : fresh d rb rs shuf = fresh e rb rs shuf := by
  have h1 : nextButton d rb = nextButton e rb := by
    unfold nextButton
    rcases hb with rfl | hb
    · rfl
    · rw [hc, hb]
  have h2 := Clubs.fresh_forgets (d := { d with button := 0 }) (e := { e with button := 0 }) hc hk hs (rb := rb) (.inr rfl)
  have h3 : ∀ x : Dealer, fresh x rb rs shuf =
      { ({ x with button := 0 } : Dealer).fresh rb rs shuf with button := nextButton x rb, action := some (nextButton x rb) } := fun x => rfl
  rw [h3, h3, h2, h1]

theorem reset_forgets (hc : d.cfg = e.cfg) {shuf : Shuffle} (hk : d.deck.shuffle shuf = e.deck.shuffle shuf) {rb rs : Bool}
    (hs : rs = true ∨ d.stacks = e.stacks) (hb : rb = true ∨ d.button = e.button) :
    (reset d rb rs shuf).2 = (reset e rb rs shuf).2 ∧
    ∀ obs, (reset d rb rs shuf).2 = .ok obs → (reset d rb rs shuf).1 = (reset e rb rs shuf).1 := by
  have hf := fresh_forgets hc hk hs hb
  have hp : posted d rb rs shuf = posted e rb rs shuf := by
    unfold posted blindStart
    rw [hf, hc]
  have hfew : ∀ x y : Dealer, (rs = true ∨ x.stacks = y.stacks) → rs = false → countTrue (x.stacks.map fun s => decide (s > 0)) ≤ 1 →
      ¬ (rs = true ∨ 2 ≤ countTrue (y.stacks.map fun s => decide (s > 0))) := by
    rintro x y (h1 | h1) h2 h3 (h4 | h4)
    · rw [h1] at h2; cases h2
    · rw [h1] at h2; cases h2
    · rw [h4] at h2; cases h2
    · rw [h1] at h3; omega
  rcases reset_eq d rb rs shuf with ⟨g1, g2, g⟩ | ⟨g1, g⟩
  · rcases reset_eq e rb rs shuf with ⟨k1, k2, k⟩ | ⟨k1, -⟩
    · rw [g, k]; exact ⟨rfl, fun obs h => by cases h⟩
    · exact absurd k1 (hfew _ _ hs g1 g2)
  · rcases reset_eq e rb rs shuf with ⟨k1, k2, -⟩ | ⟨-, k⟩
    · exact absurd g1 (hfew _ _ (hs.imp id Eq.symm) k1 k2)
    · rw [← hc, ← hp] at k
      rcases g with ⟨g2, g⟩ | ⟨g2, g⟩
      · rcases k with ⟨-, k⟩ | ⟨k2, -⟩
        · rw [g, k]; exact ⟨rfl, fun obs h => by cases h⟩
        · omega
      · rcases k with ⟨k2, -⟩ | ⟨-, k⟩
        · omega
        · rw [g, k]; exact ⟨rfl, fun _ _ => rfl⟩

/-- **C99** for the array engine: what `reset` returns and the table it leaves depend on nothing but the arguments of the constructor, the
chips of the players (unless they are reset), the button (unless it is reset) and the shuffle. -/
theorem C99_reset (h : UsedArrayTable a d) (h' : UsedArrayTable a e) (ht : d.deck.tricked = false) (ht' : e.deck.tricked = false)
    {rb rs : Bool} (hs : rs = true ∨ d.stacks = e.stacks) (hb : rb = true ∨ d.button = e.button) (shuf : Shuffle) :
    (reset d rb rs shuf).2 = (reset e rb rs shuf).2 ∧
    ∀ obs, (reset d rb rs shuf).2 = .ok obs → (reset d rb rs shuf).1 = (reset e rb rs shuf).1 := by
  obtain ⟨s1, d1, n1, c1, f1, u1⟩ := used_same h
  obtain ⟨s2, d2, n2, c2, f2, u2⟩ := used_same h'
  obtain ⟨n3, n4, -⟩ := new_same n1 n2
  exact reset_forgets (by rw [c1, c2, n3]) (shuffle_of_frame (f1.trans (n4.trans f2.symm)) u1 u2 ht ht' shuf) hs hb

/-- **C99** for the array engine, tricked decks: with the same cards put on top, `trick` and the deal after it do not depend on the past either. -/
theorem C99_trick (h : UsedArrayTable a d) (h' : UsedArrayTable a e) {top : List Card} {k : Deck} (ht : d.deck.trick top = .ok k) {rb rs : Bool}
    (hs : rs = true ∨ d.stacks = e.stacks) (hb : rb = true ∨ d.button = e.button) (shuf : Shuffle) :
    ∃ l, e.deck.trick top = .ok l ∧
      (reset { d with deck := k } rb rs shuf).2 = (reset { e with deck := l } rb rs shuf).2 ∧
      ∀ obs, (reset { d with deck := k } rb rs shuf).2 = .ok obs →
        (reset { d with deck := k } rb rs shuf).1 = (reset { e with deck := l } rb rs shuf).1 := by
  obtain ⟨s1, d1, n1, c1, f1, u1⟩ := used_same h
  obtain ⟨s2, d2, n2, c2, f2, u2⟩ := used_same h'
  obtain ⟨n3, n4, -⟩ := new_same n1 n2
  obtain ⟨l, hl, hk⟩ := trick_of_frame (f1.trans (n4.trans f2.symm)) ht shuf
  exact ⟨l, hl, reset_forgets (d := { d with deck := k }) (e := { e with deck := l }) (show d.cfg = e.cfg by rw [c1, c2, n3]) hk hs hb⟩

/-- **C99** for the array engine: the whole hand that follows is the same. -/
theorem C99_hand (h : UsedArrayTable a d) (h' : UsedArrayTable a e) (ht : d.deck.tricked = false) (ht' : e.deck.tricked = false)
    {rb rs : Bool} (hs : rs = true ∨ d.stacks = e.stacks) (hb : rb = true ∨ d.button = e.button) {shuf : Shuffle} {d' : Dealer}
    {obs : Observation} (hr : reset d rb rs shuf = (d', .ok obs)) :
    reset e rb rs shuf = (d', .ok obs) ∧ ∀ (bets : List PyNum) (bet : PyNum),
      step (arrayAfter d' bets) bet = step (arrayAfter (reset e rb rs shuf).1 bets) bet := by
  obtain ⟨h1, h2⟩ := C99_reset h h' ht ht' hs hb shuf
  rw [hr] at h1 h2
  have h3 := h2 obs rfl
  refine ⟨Prod.ext h3.symm h1.symm, fun bets bet => ?_⟩
  rw [← h3]

/-- **C99** for the array engine: `reset(reset_button=True, reset_stacks=True)` makes every table as good as new. -/
theorem C99_fresh {s : Shuffle} {d0 : Dealer} (hi : IsShuffle s) (h0 : Numpy.new a s = .ok d0) (h : UsedArrayTable a d)
    (ht : d.deck.tricked = false) (shuf : Shuffle) :
    (reset d true true shuf).2 = (reset d0 true true shuf).2 ∧
    ∀ obs, (reset d true true shuf).2 = .ok obs → (reset d true true shuf).1 = (reset d0 true true shuf).1 :=
  C99_reset h (.new hi h0) ht (new_same h0 h0).2.2.2.2 (.inl rfl) (.inl rfl) shuf

/-- a table of the array engine, from a computation: the one the constructor makes, and the same after a hand -/
theorem used_exist (a : DealerArgs) (bets : List PyNum) {P : Dealer → Dealer → Prop} [∀ d e, Decidable (P d e)]
    (h : (Numpy.new a id).bind (fun d => .ok (decide (P d (arrayAfter (reset d true true id).1 bets)))) = .ok true) :
    ∃ d e, UsedArrayTable a d ∧ UsedArrayTable a e ∧ P d e := by
  cases ht : Numpy.new a id with
  | error x => rw [ht] at h; cases h
  | ok d =>
    rw [ht] at h
    simp only [Except.bind, Except.ok.injEq, decide_eq_true_eq] at h
    have h1 : UsedArrayTable a d := .new (fun _ => .refl _) ht
    refine ⟨_, _, h1, ?_, h⟩
    have : ∀ (bets : List PyNum) (e : Dealer), UsedArrayTable a e → UsedArrayTable a (arrayAfter e bets) := by
      intro bets
      induction bets with
      | nil => exact fun e he => he
      | cons b bets ih => exact fun e he => ih _ (.step b he)
    exact this bets _ (.reset true true (fun _ => .refl _) h1)

/-- a table that has just been created and one at which a hand has been played and ended in a draw: the next hand is the same -/
example : ∃ d e, UsedArrayTable (ties 2 [1, 2] 10) d ∧ UsedArrayTable (ties 2 [1, 2] 10) e ∧
    d.deck.tricked = false ∧ e.deck.tricked = false ∧ d.stacks = e.stacks ∧ d.button = e.button ∧ d.history ≠ e.history ∧
    d.holeCards ≠ e.holeCards ∧ d.deck.cards ≠ e.deck.cards ∧ (reset d false false List.reverse).2.isOk = true :=
  used_exist (ties 2 [1, 2] 10) [.fin 1, .fin 0, .fin 0, .fin 0] (by decide +kernel)

/-- the last card of the deck, with which the second hand was not played, can be put on top at both tables -/
example : ∃ d e, UsedArrayTable (ties 2 [1, 2] 10) d ∧ UsedArrayTable (ties 2 [1, 2] 10) e ∧ d.stacks = e.stacks ∧ d.button = e.button ∧
    d.deck.cards ≠ e.deck.cards ∧ (d.deck.trick (d.deck.cards.drop 7)).isOk = true ∧ d.deck.cards.drop 7 ≠ [] :=
  used_exist (ties 2 [1, 2] 10) [.fin 1, .fin 0, .fin 0, .fin 0] (by decide +kernel)

end Clubs.Numpy

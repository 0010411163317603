import Verif.Lemmas.Turn
import Verif.Lemmas.Dealing
import Verif.Lemmas.Posting

/-!
# Dealing the hand of the turned table (for C82)
-/

namespace Clubs

open Spec

/-! ## the deck -/

/-- Of the cards after the first `c`, take `m` and turn them by `r`. -/
def turnCards (c m r : Nat) (l : List Card) : List Card := l.take c ++ (((l.drop c).take m).rotate r ++ (l.drop c).drop m)

theorem turnCards_perm (c m r : Nat) (l : List Card) : (turnCards c m r l).Perm l := by
  unfold turnCards
  conv_rhs => rw [← List.take_append_drop c l, ← List.take_append_drop m (l.drop c)]
  exact ((List.rotate_perm _ r).append_right _).append_left _

theorem turnCards_inj (c m r : Nat) : Function.Injective (turnCards c m r) := by
  intro l l' h
  have hl : l.length = l'.length := by
    rw [← (turnCards_perm c m r l).length_eq, h, (turnCards_perm c m r l').length_eq]
  unfold turnCards at h
  obtain ⟨h1, h2⟩ := List.append_inj h (by simp [hl])
  obtain ⟨h3, h4⟩ := List.append_inj h2 (by simp [hl])
  have h5 := List.rotate_injective r h3
  rw [← List.take_append_drop c l, ← List.take_append_drop c l', h1, ← List.take_append_drop m (l.drop c), h5, h4,
    List.take_append_drop]

theorem turnCards_take (c m r : Nat) {l : List Card} (h : c ≤ l.length) : (turnCards c m r l).take c = l.take c := by
  unfold turnCards
  rw [List.take_append_of_le_length (by simp; omega), List.take_take, Nat.min_self]

theorem turnCards_drop (c m r : Nat) {l : List Card} (h : c ≤ l.length) :
    (turnCards c m r l).drop c = ((l.drop c).take m).rotate r ++ (l.drop c).drop m := by
  unfold turnCards
  rw [List.drop_append_of_le_length (by simp; omega), List.drop_eq_nil_of_le (by simp), List.nil_append]

theorem turnCards_rest (c m r : Nat) {l : List Card} (h : c + m ≤ l.length) :
    ((turnCards c m r l).drop c).drop m = (l.drop c).drop m := by
  rw [turnCards_drop c m r (by omega)]
  have h1 : (((l.drop c).take m).rotate r).length = m := by simp; omega
  rw [List.drop_append_of_le_length (by omega), List.drop_eq_nil_of_le (by omega), List.nil_append]

/-- the seats' blocks of cards, turned -/
theorem blocks_turn (h n k : Nat) {b : List Card} (hb : b.length = n * h) {a : Nat} (ha : a < n) (t : List Card) :
    ((b.rotate (k * h) ++ t).drop (turnSeat n k a * h)).take h = ((b ++ t).drop (a * h)).take h := by
  have hn : 0 < n := by omega
  have hσ := turnSeat_lt k a hn
  have fits : ∀ j < n, j * h + h ≤ b.length := by
    intro j hj
    rw [hb, ← Nat.succ_mul]
    exact Nat.mul_le_mul_right h hj
  have e : ∀ (u : List Card) (j : Nat), j * h + h ≤ u.length → ((u ++ t).drop (j * h)).take h = (u.drop (j * h)).take h := by
    intro u j hj
    rw [List.drop_append_of_le_length (by omega), List.take_append_of_le_length (by rw [List.length_drop]; omega)]
  rw [e _ _ (by rw [List.length_rotate]; exact fits _ hσ), e _ _ (fits _ ha)]
  apply List.ext_getElem?
  intro i
  rw [List.getElem?_take, List.getElem?_take]
  by_cases hi : i < h
  · rw [if_pos hi, if_pos hi, List.getElem?_drop, List.getElem?_drop]
    have l1 := fits _ hσ
    have l2 := fits _ ha
    rw [List.getElem?_rotate (by omega)]
    congr 1
    have hback := turnSeat_back k ha
    obtain ⟨q, hq⟩ : ∃ q, turnSeat n k a + k = a + n * q := ⟨(turnSeat n k a + k) / n, by
      have := Nat.mod_add_div (turnSeat n k a + k) n
      rw [hback] at this
      exact this.symm⟩
    have : turnSeat n k a * h + i + k * h = a * h + i + b.length * q := by
      rw [hb]
      calc turnSeat n k a * h + i + k * h = (turnSeat n k a + k) * h + i := by ring
        _ = _ := by rw [hq]; ring
    rw [this, Nat.add_mul_mod_self_left, Nat.mod_eq_of_lt (by omega)]
  · rw [if_neg hi, if_neg hi]

/-! ## antes and blinds -/

theorem roll_turn {l : List Int} {n : Nat} (hl : l.length = n) (k : Nat) {a : Nat} (ha : a < n) :
    roll l (turnSeat n k a) = (roll l a).rotate k := by
  have hn : 0 < n := by omega
  have hσ := turnSeat_lt k a hn
  refine eq_rotate (n := n) ((roll_length _ _).trans hl) ((roll_length _ _).trans hl) fun i hi => ?_
  have hσi := turnSeat_lt k i hn
  have e1 := roll_getD l (turnSeat n k a) (turnSeat n k i) 0 (by omega) (by omega)
  have e2 := roll_getD l a i 0 (by omega) (by omega)
  have key : (turnSeat n k i + (n - turnSeat n k a)) % n = (i + (n - a)) % n := by
    have m1 := turnSeat_back k hi
    have m2 := turnSeat_back k ha
    have c1 : Nat.ModEq n (turnSeat n k i + (n - turnSeat n k a) + (turnSeat n k a + k)) (i + (n - a) + (turnSeat n k a + k)) := by
      have x1 : turnSeat n k i + (n - turnSeat n k a) + (turnSeat n k a + k) = (turnSeat n k i + k) + n := by omega
      have x2 : Nat.ModEq n (turnSeat n k i + k) i := by unfold Nat.ModEq; rw [m1, Nat.mod_eq_of_lt hi]
      have x3 : Nat.ModEq n (turnSeat n k a + k) a := by unfold Nat.ModEq; rw [m2, Nat.mod_eq_of_lt ha]
      have x4 : i + (n - a) + a = i + n := by omega
      rw [x1]
      calc Nat.ModEq n (turnSeat n k i + k + n) (i + n) := x2.add_right n
        Nat.ModEq n _ (i + (n - a) + a) := by rw [x4]
        Nat.ModEq n _ _ := (x3.symm).add_left _
    exact Nat.ModEq.add_right_cancel' _ c1
  rw [hl] at e1 e2
  rw [key, ← e2] at e1
  rw [getD_eq _ _ _ (by rw [roll_length]; omega), getD_eq _ _ _ (by rw [roll_length]; omega)] at e1
  rw [List.getElem?_eq_getElem (by rw [roll_length]; omega), List.getElem?_eq_getElem (by rw [roll_length]; omega), e1]

theorem zip_rotate {α β : Type} (l : List α) (m : List β) (k : Nat) (h : l.length = m.length) :
    (l.rotate k).zip (m.rotate k) = (l.zip m).rotate k := by
  unfold List.zip
  rw [List.zipWith_rotate_distrib _ _ _ _ h]

variable {d : Dealer}

theorem forcedBets_turn {a : Nat} (hd : Seated d) (ha : d.action = some a) {bets : List Int} (hb : bets.length = d.cfg.numPlayers) (k : Nat) :
    (turnTable k d).forcedBets bets = (d.forcedBets bets).rotate k := by
  unfold Dealer.forcedBets
  rw [seat_turn ha]
  simp only [turnTable]
  rw [roll_turn hb k (seat_lt hd), zip_rotate _ _ _ (by rw [hd.active, roll_length, hb]),
    zip_rotate _ _ _ (by rw [List.length_zip, hd.active, roll_length, hb, hd.stacks, Nat.min_self]), List.map_rotate]

theorem collectMultipleBets_turn {a : Nat} (hd : Seated d) (ha : d.action = some a) {bets : List Int} (hb : bets.length = d.cfg.numPlayers)
    (sc : Bool) (k : Nat) : (turnTable k d).collectMultipleBets bets sc = turnTable k (d.collectMultipleBets bets sc) := by
  have hl := forcedBets_length hd hb
  have hsum : ((d.forcedBets bets).rotate k).sum = (d.forcedBets bets).sum := (List.rotate_perm _ k).sum_eq
  have e1 := List.zipWith_rotate_distrib (fun x y : Int => x + y) d.potCommits (d.forcedBets bets) k (by rw [hd.potCommits, hl])
  have e2 := List.zipWith_rotate_distrib (fun x y : Int => x - y) d.stacks (d.forcedBets bets) k (by rw [hd.stacks, hl])
  have e3 := List.zipWith_rotate_distrib (fun x y : Int => x + y) d.streetCommits (d.forcedBets bets) k (by rw [hd.streetCommits, hl])
  unfold Dealer.collectMultipleBets
  rw [forcedBets_turn hd ha hb]
  simp only [turnTable, hsum]
  rw [e1, e2]
  cases sc with
  | true => simp only [if_true, e3]
  | false => simp only [Bool.false_eq_true, if_false]

/-! ## `reset` -/

/-- how many cards are dealt to the board and to the players at the start of a hand -/
def flopCards (c : Config) : Nat := (c.numCommunityCards.getD 0 0).toNat
def handCards (c : Config) : Nat := c.numPlayers * c.numHoleCards.toNat

theorem fresh_turn (hd : Seated d) (ht : d.deck.tricked = false) (rs : Bool) {shuf : Shuffle} (hs : IsShuffle shuf)
    (hc : flopCards d.cfg + handCards d.cfg ≤ d.deck.fullDeck.length) (k : Nat) :
    (turnTable k d).fresh false rs (fun l => turnCards (flopCards d.cfg) (handCards d.cfg) (k * d.cfg.numHoleCards.toNat) (shuf l)) =
      turnTable k (d.fresh false rs shuf) := by
  have hn : 0 < d.cfg.numPlayers := by have := hd.two; omega
  have e0 : ∀ sh, d.deck.shuffle sh = { d.deck with cards := sh d.deck.fullDeck } := by
    intro sh; unfold Deck.shuffle; simp [ht]
  have edraw : ∀ (k : Deck) (m : Int), k.draw m = (k.cards.take m.toNat, { k with cards := k.cards.drop m.toNat }) := by
    intro k m; unfold Deck.draw; simp only [drawLoop_eq, List.nil_append]
  have hlen : (shuf d.deck.fullDeck).length = d.deck.fullDeck.length := (hs _).length_eq
  generalize hL : shuf d.deck.fullDeck = L at hlen
  have k1 := turnCards_take (flopCards d.cfg) (handCards d.cfg) (k * d.cfg.numHoleCards.toNat) (l := L) (by omega)
  have k2 := turnCards_drop (flopCards d.cfg) (handCards d.cfg) (k * d.cfg.numHoleCards.toNat) (l := L) (by omega)
  have k3 := turnCards_rest (flopCards d.cfg) (handCards d.cfg) (k * d.cfg.numHoleCards.toNat) (l := L) (by omega)
  -- the cards in the hands
  have hdeal : ∀ D : Deck, D.cards = L.drop (flopCards d.cfg) → ∀ D' : Deck,
      D'.cards = (turnCards (flopCards d.cfg) (handCards d.cfg) (k * d.cfg.numHoleCards.toNat) L).drop (flopCards d.cfg) →
      (dealHole d.cfg.numHoleCards d.cfg.numPlayers D').1 = (dealHole d.cfg.numHoleCards d.cfg.numPlayers D).1.rotate k := by
    intro D hD D' hD'
    refine eq_rotate (dealHole_length _ _ _) (dealHole_length _ _ _) fun a ha => ?_
    have g1 := (dealHole_eq d.cfg.numHoleCards d.cfg.numPlayers D).2.2 a ha
    have g2 := (dealHole_eq d.cfg.numHoleCards d.cfg.numPlayers D').2.2 _ (turnSeat_lt k a hn)
    rw [hD', k2] at g2
    rw [hD, ← List.take_append_drop (handCards d.cfg) (L.drop _)] at g1
    rw [blocks_turn d.cfg.numHoleCards.toNat d.cfg.numPlayers k (by
      rw [List.length_take, List.length_drop]; unfold handCards at *; omega) ha, ← g1] at g2
    have l1 := dealHole_length d.cfg.numHoleCards d.cfg.numPlayers D
    have l2 := dealHole_length d.cfg.numHoleCards d.cfg.numPlayers D'
    have hσ := turnSeat_lt k a hn
    rw [getD_eq _ _ _ (by omega), getD_eq _ _ _ (by omega)] at g2
    rw [List.getElem?_eq_getElem (by omega), List.getElem?_eq_getElem (by omega), g2]
  have hbtn : (turnSeat d.cfg.numPlayers k d.button + 1) % d.cfg.numPlayers =
      turnSeat d.cfg.numPlayers k ((d.button + 1) % d.cfg.numPlayers) := turnSeat_add _ _ _ _
  have hflop : (d.cfg.numCommunityCards.getD 0 0).toNat = flopCards d.cfg := rfl
  unfold Dealer.fresh
  simp only [turnTable, e0, edraw, hflop, hL, k1, Bool.false_eq_true, if_false, hbtn, Option.map_some, List.map_nil, List.rotate_replicate,
    (dealHole_eq _ _ _).1]
  rw [hdeal ⟨d.deck.numSuits, d.deck.numRanks, d.deck.fullDeck, L.drop (flopCards d.cfg), d.deck.tricked, d.deck.topIdcs, d.deck.bottomIdcs⟩ rfl
    ⟨d.deck.numSuits, d.deck.numRanks, d.deck.fullDeck, _, d.deck.tricked, d.deck.topIdcs, d.deck.bottomIdcs⟩ rfl]
  have k3' : ((turnCards (flopCards d.cfg) (handCards d.cfg) (k * d.cfg.numHoleCards.toNat) L).drop (flopCards d.cfg)).drop
      (d.cfg.numPlayers * d.cfg.numHoleCards.toNat) = (L.drop (flopCards d.cfg)).drop (d.cfg.numPlayers * d.cfg.numHoleCards.toNat) := k3
  rw [k3']
  cases rs with
  | true => simp only [if_true, startStacks, List.rotate_replicate]
  | false => simp only [Bool.false_eq_true, if_false, startStacks, List.map_rotate]

theorem posted_turn (hd : Seated d) (ht : d.deck.tricked = false) (rs : Bool) {shuf : Shuffle} (hs : IsShuffle shuf)
    (hc : flopCards d.cfg + handCards d.cfg ≤ d.deck.fullDeck.length) (k : Nat) :
    (turnTable k d).posted false rs (fun l => turnCards (flopCards d.cfg) (handCards d.cfg) (k * d.cfg.numHoleCards.toNat) (shuf l)) =
      turnTable k (d.posted false rs shuf) := by
  have hf := fresh_turn hd ht rs hs hc k
  have hfs := fresh_seated hd false rs shuf
  have hb : (turnTable k d).blindStart false rs
      (fun l => turnCards (flopCards d.cfg) (handCards d.cfg) (k * d.cfg.numHoleCards.toNat) (shuf l)) =
      turnTable k (d.blindStart false rs shuf) := by
    unfold Dealer.blindStart
    rw [hf, moveAction_turn hfs rfl k]
    show (if d.cfg.numPlayers > 2 then _ else _) = _
    split <;> rfl
  obtain ⟨a, ha⟩ : ∃ a, (d.blindStart false rs shuf).action = some a := by
    unfold Dealer.blindStart
    split
    · exact moveAction_some _
    · exact ⟨_, rfl⟩
  have hbs := blindStart_seated hd false rs shuf
  have hcfg : (d.blindStart false rs shuf).cfg = d.cfg := (blindStart_same d false rs shuf).1
  have h1 : d.cfg.antes.length = (d.blindStart false rs shuf).cfg.numPlayers := by rw [hcfg]; exact hd.antes
  have h2 : d.cfg.blinds.length = ((d.blindStart false rs shuf).collectMultipleBets d.cfg.antes false).cfg.numPlayers := by
    show _ = (d.blindStart false rs shuf).cfg.numPlayers
    rw [hcfg]; exact hd.blinds
  unfold Dealer.posted
  rw [hb]
  show ((turnTable k (d.blindStart false rs shuf)).collectMultipleBets d.cfg.antes false).collectMultipleBets d.cfg.blinds true = _
  rw [collectMultipleBets_turn hbs ha h1]
  exact collectMultipleBets_turn (collectMultipleBets_seated hbs false h1) ha h2 true k

/-- `reset` of the turned table, with a deck in which the players' cards are turned too -/
theorem reset_turn {d' : Dealer} {obs : Observation} (hd : Seated d) (ht : d.deck.tricked = false) (rs : Bool) {shuf : Shuffle}
    (hs : IsShuffle shuf) (hc : flopCards d.cfg + handCards d.cfg ≤ d.deck.fullDeck.length) (k : Nat)
    (h : d.reset false rs shuf = (d', .ok obs)) :
    ∃ obs', (turnTable k d).reset false rs
        (fun l => turnCards (flopCards d.cfg) (handCards d.cfg) (k * d.cfg.numHoleCards.toNat) (shuf l)) = (turnTable k d', .ok obs') ∧
      SameView d.cfg.numPlayers k obs obs' := by
  obtain ⟨h1, h2, rfl, h4⟩ := reset_ok h
  have hp := posted_turn hd ht rs hs hc k
  have hps := posted_seated hd false rs shuf
  obtain ⟨a, ha⟩ : ∃ a, (d.posted false rs shuf).action = some a := by
    show ∃ a, (d.blindStart false rs shuf).action = some a
    unfold Dealer.blindStart
    split
    · exact moveAction_some _
    · exact ⟨_, rfl⟩
  have hm1 := moveAction_turn hps ha k
  obtain ⟨a1, ha1⟩ := moveAction_some (d.posted false rs shuf)
  have hms := moveAction_seated hps
  have hm2 := moveAction_turn hms ha1 k
  have hms2 := moveAction_seated hms
  obtain ⟨a2, ha2⟩ := moveAction_some (d.posted false rs shuf).moveAction
  have hcfg : (d.posted false rs shuf).moveAction.moveAction.cfg = d.cfg := (blindStart_same d false rs shuf).1
  have hole : (d.posted false rs shuf).moveAction.moveAction.holeCards.length =
      (d.posted false rs shuf).moveAction.moveAction.cfg.numPlayers := by
    rw [hcfg]
    show (d.blindStart false rs shuf).holeCards.length = _
    have : (d.blindStart false rs shuf).holeCards = (d.fresh false rs shuf).holeCards := by
      unfold Dealer.blindStart; split <;> rfl
    rw [this]
    exact dealHole_length _ _ _
  rcases reset_eq (turnTable k d) false rs
      (fun l => turnCards (flopCards d.cfg) (handCards d.cfg) (k * d.cfg.numHoleCards.toNat) (shuf l)) with ⟨g1, g2, -⟩ | ⟨-, ⟨g1, -⟩ | ⟨-, g2⟩⟩
  · exfalso
    rcases h1 with h1 | h1
    · rw [h1] at g1; simp at g1
    · have : ((turnTable k d).stacks.map fun s => decide (s > 0)) = (d.stacks.map fun s => decide (s > 0)).rotate k := by
        rw [← List.map_rotate]; rfl
      rw [this, countTrue_rotate] at g2
      omega
  · have : d.cfg.numCommunityCards.length = 0 := g1
    omega
  · rw [g2, hp, hm1, hm2]
    obtain ⟨r, r', e1, e2, e3⟩ := observation_turn hms2 hole ha2 k
    rw [h4] at e1
    subst e1
    rw [e2]
    cases r' with
    | error e => exact e3.elim
    | ok o' =>
      rw [hcfg] at e3
      exact ⟨o', rfl, e3⟩

end Clubs

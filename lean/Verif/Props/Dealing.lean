import Verif.Lemmas.Dealing
import Verif.Lemmas.Posting
import Verif.Lemmas.Repeat
import Verif.Lemmas.View
import Verif.Lemmas.Play

/-!
# Dealing, `reset`, and steps outside a hand: C39–C43, C51, C52
-/

namespace Clubs

open Spec

variable {S : List Int} {d d' : Dealer} {a : Nat} {bet : PyNum} {out : StepOut} {rb rs : Bool} {shuf : Shuffle} {obs : Observation}

/-! ## C39 -/

theorem dealt_cards (hd : Dealt d) :
    ((allCards d).length : Int) = d.cfg.numSuits * d.cfg.numRanks ∧
    (allCards d).Pairwise (fun x y => x.eq y = false) ∧ ∀ c, c ∈ allCards d ↔ InGame d.cfg c := by
  refine ⟨hd.size, ?_, ?_⟩
  · have hn : ((allCards d).map Card.int).Nodup := ((hd.perm.map Card.int).nodup_iff).2 hd.wf.nodup
    rw [List.Nodup, List.pairwise_map] at hn
    exact hn.imp (fun h => by simpa [Card.eq] using h)
  · intro c
    have h1 := hd.suits
    have h2 := hd.ranks
    rw [hd.perm.mem_iff, hd.full, mem_deckList (by omega)]
    have all : ∀ k < 13, ∀ u < 4, Card.new [rankSymbol k, suitLetter u] = .ok (mkCard k u) := by
      decide +kernel
    constructor
    · rintro ⟨k, u, a, b, c', rfl⟩
      exact ⟨k, u, ⟨by omega, b⟩, by omega, all k b u (by omega)⟩
    · rintro ⟨k, u, ⟨a, b⟩, c', e⟩
      rw [all k b u (by omega)] at e
      simp only [Except.ok.injEq] at e
      exact ⟨k, u, by omega, b, by omega, e.symm⟩

theorem dealt_shape (hd : Dealt d) (hr : d.action ≠ none ∨ d.holeCards ≠ []) (he : Enough d.cfg) :
    d.holeCards.length = d.cfg.numPlayers ∧ (∀ i < d.cfg.numPlayers, (d.holeCards.getD i []).length = d.cfg.numHoleCards.toNat) ∧
      d.communityCards.length = boardSize d.cfg d.street := by
  rcases hd.shape with ⟨h1, h2, h3⟩ | ⟨h1, -, h3⟩
  · rcases hr with hr | hr
    · exact absurd h3 hr
    · exact absurd h1 hr
  · exact ⟨h1, h3 he⟩

/-- **C39**: at every moment the hole cards of all players, the community cards and the cards left in the deck are
pairwise different, and together they are all cards of the game, each once. -/
theorem C39_cards (h : Reachable d) :
    ((allCards d).length : Int) = d.cfg.numSuits * d.cfg.numRanks ∧
    (allCards d).Pairwise (fun x y => x.eq y = false) ∧ ∀ c, c ∈ allCards d ↔ InGame d.cfg c := dealt_cards (reachable_dealt h)

/-- **C39**: while a hand is running (or has been played), every player holds `num_hole_cards` cards, if the deck is
large enough. -/
theorem C39_hole (h : Reachable d) (hr : d.action ≠ none ∨ d.holeCards ≠ []) (he : Enough d.cfg) :
    d.holeCards.length = d.cfg.numPlayers ∧ ∀ hole ∈ d.holeCards, hole.length = d.cfg.numHoleCards.toNat := by
  obtain ⟨h1, h2, -⟩ := dealt_shape (reachable_dealt h) hr he
  refine ⟨h1, fun hole hm => ?_⟩
  obtain ⟨i, hi, rfl⟩ := (mem_getD []).1 hm
  exact h2 i (by rw [← h1]; exact hi)

/-- a table with community cards: two suits, four ranks, one hole card, one community card on each of two streets -/
def board (n : Int) (blinds : List Int) (stack : Int) : DealerArgs :=
  { small n blinds stack with numSuits := 2, numRanks := 4, numCommunityCards := .scalar 1 }

instance (c : Config) : Decidable (Enough c) := inferInstanceAs (Decidable (_ ≤ _))

/-- a hand on its second street: two community cards, three hole cards, three cards left -/
example : ∃ S d, InHand S d ∧ Reachable d ∧ d.action ≠ none ∧ d.holeCards.map List.length = [1, 1, 1] ∧
    d.communityCards.length = 2 ∧ d.deck.cards.length = 3 ∧ d.street = 1 ∧ Enough d.cfg :=
  hand_exists (board 3 [1, 2, 0] 10) [.bet 2, .bet 1, .bet 0] (by decide +kernel)

/-! ## C40 -/

/-- **C40**: on street `i` there are as many community cards as the first `i + 1` entries of `num_community_cards` say,
if the deck is large enough. -/
theorem C40_size (h : Reachable d) (hr : d.action ≠ none ∨ d.holeCards ≠ []) (he : Enough d.cfg) :
    d.communityCards.length = boardSize d.cfg d.street := (dealt_shape (reachable_dealt h) hr he).2.2

/-- **C40**: a step never changes the hole cards, the deck is dealt from the top, and community cards are only added
after those already there. -/
theorem C40_grow (h : Reachable d) (bet : PyNum) :
    d.communityCards <+: (d.step bet).1.communityCards ∧ (d.step bet).1.holeCards = d.holeCards ∧
    (d.step bet).1.communityCards ++ (d.step bet).1.deck.cards = d.communityCards ++ d.deck.cards := by
  have hd := reachable_seated h
  cases ha : d.action with
  | none => rw [step_none ha]; exact ⟨List.prefix_rfl, rfl, rfl⟩
  | some a =>
    rcases step_some ha bet with ⟨e, -, h2⟩ | ⟨b, e, -, -, h2⟩ | ⟨b, c, lo, hi, -, -, h2⟩
    · rw [h2]; exact ⟨List.prefix_rfl, rfl, rfl⟩
    · rw [h2]; exact ⟨List.prefix_rfl, rfl, rfl⟩
    · rw [h2]
      obtain ⟨c1, c2, -, -⟩ := afterBet_cards hd.community bet.isNeg c (cleanBet b c lo hi)
      obtain ⟨-, -, -, -, f5, -⟩ := afterBet_fields d bet.isNeg c (cleanBet b c lo hi)
      rcases finish_cases (d.afterBet bet.isNeg c (cleanBet b c lo hi)) with ⟨e, -, h3⟩ | ⟨p, -, -, h3, -⟩ | ⟨p, -, -, h3, -⟩
      · rw [h3]; exact ⟨c2, f5, c1⟩
      · rw [h3]; exact ⟨c2, f5, c1⟩
      · rw [h3]; exact ⟨c2, f5, c1⟩

/-- the step to the second street adds a card -/
example : ∃ S d d' out, InHand S d ∧ Reachable d ∧ d.step (.fin 0) = (d', .ok out) ∧ d.street = 0 ∧ d'.street = 1 ∧
    d.communityCards.length = 1 ∧ d'.communityCards.length = 2 :=
  step_exists (board 3 [1, 2, 0] 10) [.bet 2, .bet 1] (.fin 0) (by decide +kernel)

/-! ## C51: in what order cards are dealt -/

/-- **C51**: `reset` deals from the top of the shuffled deck: first the community cards of the first street, then all hole
cards of seat 0, of seat 1, and so on. -/
theorem C51_order (h : d.reset rb rs shuf = (d', .ok obs)) :
    d'.communityCards ++ d'.holeCards.flatten ++ d'.deck.cards = (d.deck.shuffle shuf).cards ∧
    d'.communityCards.length = min (d.cfg.numCommunityCards.getD 0 0).toNat (d.deck.shuffle shuf).cards.length ∧
    d'.holeCards.length = d.cfg.numPlayers ∧ ∀ i < d.cfg.numPlayers, d'.holeCards.getD i [] = (((d.deck.shuffle shuf).cards.drop
      (d.cfg.numCommunityCards.getD 0 0).toNat).drop (i * d.cfg.numHoleCards.toNat)).take d.cfg.numHoleCards.toNat := by
  obtain ⟨-, -, rfl, -⟩ := reset_ok h
  obtain ⟨-, -, -, c1, c2, -, c3, -⟩ := blindStart_same d rb rs shuf
  obtain ⟨f1, f2, f3, f4⟩ := fresh_cards d rb rs shuf
  show (d.blindStart rb rs shuf).communityCards ++ (d.blindStart rb rs shuf).holeCards.flatten ++
    (d.blindStart rb rs shuf).deck.cards = _ ∧ (d.blindStart rb rs shuf).communityCards.length = _ ∧
    (d.blindStart rb rs shuf).holeCards.length = _ ∧ ∀ i < _, (d.blindStart rb rs shuf).holeCards.getD i [] = _
  rw [c1, c2, c3]
  refine ⟨?_, ?_, dealHole_length _ _ _, f2⟩
  · rw [f1, f3, f4, List.append_assoc, List.take_append_drop, List.take_append_drop]
  · rw [f1, List.length_take]

/-- **C51**: after `dealer.deck.trick(top)` the next hand is dealt from the cards `top`, in this order, whatever the random
generator does (if `top` are different cards of the game and not the whole deck). -/
theorem C51_trick {top : List Card} {deck : Deck} (h : Reachable d) (hp : top.Pairwise fun x y => x.eq y = false)
    (hg : ∀ c ∈ top, InGame d.cfg c) (hne : top ≠ []) (hlt : (top.length : Int) < d.cfg.numSuits * d.cfg.numRanks)
    (ht : d.deck.trick top = .ok deck) (hr : Dealer.reset { d with deck := deck } rb rs shuf = (d', .ok obs)) :
    ∃ rest, d'.communityCards ++ d'.holeCards.flatten ++ d'.deck.cards = top ++ rest := by
  have hd := reachable_dealt h
  have hd' := reachable_dealt (Reachable.trick h hp ht)
  rw [(C51_order hr).1]
  have hmem : ∀ c ∈ top, c ∈ d.deck.fullDeck := by
    intro c hc
    rw [← hd.perm.mem_iff]
    exact ((C39_cards h).2.2 c).2 (hg c hc)
  obtain ⟨idcs, h1, h2⟩ := Deck.trick_ok hmem
  rw [ht] at h2
  simp only [Except.ok.injEq] at h2
  have hidx := trick_idcs_exact hd.wf.nodup hmem h1
  have hlen : idcs.length = top.length := h1.length_eq.symm
  have hbot : (List.range (d.deck.numRanks * d.deck.numSuits)).filter (fun i => !idcs.contains i) ≠ [] := by
    intro he
    have hw := hd'.wf
    obtain ⟨t1, t2, -⟩ := trick_idcs h1
    have hperm := top_bottom_perm t1 (t2 hp)
    rw [hd.wf.len, he, List.append_nil] at hperm
    have := hperm.length_eq
    rw [List.length_range, ← hd.wf.len] at this
    have hs := hd.size
    rw [hd.perm.length_eq] at hs
    omega
  have hine : idcs ≠ [] := by
    intro e
    rw [e] at hlen
    exact hne (List.length_eq_zero_iff.1 hlen.symm)
  refine ⟨shuf (((List.range (d.deck.numRanks * d.deck.numSuits)).filter fun i => !idcs.contains i).filterMap (d.deck.fullDeck[·]?)), ?_⟩
  show (deck.shuffle shuf).cards = _
  rw [h2]
  unfold Deck.shuffle
  have e1 : idcs.isEmpty = false := by simpa using hine
  have e2 : ((List.range (d.deck.numRanks * d.deck.numSuits)).filter fun i => !idcs.contains i).isEmpty = false := by
    cases hh : (List.range (d.deck.numRanks * d.deck.numSuits)).filter (fun i => !idcs.contains i) with
    | nil => exact absurd hh hbot
    | cons => rfl
  simp only [e1, e2]
  show (idcs.filterMap (d.deck.fullDeck[·]?)) ++ _ = _
  rw [hidx]

/-- two aces put on top of the deck of a new table: the board shows the first, seat 0 gets the second -/
example : ∃ (d : Dealer) (top : List Card) (deck : Deck) (d' : Dealer) (obs : Observation), Reachable d ∧
    top.Pairwise (fun x y => x.eq y = false) ∧ (∀ c ∈ top, InGame d.cfg c) ∧ top ≠ [] ∧
    (top.length : Int) < d.cfg.numSuits * d.cfg.numRanks ∧ d.deck.trick top = .ok deck ∧
    Dealer.reset { d with deck := deck } true false List.reverse = (d', .ok obs) ∧
    d'.communityCards = top.take 1 ∧ d'.holeCards.getD 0 [] = top.drop 1 := by
  have hc : (Dealer.new (board 2 [1, 2] 10) id).bind (fun d => .ok (d.cfg.numSuits, d.cfg.numRanks)) = .ok (2, 4) := by
    decide +kernel
  have h : (Dealer.new (board 2 [1, 2] 10) id).bind (fun d => (d.deck.trick [mkCard 12 0, mkCard 12 1]).bind fun deck =>
      match Dealer.reset { d with deck := deck } true false List.reverse with
      | (d', .ok _) => .ok (decide (d'.communityCards = [mkCard 12 0] ∧ d'.holeCards.getD 0 [] = [mkCard 12 1]))
      | (_, .error e) => .error e) = .ok true := by
    decide +kernel
  cases hn : Dealer.new (board 2 [1, 2] 10) id with
  | error e => rw [hn] at h; simp [Except.bind] at h
  | ok d =>
    rw [hn] at h hc
    simp only [Except.bind, Except.ok.injEq, Prod.mk.injEq] at h hc
    cases ht : d.deck.trick [mkCard 12 0, mkCard 12 1] with
    | error e => rw [ht] at h; simp at h
    | ok deck =>
      rw [ht] at h
      simp only at h
      split at h
      · next d' obs hr =>
        simp only [Except.ok.injEq, decide_eq_true_eq] at h
        refine ⟨d, [mkCard 12 0, mkCard 12 1], deck, d', obs, Reachable.new isShuffle_id hn, by decide +kernel, ?_, by simp,
          by rw [hc.1, hc.2]; decide, ht, hr, h.1, h.2⟩
        intro c hcm
        simp only [List.mem_cons, List.not_mem_nil, or_false] at hcm
        rcases hcm with rfl | rfl
        · exact ⟨12, 0, by rw [hc.2]; decide, by rw [hc.1]; decide, by decide +kernel⟩
        · exact ⟨12, 1, by rw [hc.2]; decide, by rw [hc.1]; decide, by decide +kernel⟩
      · simp at h

/-! ## C41 -/

/-- **C41**: what `reset` leaves behind, for every table. `f` is the seat from which antes and blinds are counted (by
seats, empty ones included): the first active seat after the button, or the button itself if there are two seats. -/
theorem C41_clean (hd : Seated d) (h : d.reset rb rs shuf = (d', .ok obs)) :
    d'.cfg = d.cfg ∧ d'.button = (if rb then 0 else (d.button + 1) % d.cfg.numPlayers) ∧
    (∀ i < d.cfg.numPlayers, isIn d' i ↔ rs = true ∨ 0 < stack d i) ∧
    d'.history = [] ∧ d'.street = 0 ∧ d'.streetRaises = 0 ∧ d'.largestRaise = d.cfg.bigBlind ∧ d'.pot = d'.potCommits.sum ∧
    ∃ f, (d.cfg.numPlayers = 2 → f = d'.button) ∧ (2 < d.cfg.numPlayers → FirstAfter d.cfg.numPlayers (isIn d') d'.button f) ∧
      (∃ g t, FirstAfter d.cfg.numPlayers (isIn d') f g ∧ FirstAfter d.cfg.numPlayers (isIn d') g t ∧ d'.action = some t) ∧
      ∀ i < d.cfg.numPlayers,
        let chips := (startStacks d rs).getD i 0
        let ante := if isIn d' i ∧ 0 < chips then d.cfg.antes.getD (distance d.cfg.numPlayers f i) 0 else 0
        let blind := if isIn d' i ∧ 0 < chips - ante then d.cfg.blinds.getD (distance d.cfg.numPlayers f i) 0 else 0
        contribution d' i = ante + blind ∧ streetBet d' i = blind ∧ stack d' i = chips - (ante + blind) := by
  have hlive := (dealt_live hd h).1
  obtain ⟨h1, h2, rfl, -⟩ := reset_ok h
  obtain ⟨c1, c2, c3, -, -, c6, -, c8, -, -, -, c12, -, c14⟩ := blindStart_same d rb rs shuf
  have hc := fresh_active_count (rb := rb) (shuf := shuf) hd h1
  have hin : ∀ i, isIn (d.posted rb rs shuf).moveAction.moveAction i = isIn (d.fresh rb rs shuf) i := by
    intro i
    show ((d.blindStart rb rs shuf).active.getD i false = true) = _
    rw [c2]; rfl
  have hinf : isIn (d.posted rb rs shuf).moveAction.moveAction = isIn (d.fresh rb rs shuf) := funext hin
  have hbut : (d.posted rb rs shuf).moveAction.moveAction.button = (d.fresh rb rs shuf).button := by
    show (d.blindStart rb rs shuf).button = _
    rw [c3]
  refine ⟨?_, ?_, ?_, ?_, ?_, ?_, ?_, hlive.pot, ?_⟩
  · show (d.blindStart rb rs shuf).cfg = d.cfg
    rw [c1]; rfl
  · rw [hbut]; rfl
  · intro i hi
    rw [hin]
    exact fresh_isIn hd rb rs shuf i hi
  · show (d.blindStart rb rs shuf).history = []
    rw [c6]; rfl
  · show (d.blindStart rb rs shuf).street = 0
    rw [c12]; rfl
  · show (d.blindStart rb rs shuf).streetRaises = 0
    rw [c14]; rfl
  · show (d.blindStart rb rs shuf).largestRaise = d.cfg.bigBlind
    rw [c8]; rfl
  · obtain ⟨f, f1, f2, f3⟩ := blindStart_seat hd rb rs shuf (by omega)
    refine ⟨f, ?_, ?_, ?_, ?_⟩
    · intro hn
      rw [hbut]
      exact f2 (by omega)
    · rw [hinf, hbut]
      exact f3
    · have hact : (d.posted rb rs shuf).active = (d.fresh rb rs shuf).active := by
        show (d.blindStart rb rs shuf).active = _
        rw [c2]
      have hs := posted_seated hd rb rs shuf
      have hn : (d.posted rb rs shuf).cfg.numPlayers = d.cfg.numPlayers := by
        show (d.blindStart rb rs shuf).cfg.numPlayers = _
        rw [c1]; rfl
      obtain ⟨g, hg⟩ := moveAction_spec hs.active (by rw [hact]; omega)
      obtain ⟨t, ht⟩ := moveAction_spec (d := (d.posted rb rs shuf).moveAction) (moveAction_seated hs).active
        (by show 1 ≤ countTrue (d.posted rb rs shuf).active; rw [hact]; omega)
      have g1 := hg.first
      have t1 := ht.first
      have hgs : (d.posted rb rs shuf).moveAction.seat = g := by
        conv_lhs => rw [hg.eq]
        rfl
      have hps : (d.posted rb rs shuf).seat = f := f1
      have e1 : isIn (d.posted rb rs shuf) = isIn (d.fresh rb rs shuf) := hinf
      have e2 : isIn (d.posted rb rs shuf).moveAction = isIn (d.fresh rb rs shuf) := hinf
      rw [hps, hn, e1] at g1
      have hn2 : (d.posted rb rs shuf).moveAction.cfg.numPlayers = d.cfg.numPlayers := hn
      rw [hgs, hn2, e2] at t1
      rw [hinf]
      exact ⟨g, t, g1, t1, by rw [ht.eq]⟩
    · intro i hi
      have := posted_seats hd rb rs shuf f1 i hi
      simp only [hin]
      exact this

/-- three players, two of them post; and heads-up the button posts the small blind -/
example : (∃ S d, InHand S d ∧ Reachable d ∧ d.button = 0 ∧ d.action = some 0 ∧ d.streetCommits = [0, 1, 2] ∧ d.pot = 3) ∧
    ∃ S d, InHand S d ∧ Reachable d ∧ d.button = 0 ∧ d.action = some 0 ∧ d.streetCommits = [1, 2] ∧ d.pot = 3 :=
  ⟨hand_exists (small 3 [1, 2, 0] 10) [] (by decide +kernel), hand_exists (small 2 [1, 2] 10) [] (by decide +kernel)⟩

/-! ## C52: the blinds are posted -/

/-- **C52** (partial: if nobody is broke): for every position there is a player who posts its blind. -/
theorem C52_posted_partial (hd : Seated d) (h : d.reset rb rs shuf = (d', .ok obs))
    (hall : ∀ i < d.cfg.numPlayers, ∀ j < d.cfg.numPlayers, 0 < (startStacks d rs).getD i 0 ∧
      d.cfg.antes.getD j 0 < (startStacks d rs).getD i 0) (j : Nat) (hj : j < d.cfg.numPlayers) :
    ∃ i < d.cfg.numPlayers, streetBet d' i = d.cfg.blinds.getD j 0 := by
  obtain ⟨-, hb, hin, -, -, -, -, -, f, f1, f2, -, hs⟩ := C41_clean hd h
  have h2 := hd.two
  have hf : f < d.cfg.numPlayers := by
    rcases Nat.lt_or_ge 2 d.cfg.numPlayers with h3 | h3
    · obtain ⟨k, -, -, rfl, -⟩ := f2 h3
      exact Nat.mod_lt _ (by omega)
    · rw [f1 (by omega), hb]
      split
      · omega
      · exact Nat.mod_lt _ (by omega)
  have hlt : (f + j) % d.cfg.numPlayers < d.cfg.numPlayers := Nat.mod_lt _ (by omega)
  have hdist : distance d.cfg.numPlayers f ((f + j) % d.cfg.numPlayers) = j := by
    unfold distance
    rcases Nat.lt_or_ge (f + j) d.cfg.numPlayers with h3 | h3
    · rw [Nat.mod_eq_of_lt h3, show f + j + d.cfg.numPlayers - f = j + d.cfg.numPlayers by omega, Nat.add_mod_right,
        Nat.mod_eq_of_lt hj]
    · rw [Nat.mod_eq_sub_mod h3, Nat.mod_eq_of_lt (a := f + j - d.cfg.numPlayers) (by omega),
        show f + j - d.cfg.numPlayers + d.cfg.numPlayers - f = j by omega, Nat.mod_eq_of_lt hj]
  refine ⟨_, hlt, ?_⟩
  have hact : isIn d' ((f + j) % d.cfg.numPlayers) := by
    rw [hin _ hlt]
    cases rs with
    | true => exact .inl rfl
    | false =>
      right
      exact (hall _ hlt j hj).1
  rw [(hs _ hlt).2.1, hdist]
  have := hall _ hlt j hj
  rw [if_pos]
  refine ⟨hact, ?_⟩
  rw [if_pos ⟨hact, this.1⟩]
  omega

/-- **C52 is false** for the code: if the seat after the small blind is broke, the big blind is skipped. Here three players
with the blinds 1 and 2, the first of whom lost everything; two players with 22 and 8 chips play on. -/
theorem C52_false : ∃ S d, InHand S d ∧ Reachable d ∧ NonNegative S d.cfg ∧ S = [0, 22, 8] ∧ d.cfg.blinds = [1, 2, 0] ∧
    d.street = 0 ∧ d.history = [] ∧ d.streetCommits = [0, 0, 1] ∧ d.action = some 2 :=
  hand_exists (small 3 [1, 2, 0] 10) [.bet 10, .bet 10, .bet (-1), .deal] (by decide +kernel)

/-! ## C42 -/

/-- **C42** (partial: the table is not left quite as it was, see `C42_false`): without `reset_stacks`, `reset` raises
`TooFewActivePlayersError` if and only if at most one player has chips. Then the only change is that the players without
chips are marked as not active. -/
theorem C42_few_partial (d : Dealer) (rb : Bool) (shuf : Shuffle) :
    ((d.reset rb false shuf).2 = .error .tooFewActivePlayers ↔ (d.stacks.filter fun s => 0 < s).length ≤ 1) ∧
    ((d.reset rb false shuf).2 = .error .tooFewActivePlayers →
      (d.reset rb false shuf).1 = { d with active := d.stacks.map fun s => decide (0 < s) }) ∧
    (d.reset rb true shuf).2 ≠ .error .tooFewActivePlayers := by
  have hcount : countTrue (d.stacks.map fun s => decide (s > 0)) = (d.stacks.filter fun s => 0 < s).length := by
    unfold countTrue
    rw [List.count_eq_countP, List.countP_map, List.countP_eq_length_filter]
    congr 2
    funext s
    simp
  have hobs : ∀ e : Dealer, ∀ b, e.observation b ≠ .error .tooFewActivePlayers := by
    intro e b he
    have := observation_error he
    simp at this
  refine ⟨?_, ?_, ?_⟩
  · rw [← hcount]
    rcases reset_eq d rb false shuf with ⟨-, h1, e⟩ | ⟨h1, h2⟩
    · rw [e]; exact ⟨fun _ => h1, fun _ => rfl⟩
    · have h3 : ¬ countTrue (d.stacks.map fun s => decide (s > 0)) ≤ 1 := by
        rcases h1 with h1 | h1
        · simp at h1
        · omega
      refine ⟨fun he => ?_, fun he => absurd he h3⟩
      rcases h2 with ⟨-, e⟩ | ⟨-, e⟩
      · rw [e] at he; simp at he
      · rw [e] at he; exact absurd he (hobs _ _)
  · intro he
    rcases reset_eq d rb false shuf with ⟨-, h1, e⟩ | ⟨h1, ⟨-, e⟩ | ⟨-, e⟩⟩
    · rw [e]
    · rw [e] at he; simp at he
    · rw [e] at he; exact absurd he (hobs _ _)
  · intro he
    rcases reset_eq d rb true shuf with ⟨h, -, -⟩ | ⟨h1, ⟨-, e⟩ | ⟨-, e⟩⟩
    · simp at h
    · rw [e] at he; simp at he
    · rw [e] at he; exact absurd he (hobs _ _)

/-- **C42 is false** for the code: the failing `reset` of a finished table changes what `step` reports afterwards. Two
players, of whom the first lost 10 chips to the second; after the failed `reset` both are reported to have lost 10. -/
theorem C42_false : ∃ S d, InHand S d ∧ Reachable d ∧ d.stacks = [0, 20] ∧
    (d.reset false false id).2 = .error .tooFewActivePlayers ∧
    ((d.step (.fin 0)).2.toOption.map fun o => o.2.1) = some [-10, 10] ∧
    (((d.reset false false id).1.step (.fin 0)).2.toOption.map fun o => o.2.1) = some [-10, -10] :=
  hand_exists (small 2 [1, 2] 10) [.bet 10, .bet 10] (by decide +kernel)

/-! ## C43 -/

/-- **C43**: `step` on a new table raises `TableResetError` and changes nothing. -/
theorem C43_new {args : DealerArgs} (h : Dealer.new args shuf = .ok d) (bet : PyNum) :
    d.step bet = (d, .error .tableReset) := by
  obtain ⟨-, h1, h2, -⟩ := new_stacks h
  unfold Dealer.step
  rw [h1, h2]
  simp only []
  rw [if_neg]
  simp

/-- **C43**: after the hand has ended, any number of further steps, with any bets, leave the table as it is. -/
theorem C43_readonly (h : d.action = none) (bets : List PyNum) :
    bets.foldl (fun e b => (Dealer.step e b).1) d = d := by
  induction bets with
  | nil => rfl
  | cons b bs ih => rw [List.foldl_cons, step_none h]; exact ih

/-- **C43** (partial: for hands that ended after the last street with at least two players; see `C43_false` for the
others): every further step reports the same observation, payouts and done flags as the step that ended the hand, and
all players are done. -/
theorem C43_showdown_partial (h : InHand S d) (hn : NonNegative S d.cfg) (hr : d.action ≠ none)
    (hs : d.step bet = (d', .ok out)) (hend : d'.action = none) (htwo : 2 ≤ numIn d') (hst : d'.cfg.numStreets ≤ d'.street)
    (bet' : PyNum) : d'.step bet' = (d', .ok out) ∧ out.2.2 = List.replicate d'.cfg.numPlayers true := by
  cases ha : d.action with
  | none => exact absurd ha hr
  | some a =>
    obtain ⟨b, c, lo, hi, x, p, v⟩ := step_view h ha hs
    have hnn := afterBet_nn_of h hn ha v.sizes v.eq
    rcases v.res with ⟨e, -, -⟩ | ⟨e, hd, ho⟩
    · obtain ⟨t, ht, -⟩ := v.live.action
      rw [e, ht] at hend
      simp at hend
    · subst e
      have hcount : 2 ≤ countTrue x.active := htwo
      have hstx : x.street ≥ x.cfg.numStreets := hst
      have hpay : (x.settle p).payouts = .ok p := by
        have hp := v.pay
        unfold Dealer.payouts at hp ⊢
        simp only [] at hp ⊢
        rw [if_neg (by omega), if_pos hstx] at hp
        rw [if_neg (show ¬ countTrue (x.settle p).active = 1 by show ¬ countTrue x.active = 1; omega),
          if_pos (show (x.settle p).street ≥ (x.settle p).cfg.numStreets from hstx), settle_evalRound v.live hnn]
        exact hp
      have hdone : (x.settle p).done = List.replicate x.cfg.numPlayers true := by
        unfold Dealer.done
        exact if_pos (.inl hstx)
      have hdone' : x.done = List.replicate x.cfg.numPlayers true := by
        unfold Dealer.done
        exact if_pos (.inl hstx)
      have hany : (x.settle p).active.any id = true := by
        show x.active.any id = true
        obtain ⟨i, hi, hi2⟩ := countTrue_pos.1 (show 1 ≤ countTrue x.active by omega)
        exact (any_getD false).2 ⟨i, hi, hi2⟩
      constructor
      · unfold Dealer.step
        rw [show (x.settle p).action = none from rfl]
        simp only []
        rw [if_pos hany, hpay, hdone]
        have : (List.replicate x.cfg.numPlayers true).all id = true := by simp
        rw [this, ho]
        simp only []
        have e1 : out = (out.1, out.2.1, out.2.2) := rfl
        rw [e1, v.paid, v.done, hdone']
      · rw [v.done, hdone']; rfl

/-- **C43** (partial: the payouts of hands that ended early): after a hand that ended before the last street although two
players were in, every further step reports the same payouts. -/
theorem C43_early_partial (h : InHand S d) (hr : d.action ≠ none) (hs : d.step bet = (d', .ok out)) (he : EndedEarly d')
    (bet' : PyNum) : ∃ obs' done', d'.step bet' = (d', .ok (obs', out.2.1, done')) := by
  obtain ⟨hend, htwo, hst⟩ := he
  cases ha : d.action with
  | none => exact absurd ha hr
  | some a =>
    obtain ⟨b, c, lo, hi, x, p, v⟩ := step_view h ha hs
    rcases v.res with ⟨e, -, -⟩ | ⟨e, hd, ho⟩
    · obtain ⟨t, ht, -⟩ := v.live.action
      rw [e, ht] at hend
      simp at hend
    · subst e
      have hcount : 2 ≤ countTrue x.active := htwo
      have hstx : x.street < x.cfg.numStreets := hst
      have hpay : (x.settle p).payouts = .ok p := by
        rcases payouts_cases v.pay with ⟨h1, -⟩ | ⟨-, h1, -⟩ | ⟨-, -, h1⟩
        · omega
        · omega
        · unfold Dealer.payouts
          simp only []
          rw [if_neg (show ¬ countTrue (x.settle p).active = 1 by show ¬ countTrue x.active = 1; omega),
            if_neg (show ¬ (x.settle p).street ≥ (x.settle p).cfg.numStreets by
              show ¬ x.street ≥ x.cfg.numStreets; omega)]
          rw [h1]; rfl
      have hany : (x.settle p).active.any id = true := by
        show x.active.any id = true
        obtain ⟨i, hi, hi2⟩ := countTrue_pos.1 (show 1 ≤ countTrue x.active by omega)
        exact (any_getD false).2 ⟨i, hi, hi2⟩
      have hobs : ∃ o, (x.settle p).observation ((x.settle p).done.all id) = .ok o := by
        cases (x.settle p).done.all id with
        | true => exact settle_observation v.live p
        | false =>
          have hsx := settle_seated v.live.seated (payouts_length v.live.seated v.pay)
          obtain ⟨c', lo', hi', hb⟩ := betSizes_ok hsx (show (x.settle p).street < (x.settle p).cfg.numStreets from hstx)
          obtain ⟨y, hy⟩ := pyGet_last (l := (x.settle p).holeCards) (by
            show 1 ≤ x.holeCards.length
            rw [v.live.holeLen]; have := v.live.seated.two; omega)
          unfold Dealer.observation
          simp only [Bool.false_eq_true, if_false, hb]
          rw [show (x.settle p).action = none from rfl]
          simp only [hy]
          exact ⟨_, rfl⟩
      obtain ⟨o, ho'⟩ := hobs
      refine ⟨o, (x.settle p).done, ?_⟩
      unfold Dealer.step
      rw [show (x.settle p).action = none from rfl]
      simp only []
      rw [if_pos hany, hpay, ho', v.paid]

/-- **C43 is false** of the done flags of such hands: they are no longer all set. -/
theorem C43_false_done : ∃ S d d' out, InHand S d ∧ Reachable d ∧ d.step (.fin (-1)) = (d', .ok out) ∧ NonNegative S d.cfg ∧
    d.action ≠ none ∧ EndedEarly d' ∧ out.2.2 = [true, true, true] ∧
    ((d'.step (.fin 0)).2.toOption.map fun o => o.2.2) = some [false, true, false] := by
  have := step_exists (small 3 [1, 2, 0] 2) [.bet 2] (.fin (-1)) (P := fun S d d' out => NonNegative S d.cfg ∧
    d.action ≠ none ∧ (d'.action = none ∧ 2 ≤ numIn d' ∧ d'.street < d'.cfg.numStreets) ∧ out.2.2 = [true, true, true] ∧
    ((d'.step (.fin 0)).2.toOption.map fun o => o.2.2) = some [false, true, false]) (by decide +kernel)
  exact this

/-- a showdown -/
example : ∃ S d d' out, InHand S d ∧ Reachable d ∧ d.step (.fin 10) = (d', .ok out) ∧ NonNegative S d.cfg ∧ d.action ≠ none ∧
    d'.action = none ∧ 2 ≤ numIn d' ∧ d'.cfg.numStreets ≤ d'.street ∧ out.2.1 = [-10, 10] :=
  step_exists (small 2 [1, 2] 10) [.bet 10] (.fin 10) (by decide +kernel)

/-- **C43 is false** for hands that end because all others fold: the winner of 1 chip is reported to have won it once, and to
have lost 2 by every further step. -/
theorem C43_false : ∃ S d d' out, InHand S d ∧ Reachable d ∧ d.step (.fin (-1)) = (d', .ok out) ∧ NonNegative S d.cfg ∧
    d.action ≠ none ∧ d'.action = none ∧ out.2.1 = [-1, 1] ∧
    ((d'.step (.fin 0)).2.toOption.map fun o => o.2.1) = some [-1, -2] :=
  step_exists (small 2 [1, 2] 10) [] (.fin (-1)) (by decide +kernel)

end Clubs

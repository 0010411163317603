import Verif.Lemmas.Better
import Verif.Lemmas.Blind
import Verif.Lemmas.TwoDeals
import Verif.Props.Level
import Verif.Props.Turn

/-!
# C89: a better hand never wins less
-/

namespace Clubs

open Spec

variable {S : List Int} {d e d' e' d0 : Dealer} {bet : PyNum} {s s' : Nat → Int} {j : Nat} {res res' : Except Err StepOut}

/-! ## the cards do not influence the betting -/

theorem running_back (h : InHand S d) (hon : Running (d.step bet).1) : Running d := by
  cases ha : d.action with
  | none => rw [step_none ha] at hon; exact hon
  | some a =>
    obtain ⟨hl, -⟩ := live_of_action h ha
    rcases step_some ha bet with ⟨_, -, he⟩ | ⟨_, _, -, -, he⟩ | ⟨b, c, lo, hi, -, hs, -⟩
    · rw [he] at hon; exact hon
    · rw [he] at hon; exact hon
    · refine ⟨⟨a, ha⟩, ?_⟩
      by_contra hx
      rw [betSizes_error hl.seated (by omega)] at hs
      cases hs

/-- **C89**: two deals of the same table differ in nothing but the cards. -/
theorem C89_deal {rb rs : Bool} {sh sh' : Shuffle} {o o' : Observation} (h1 : d0.reset rb rs sh = (d, .ok o))
    (h2 : d0.reset rb rs sh' = (e, .ok o')) : SameButCards d e := reset_otherCards h1 h2

/-- **C89**: the cards do not influence the betting: as long as the hand goes on, the same bets lead to tables that differ in nothing but
the cards. -/
theorem C89_blind (h : InHand S d) (hc : SameButCards d e) (bets : List PyNum) (hon : Running (Spec.afterBets d bets)) :
    SameButCards (Spec.afterBets d bets) (Spec.afterBets e bets) := by
  induction bets generalizing d e with
  | nil => exact hc
  | cons b bets ih =>
    have back : ∀ (bets : List PyNum) (x : Dealer), InHand S x → Running (Spec.afterBets x bets) → Running x := by
      intro bets
      induction bets with
      | nil => exact fun x _ hx => hx
      | cons c cs ih2 => exact fun x hx hr => running_back hx (ih2 _ (.step c hx) hr)
    have h1 : Running (d.step b).1 := back bets _ (.step b h) hon
    exact ih (.step b h) (step_blind hc (running_back h h1) b h1) hon

theorem afterBets_in (h : InHand S d) (bets : List PyNum) : InHand S (Spec.afterBets d bets) := by
  induction bets generalizing d with
  | nil => exact h
  | cons b bets ih => exact ih (.step b h)

theorem SameHand.contribution (h : SameHand d e) : contribution e = contribution d := by
  funext i; unfold Spec.contribution; rw [h.potCommits]

theorem SameHand.inB (h : SameHand d e) : inB e = inB d := by
  funext i; unfold Spec.inB; rw [h.active]

theorem SameHand.showdown (h : SameHand d e) (hs : AtShowdown d) : AtShowdown e := by
  unfold AtShowdown numIn at *
  rw [h.cfg, h.street, h.active]
  exact hs

/-- the receiver of the odd chips stays the same if it gets a better hand -/
theorem firstAfter_better {n b w : Nat} {p p' : Nat → Prop} (hj : p' j) (hp : ∀ i, p' i → i = j ∨ p i) (h : FirstAfter n p b j)
    (h' : FirstAfter n p' b w) : w = j := by
  obtain ⟨k, k1, k2, k3, k4, k5⟩ := h
  obtain ⟨l, l1, l2, l3, l4, l5⟩ := h'
  rcases hp w l4 with h1 | h1
  · exact h1
  · have h2 : ¬ l < k := fun hlt => by rw [l3] at h1; exact k5 l l1 hlt h1
    have h3 : ¬ k < l := fun hlt => by rw [k3] at hj; exact l5 k k1 hlt hj
    rw [l3, k3, show l = k by omega]

/-! ## the payouts -/

/-- **C89** (part: for clear pots, see C24, and with the button at seat 0 or without odd chips; see `C89_false` and `C89_false_odd`): at a
table where the cards of a player are better, and nothing else is different, the same bet does not pay them less. -/
theorem C89_better_partial (h : InHand S d) (h' : InHand S e) (hc : SameButCards d e) (hn : NonNegative S d.cfg) (hrun : Running d)
    (hs : d.step bet = (d', res)) (hs' : e.step bet = (e', res')) (hsh : AtShowdown d') (hr : Ranks d' s) (hr' : Ranks e' s')
    (hcl : ClearPot d' s) (hcl' : ClearPot e' s') (hb : d'.button = 0 ∨ oddAt d' s = 0 ∧ oddAt e' s' = 0) (hi : Improves j s s')
    (hj : j < d.cfg.numPlayers) : ∃ obs pays done obs' pays' done', res = .ok (obs, pays, done) ∧ res' = .ok (obs', pays', done') ∧
      pays.getD j 0 ≤ pays'.getD j 0 := by
  have hsame : SameHand d' e' := by
    have := step_hand hc (by obtain ⟨⟨a, ha⟩, -⟩ := hrun; rw [ha]; simp) bet
    rwa [hs, hs'] at this
  have hcfg : d'.cfg = d.cfg := by have := step_cfg d bet; rwa [hs] at this
  have hrun' : Running e := by obtain ⟨C, D, H, rfl⟩ := sameButCards_iff.1 hc; exact hrun
  have hn' : NonNegative S e.cfg := by obtain ⟨C, D, H, rfl⟩ := sameButCards_iff.1 hc; exact hn
  have hsh' := hsame.showdown hsh
  have hjd : j < d'.cfg.numPlayers := by rw [hcfg]; exact hj
  have hje : j < e'.cfg.numPlayers := by rw [hsame.cfg]; exact hjd
  have d1 : dueAt d' s j ≤ dueAt e' s' j := by
    unfold dueAt
    rw [hsame.cfg, hsame.inB, hsame.contribution]
    exact due_better hi hjd
  have d2 : dueAt d' s j + oddAt d' s ≤ dueAt e' s' j + oddAt e' s' := by
    unfold dueAt oddAt
    rw [hsame.cfg, hsame.inB, hsame.contribution]
    exact due_odd_better hi hjd
  have o1 : 0 ≤ oddAt e' s' := odd_nonneg
  have toPays : ∀ p p' : List Int, received d' p j ≤ received e' p' j → p.getD j 0 ≤ p'.getD j 0 := by
    intro p p' hle
    unfold received at hle
    rw [hsame.contribution] at hle
    omega
  have w1 : Wins d' s j → Wins e' s' j := by
    rintro ⟨t, ht⟩
    refine ⟨t, ?_⟩
    rw [hsame.cfg, hsame.inB, hsame.contribution]
    exact wins_still hi ht
  have w2 : ∀ i, Wins e' s' i → i = j ∨ Wins d' s i := by
    rintro i ⟨t, ht⟩
    rw [hsame.cfg, hsame.inB, hsame.contribution] at ht
    rcases wins_better hi ht with h1 | h1
    · exact .inl h1
    · exact .inr ⟨t, h1⟩
  by_cases o : oddAt d' s = 0
  · obtain ⟨obs, pays, done, h1, h2⟩ := C27_even h hn hrun hs hsh hr hcl o
    have h2 := h2 j hjd
    by_cases o' : oddAt e' s' = 0
    · obtain ⟨obs', pays', done', h1', h2'⟩ := C27_even h' hn' hrun' hs' hsh' hr' hcl' o'
      have h2' := h2' j hje
      exact ⟨obs, pays, done, obs', pays', done', h1, h1', toPays _ _ (by omega)⟩
    · obtain ⟨obs', pays', done', w, h1', -, h2'⟩ := C27_first_winner_partial h' hn' hrun' hs' hsh' hr' hcl' o'
        (by rw [hsame.button]; rcases hb with hb | hb; exacts [hb, absurd hb.2 o'])
      have h2' := h2' j hje
      refine ⟨obs, pays, done, obs', pays', done', h1, h1', toPays _ _ ?_⟩
      split_ifs at h2' <;> omega
  · have hb : d'.button = 0 := by rcases hb with hb | hb; exacts [hb, absurd hb.1 o]
    obtain ⟨obs, pays, done, w, h1, hw, h2⟩ := C27_first_winner_partial h hn hrun hs hsh hr hcl o hb
    have h2 := h2 j hjd
    by_cases o' : oddAt e' s' = 0
    · obtain ⟨obs', pays', done', h1', h2'⟩ := C27_even h' hn' hrun' hs' hsh' hr' hcl' o'
      have h2' := h2' j hje
      refine ⟨obs, pays, done, obs', pays', done', h1, h1', toPays _ _ ?_⟩
      split_ifs at h2 <;> omega
    · obtain ⟨obs', pays', done', w', h1', hw', h2'⟩ := C27_first_winner_partial h' hn' hrun' hs' hsh' hr' hcl' o'
        (by rw [hsame.button]; exact hb)
      have h2' := h2' j hje
      refine ⟨obs, pays, done, obs', pays', done', h1, h1', toPays _ _ ?_⟩
      by_cases hwj : w = j
      · subst hwj
        rw [hsame.cfg, hsame.button] at hw'
        have hwin : Wins d' s w := by obtain ⟨k, -, -, -, k4, -⟩ := hw; exact k4
        rw [firstAfter_better (w1 hwin) w2 hw hw', if_pos rfl] at h2'
        rw [if_pos rfl] at h2
        omega
      · rw [if_neg hwj] at h2
        split_ifs at h2' <;> omega

/-- **C89**: for two deals without ties at the showdown, with side pots: the player with the better hand does not get less, the others do
not get more. -/
theorem C89_distinct (h : InHand S d) (h' : InHand S e) (hc : SameButCards d e) (hn : NonNegative S d.cfg) (hcov : Covers S d.cfg)
    (ha : CloseAntes d.cfg) (hrun : Running d) (hs : d.step bet = (d', res)) (hs' : e.step bet = (e', res')) (hsh : AtShowdown d')
    (hr : Ranks d' s) (hr' : Ranks e' s') (ht : NoTies d' s) (ht' : NoTies e' s') (hi : Improves j s s') (hj : j < d.cfg.numPlayers) :
    ∃ obs pays done obs' pays' done', res = .ok (obs, pays, done) ∧ res' = .ok (obs', pays', done') ∧
      pays.getD j 0 ≤ pays'.getD j 0 ∧ ∀ i < d.cfg.numPlayers, i ≠ j → pays'.getD i 0 ≤ pays.getD i 0 := by
  have hsame : SameHand d' e' := by
    have := step_hand hc (by obtain ⟨⟨a, ha⟩, -⟩ := hrun; rw [ha]; simp) bet
    rwa [hs, hs'] at this
  have hcfg : d'.cfg = d.cfg := by have := step_cfg d bet; rwa [hs] at this
  have hrun' : Running e := by obtain ⟨C, D, H, rfl⟩ := sameButCards_iff.1 hc; exact hrun
  have he : e.cfg = d.cfg := by obtain ⟨C, D, H, rfl⟩ := sameButCards_iff.1 hc; rfl
  obtain ⟨obs, pays, done, h1, h2⟩ := C25_distinct_partial h hn hcov ha hrun hs hsh hr ht
  obtain ⟨obs', pays', done', h1', h2'⟩ := C25_distinct_partial h' (by rw [he]; exact hn) (by rw [he]; exact hcov) (by rw [he]; exact ha)
    hrun' hs' (hsame.showdown hsh) hr' ht'
  rw [hsame.cfg, hcfg] at h2'
  rw [hcfg] at h2
  refine ⟨obs, pays, done, obs', pays', done', h1, h1', ?_, fun i hi' hij => ?_⟩
  · have a := h2 j hj
    have b := h2' j hj
    have f := fairShare_better (n := d.cfg.numPlayers) (act := inB d') (c := contribution d') hi
    rw [hsame.inB, hsame.contribution] at b
    rw [← a, ← b] at f
    have f : received d' pays j ≤ received e' pays' j := by exact_mod_cast f
    unfold received at f
    rw [hsame.contribution] at f
    omega
  · have a := h2 i hi'
    have b := h2' i hi'
    have f := fairShare_others (n := d.cfg.numPlayers) (act := inB d') (c := contribution d') hi hij
    rw [hsame.inB, hsame.contribution] at b
    rw [← a, ← b] at f
    have f : received e' pays' i ≤ received d' pays i := by exact_mod_cast f
    unfold received at f
    rw [hsame.contribution] at f
    omega

/-- **C89**: with two players, at a table where both have chips and pay the same ante: the player with the better hand does not get less, the
other one does not get more. Ties and unequal stacks included. -/
theorem C89_two_players (h : InHand S d) (h' : InHand S e) (hc : SameButCards d e) (hn : NonNegative S d.cfg) (hcov : Covers S d.cfg)
    (ha : EqualAntes d.cfg) (h2 : d.cfg.numPlayers = 2) (hpos : ∀ x ∈ S, 0 < x) (hrun : Running d) (hs : d.step bet = (d', res))
    (hs' : e.step bet = (e', res')) (hsh : AtShowdown d') (hr : Ranks d' s) (hr' : Ranks e' s') (hi : Improves j s s') (hj : j < 2) :
    ∃ obs pays done obs' pays' done', res = .ok (obs, pays, done) ∧ res' = .ok (obs', pays', done') ∧
      pays.getD j 0 ≤ pays'.getD j 0 ∧ ∀ i < 2, i ≠ j → pays'.getD i 0 ≤ pays.getD i 0 := by
  have hsame : SameHand d' e' := by
    have := step_hand hc (by obtain ⟨⟨a, ha⟩, -⟩ := hrun; rw [ha]; simp) bet
    rwa [hs, hs'] at this
  have hrun' : Running e := by obtain ⟨C, D, H, rfl⟩ := sameButCards_iff.1 hc; exact hrun
  have he : e.cfg = d.cfg := by obtain ⟨C, D, H, rfl⟩ := sameButCards_iff.1 hc; rfl
  obtain ⟨obs, pays, done, h1, p1⟩ := C25_two_players h hn hcov ha h2 hpos hrun hs hsh hr
  obtain ⟨obs', pays', done', h1', p2⟩ := C25_two_players h' (by rw [he]; exact hn) (by rw [he]; exact hcov) (by rw [he]; exact ha)
    (by rw [he]; exact h2) hpos hrun' hs' (hsame.showdown hsh) hr'
  refine ⟨obs, pays, done, obs', pays', done', h1, h1', ?_, fun i hi' hij => ?_⟩
  · have a := p1 j hj
    have b := p2 j hj
    have f := fairShare_better (n := 2) (act := inB d') (c := contribution d') hi
    rw [hsame.inB, hsame.contribution] at b
    rw [← a, ← b] at f
    have f : received d' pays j ≤ received e' pays' j := by exact_mod_cast f
    unfold received at f
    rw [hsame.contribution] at f
    omega
  · have a := p1 i hi'
    have b := p2 i hi'
    have f := fairShare_others (n := 2) (act := inB d') (c := contribution d') hi hij
    rw [hsame.inB, hsame.contribution] at b
    rw [← a, ← b] at f
    have f : received e' pays' i ≤ received d' pays i := by exact_mod_cast f
    unfold received at f
    rw [hsame.contribution] at f
    omega

/-! ## witnesses -/

theorem improves_list {l : List Int} {v : Int} (hj : j < l.length) (hv : v ≤ l.getD j 0) :
    Improves j (strength l) (strength (l.set j v)) := by
  refine ⟨?_, fun i hi => ?_⟩
  · simpa [strength, List.getD_eq_getElem?_getD, hj] using hv
  · simp [strength, List.getD_eq_getElem?_getD, List.getElem?_set, Ne.symm hi]

/-- Two shuffles of the same table and the same bets, from a computation. -/
theorem two_exist (a : DealerArgs) (cs : List Cmd) {sh sh' : Shuffle} (hs : IsShuffle sh) (hs' : IsShuffle sh') (bets : List PyNum)
    (bet : PyNum) {P : List Int → Dealer → Dealer → Except Err (List Int) → Dealer → Except Err (List Int) → Prop}
    [∀ S d d' r e' r', Decidable (P S d d' r e' r')]
    (h : (playTable a cs).bind (fun r => match r.2.1.reset false false sh, r.2.1.reset false false sh' with
      | (d, .ok _), (e, .ok _) => .ok (decide (Running (Spec.afterBets d bets) ∧ P (startStacks r.2.1 false) (Spec.afterBets d bets)
          ((Spec.afterBets d bets).step bet).1 (((Spec.afterBets d bets).step bet).2.map (·.2.1))
          ((Spec.afterBets e bets).step bet).1 (((Spec.afterBets e bets).step bet).2.map (·.2.1))))
      | _, _ => .error .indexError) = .ok true) :
    ∃ S d e d' e' res res', InHand S d ∧ InHand S e ∧ SameButCards d e ∧ d.step bet = (d', res) ∧ e.step bet = (e', res') ∧ Running d ∧
      P S d d' (res.map (·.2.1)) e' (res'.map (·.2.1)) := by
  obtain ⟨d0, d, e, o, o', h0, -, -, h1, h2, hrun, hp⟩ := deals_exist a cs hs hs' bets bet
    (P := fun d0 d d' r e' r' => Running d ∧ P (startStacks d0 false) d d' (r.map (·.2.1)) e' (r'.map (·.2.1))) h
  have i1 : InHand (startStacks d0 false) d := .dealt (reachable_seated h0) hs h1
  have i2 : InHand (startStacks d0 false) e := .dealt (reachable_seated h0) hs' h2
  exact ⟨_, _, _, _, _, _, _, afterBets_in i1 bets, afterBets_in i2 bets, C89_blind i1 (C89_deal h1 h2) bets hrun, rfl, rfl, hrun, hp⟩

set_option synthInstance.maxSize 1024 in
/-- **C89 is false in general**: seat 0 is all in with 2 chips and has a king. Seat 3, all in with 50, has an ace. Seats 1 and 2 have a king
too. Seat 0 gets 32 chips. If the king of seat 0 had been an ace, it would get 4. No chips are odd. -/
theorem C89_false : Improves 0 (strength [1, 1, 1, 0]) (strength [0, 1, 1, 0]) ∧
    ∃ S d e d' e' res res', InHand S d ∧ InHand S e ∧ SameButCards d e ∧ d.step (.fin 48) = (d', res) ∧ e.step (.fin 48) = (e', res') ∧
      Running d ∧ (NonNegative S d.cfg ∧ Covers S d.cfg ∧ CloseAntes d.cfg) ∧ AtShowdown d' ∧ Ranks d' (strength [1, 1, 1, 0]) ∧
      Ranks e' (strength [0, 1, 1, 0]) ∧ (oddAt d' (strength [1, 1, 1, 0]) = 0 ∧ oddAt e' (strength [0, 1, 1, 0]) = 0) ∧
      res.map (·.2.1) = .ok [30, -66, -66, 102] ∧ res'.map (·.2.1) = .ok [2, -50, -50, 98] :=
  ⟨improves_list (l := [1, 1, 1, 0]) (by decide) (by decide),
    two_exist (mixed 4 3 2 [0, 0, 0, 0] [1, 2, 0, 0] 100) [.bet 50, .bet 98, .bet 99, .bet (-1), .bet (-1), .bet (-1)] isShuffle_id
      isShuffle_swapFive [.fin 2, .fin 98, .fin 97] (.fin 48)
      (P := fun S d d' r e' r' => (NonNegative S d.cfg ∧ Covers S d.cfg ∧ CloseAntes d.cfg) ∧ AtShowdown d' ∧
        Ranks d' (strength [1, 1, 1, 0]) ∧ Ranks e' (strength [0, 1, 1, 0]) ∧
        (oddAt d' (strength [1, 1, 1, 0]) = 0 ∧ oddAt e' (strength [0, 1, 1, 0]) = 0) ∧ r = .ok [30, -66, -66, 102] ∧
        r' = .ok [2, -50, -50, 98]) (by decide +kernel)⟩

theorem isShuffle_rotate (k : Nat) : IsShuffle (List.rotate · k) := fun l => List.rotate_perm l k

set_option synthInstance.maxSize 1024 in
/-- **C89 is false with odd chips** and the button at seat 1, even for clear pots: seat 0 has a king, seat 1 an ace, and seat 2 folded its
blind. Seat 0 loses. If it had an ace too, the step would raise an `IndexError` and pay nobody. -/
theorem C89_false_odd : Improves 0 (strength [1, 0, 0]) (strength [0, 0, 0]) ∧
    ∃ S d e d' e' res res', InHand S d ∧ InHand S e ∧ SameButCards d e ∧ d.step (.fin 0) = (d', res) ∧ e.step (.fin 0) = (e', res') ∧
      Running d ∧ (NonNegative S d.cfg ∧ Covers S d.cfg ∧ CloseAntes d.cfg) ∧ AtShowdown d' ∧ Ranks d' (strength [1, 0, 0]) ∧
      Ranks e' (strength [0, 0, 0]) ∧ (ClearPot d' (strength [1, 0, 0]) ∧ ClearPot e' (strength [0, 0, 0])) ∧ d'.button = 1 ∧
      res.map (·.2.1) = .ok [-2, 3, -1] ∧ res'.map (·.2.1) = .error .indexError :=
  ⟨improves_list (l := [1, 0, 0]) (by decide) (by decide),
    two_exist (mixed 3 3 2 [0, 0, 0] [1, 2, 0] 100) [.bet (-1), .bet (-1)] (isShuffle_rotate 2) (isShuffle_rotate 3)
      [.fin 2, .fin (-1), .fin 0, .fin 0] (.fin 0)
      (P := fun S d d' r e' r' => (NonNegative S d.cfg ∧ Covers S d.cfg ∧ CloseAntes d.cfg) ∧ AtShowdown d' ∧
        Ranks d' (strength [1, 0, 0]) ∧ Ranks e' (strength [0, 0, 0]) ∧
        (ClearPot d' (strength [1, 0, 0]) ∧ ClearPot e' (strength [0, 0, 0])) ∧ d'.button = 1 ∧ r = .ok [-2, 3, -1] ∧
        r' = .error .indexError) (by decide +kernel)⟩

set_option synthInstance.maxSize 1024 in
/-- the hypotheses of `C89_better_partial`: seat 1 loses 20 with a king and wins 10 with an ace -/
example : Improves 1 (strength [1, 1, 0]) (strength [1, 0, 0]) ∧
    ∃ S d e d' e' res res', InHand S d ∧ InHand S e ∧ SameButCards d e ∧ d.step (.fin 0) = (d', res) ∧ e.step (.fin 0) = (e', res') ∧
      Running d ∧ (NonNegative S d.cfg ∧ Covers S d.cfg ∧ EqualAntes d.cfg) ∧ AtShowdown d' ∧ Ranks d' (strength [1, 1, 0]) ∧
      Ranks e' (strength [1, 0, 0]) ∧ (ClearPot d' (strength [1, 1, 0]) ∧ ClearPot e' (strength [1, 0, 0])) ∧ d'.button = 0 ∧
      res.map (·.2.1) = .ok [-20, -20, 40] ∧ res'.map (·.2.1) = .ok [-20, 10, 10] :=
  ⟨improves_list (l := [1, 1, 0]) (by decide) (by decide),
    two_exist (mixed 3 3 2 [0, 0, 0] [1, 2, 0] 100) [.bet (-1), .bet (-1), .deal, .bet (-1), .bet (-1), .deal, .bet (-1), .bet (-1)]
      (isShuffle_rotate 1) (isShuffle_rotate 2) [.fin 20, .fin 19, .fin 18, .fin 0, .fin 0] (.fin 0)
      (P := fun S d d' r e' r' => (NonNegative S d.cfg ∧ Covers S d.cfg ∧ EqualAntes d.cfg) ∧ AtShowdown d' ∧
        Ranks d' (strength [1, 1, 0]) ∧ Ranks e' (strength [1, 0, 0]) ∧
        (ClearPot d' (strength [1, 1, 0]) ∧ ClearPot e' (strength [1, 0, 0])) ∧ d'.button = 0 ∧ r = .ok [-20, -20, 40] ∧
        r' = .ok [-20, 10, 10]) (by decide +kernel)⟩

set_option synthInstance.maxSize 1024 in
/-- the hypotheses of `C89_distinct`, with side pots: seat 0 put in 62, seat 1 20, seat 2 8. Seat 0 has a nine, then a king. -/
example : Improves 0 (strength [5, 4, 3]) (strength [1, 4, 3]) ∧
    ∃ S d e d' e' res res', InHand S d ∧ InHand S e ∧ SameButCards d e ∧ d.step (.fin 60) = (d', res) ∧ e.step (.fin 60) = (e', res') ∧
      Running d ∧ (NonNegative S d.cfg ∧ Covers S d.cfg ∧ CloseAntes d.cfg) ∧ AtShowdown d' ∧ Ranks d' (strength [5, 4, 3]) ∧
      Ranks e' (strength [1, 4, 3]) ∧ (NoTies d' (strength [5, 4, 3]) ∧ NoTies e' (strength [1, 4, 3])) ∧
      d'.potCommits = [62, 20, 8] ∧ res.map (·.2.1) = .ok [-20, 4, 16] ∧ res'.map (·.2.1) = .ok [28, -20, -8] :=
  ⟨improves_list (l := [5, 4, 3]) (by decide) (by decide),
    two_exist (small 3 [1, 2, 0] 30) [.bet 10, .bet 9, .bet 20, .bet 20, .bet (-1), .bet (-1)] isShuffle_id isShuffle_swapFive
      [.fin 20, .fin 7] (.fin 60)
      (P := fun S d d' r e' r' => (NonNegative S d.cfg ∧ Covers S d.cfg ∧ CloseAntes d.cfg) ∧ AtShowdown d' ∧
        Ranks d' (strength [5, 4, 3]) ∧ Ranks e' (strength [1, 4, 3]) ∧ (NoTies d' (strength [5, 4, 3]) ∧ NoTies e' (strength [1, 4, 3])) ∧
        d'.potCommits = [62, 20, 8] ∧ r = .ok [-20, 4, 16] ∧ r' = .ok [28, -20, -8]) (by decide +kernel)⟩

set_option synthInstance.maxSize 1024 in
/-- the hypotheses of `C89_two_players`: a tie, then seat 1 has an ace -/
example : Improves 1 (strength [1, 1]) (strength [1, 0]) ∧
    ∃ S d e d' e' res res', InHand S d ∧ InHand S e ∧ SameButCards d e ∧ d.step (.fin 20) = (d', res) ∧ e.step (.fin 20) = (e', res') ∧
      Running d ∧ (NonNegative S d.cfg ∧ Covers S d.cfg ∧ EqualAntes d.cfg) ∧ (d.cfg.numPlayers = 2 ∧ ∀ x ∈ S, 0 < x) ∧ AtShowdown d' ∧
      Ranks d' (strength [1, 1]) ∧ Ranks e' (strength [1, 0]) ∧ res.map (·.2.1) = .ok [0, 0] ∧ res'.map (·.2.1) = .ok [-4, 4] :=
  ⟨improves_list (l := [1, 1]) (by decide) (by decide),
    two_exist (mixed 2 3 2 [0, 0] [1, 2] 10) [.bet 5, .bet 4, .bet (-1)] isShuffle_id (isShuffle_rotate 2) [.fin 20] (.fin 20)
      (P := fun S d d' r e' r' => (NonNegative S d.cfg ∧ Covers S d.cfg ∧ EqualAntes d.cfg) ∧
        (d.cfg.numPlayers = 2 ∧ ∀ x ∈ S, 0 < x) ∧ AtShowdown d' ∧ Ranks d' (strength [1, 1]) ∧ Ranks e' (strength [1, 0]) ∧
        r = .ok [0, 0] ∧ r' = .ok [-4, 4]) (by decide +kernel)⟩

end Clubs

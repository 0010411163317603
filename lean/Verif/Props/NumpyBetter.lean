import Verif.Props.Better
import Verif.Props.NumpyShow
import Verif.Props.NumpyReplay

/-!
# C89 for the array engine: a better hand never wins less
-/

namespace Clubs.Numpy

open Spec

variable {S : List Int} {d e d' e' d0 : Dealer} {bet : PyNum} {s s' : Nat → Int} {j : Nat} {res res' : Except Err StepOut}

theorem running_back (h : ArrayInHand S d) (hon : Running (step d bet).1) : Running d := by
  cases ha : d.action with
  | none => rw [step_none ha] at hon; exact hon
  | some a =>
    obtain ⟨hl, -⟩ := live_of_array h ha
    rcases step_some ha bet with ⟨_, -, he⟩ | ⟨_, _, -, -, he⟩ | ⟨b, c, lo, hi, -, hs, -⟩
    · rw [he] at hon; exact hon
    · rw [he] at hon; exact hon
    · refine ⟨⟨a, ha⟩, ?_⟩
      by_contra hx
      rw [show d.betSizes = (atSeat d).betSizes from rfl,
        betSizes_error hl.seated (show d.cfg.numStreets ≤ d.street by omega)] at hs
      cases hs

/-- **C89**: two deals of the same table differ in nothing but the cards. -/
theorem C89_deal {rb rs : Bool} {sh sh' : Shuffle} {o o' : Observation} (h1 : reset d0 rb rs sh = (d, .ok o))
    (h2 : reset d0 rb rs sh' = (e, .ok o')) : SameButCards d e := reset_otherCards h1 h2

/-- **C89**: the cards do not influence the betting: as long as the hand goes on, the same bets lead to tables that differ in nothing but
the cards. -/
theorem C89_blind (h : ArrayInHand S d) (hc : SameButCards d e) (bets : List PyNum) (hon : Running (arrayAfter d bets)) :
    SameButCards (arrayAfter d bets) (arrayAfter e bets) := by
  induction bets generalizing d e with
  | nil => exact hc
  | cons b bets ih =>
    have back : ∀ (bets : List PyNum) (x : Dealer), ArrayInHand S x → Running (arrayAfter x bets) → Running x := by
      intro bets
      induction bets with
      | nil => exact fun x _ hx => hx
      | cons c cs ih2 => exact fun x hx hr => running_back hx (ih2 _ (.step c hx) hr)
    have h1 : Running (step d b).1 := back bets _ (.step b h) hon
    exact ih (.step b h) (step_blind hc (running_back h h1) b h1) hon

theorem arrayAfter_in (h : ArrayInHand S d) (bets : List PyNum) : ArrayInHand S (arrayAfter d bets) := by
  induction bets generalizing d with
  | nil => exact h
  | cons b bets ih => exact ih (.step b h)

theorem fromButton_inj {n b i k : Nat} (hi : i < n) (hk : k < n) (h : fromButton n b i = fromButton n b k) : i = k := by
  unfold fromButton at h
  split_ifs at h <;> omega

/-- **C89**: at a table where the cards of a player are better, and nothing else is different, the same bet does not pay them less. Odd
chips, ties and side pots included, wherever the button is. -/
theorem C89_better (h : ArrayInHand S d) (h' : ArrayInHand S e) (hc : SameButCards d e) (hn : NonNegative S d.cfg) (hz : SizesOk d.cfg)
    (hrun : Running d) (hs : step d bet = (d', res)) (hs' : step e bet = (e', res')) (hsh : AtShowdown d') (hr : Ranks d' s)
    (hr' : Ranks e' s') (hf : FoldsCovered d'.cfg.numPlayers (inB d') (contribution d')) (hi : Improves j s s')
    (hj : j < d.cfg.numPlayers) : ∃ obs pays done obs' pays' done', res = .ok (obs, pays, done) ∧ res' = .ok (obs', pays', done') ∧
      pays.getD j 0 ≤ pays'.getD j 0 := by
  have hsame : SameHand d' e' := by
    have := step_hand hc (by obtain ⟨⟨a, ha⟩, -⟩ := hrun; rw [ha]; simp) bet
    rwa [hs, hs'] at this
  have hcfg : d'.cfg = d.cfg := by have := step_cfg d bet; rwa [hs] at this
  have hrun' : Running e := by obtain ⟨C, D, H, rfl⟩ := sameButCards_iff.1 hc; exact hrun
  have hn' : NonNegative S e.cfg := by obtain ⟨C, D, H, rfl⟩ := sameButCards_iff.1 hc; exact hn
  have hz' : SizesOk e.cfg := by obtain ⟨C, D, H, rfl⟩ := sameButCards_iff.1 hc; exact hz
  have hsh' := hsame.showdown hsh
  have hf' : FoldsCovered e'.cfg.numPlayers (inB e') (contribution e') := by
    rw [hsame.cfg, hsame.inB, hsame.contribution]; exact hf
  have hjd : j < d'.cfg.numPlayers := by rw [hcfg]; exact hj
  have hje : j < e'.cfg.numPlayers := by rw [hsame.cfg]; exact hjd
  have d1 : dueAt d' s j ≤ dueAt e' s' j := by
    unfold dueAt
    rw [hsame.cfg, hsame.inB, hsame.contribution]
    exact due_better hi hjd
  have d2 : dueAt d' s j + oddAt d' s ≤ dueAt e' s' j + oddAt e' s' := by
    unfold dueAt oddAt
    rw [hsame.cfg, hsame.inB, hsame.contribution]
    exact due_odd_better hi hjd
  have o1 : 0 ≤ oddAt e' s' := odd_nonneg
  have toPays : ∀ p p' : List Int, received d' p j ≤ received e' p' j → p.getD j 0 ≤ p'.getD j 0 := by
    intro p p' hle
    unfold received at hle
    rw [hsame.contribution] at hle
    omega
  have w1 : Wins d' s j → Wins e' s' j := by
    rintro ⟨t, ht⟩
    refine ⟨t, ?_⟩
    rw [hsame.cfg, hsame.inB, hsame.contribution]
    exact wins_still hi ht
  have w2 : ∀ i, Wins e' s' i → i = j ∨ Wins d' s i := by
    rintro i ⟨t, ht⟩
    rw [hsame.cfg, hsame.inB, hsame.contribution] at ht
    rcases wins_better hi ht with h1 | h1
    · exact .inl h1
    · exact .inr ⟨t, h1⟩
  obtain ⟨obs, pays, done, h1, -, h2⟩ := C71_shares h hn hz hrun hs hsh hr hf
  obtain ⟨obs', pays', done', h1', -, h2'⟩ := C71_shares h' hn' hz' hrun' hs' hsh' hr' hf'
  refine ⟨obs, pays, done, obs', pays', done', h1, h1', toPays _ _ ?_⟩
  rcases h2 with ⟨o, h2⟩ | ⟨o, w, hw, hw1, hw2, h2⟩
  · have h2 := h2 j hjd
    rcases h2' with ⟨o', h2'⟩ | ⟨o', w', -, -, -, h2'⟩
    · have h2' := h2' j hje
      omega
    · have h2' := h2' j hje
      split_ifs at h2' <;> omega
  · have h2 := h2 j hjd
    rcases h2' with ⟨o', h2'⟩ | ⟨o', w', hwn, hw1', hw2', h2'⟩
    · have h2' := h2' j hje
      split_ifs at h2 <;> omega
    · have h2' := h2' j hje
      by_cases hwj : w = j
      · subst hwj
        have hww : w' = w := by
          rcases w2 w' hw1' with h3 | h3
          · exact h3
          · have h4 := hw2 w' h3
            have h5 := hw2' w (w1 hw1)
            rw [hsame.cfg] at hwn
            rw [hsame.cfg, hsame.button] at h5
            exact fromButton_inj hwn hw (le_antisymm h5 h4)
        rw [hww, if_pos rfl] at h2'
        rw [if_pos rfl] at h2
        omega
      · rw [if_neg hwj] at h2
        split_ifs at h2' <;> omega

/-- **C89**: two deals of the same table, the same bets: a player whose hand is better at the showdown does not get less. -/
theorem C89_hand {rb rs : Bool} {sh sh' : Shuffle} {o o' : Observation} {bets : List PyNum} (hd : ArrayReachable d0) (hsh : IsShuffle sh)
    (hsh' : IsShuffle sh') (h1 : reset d0 rb rs sh = (d, .ok o)) (h2 : reset d0 rb rs sh' = (e, .ok o'))
    (hn : NonNegative (startStacks d0 rs) d0.cfg) (hz : SizesOk d0.cfg) (hcov : Covers (startStacks d0 rs) d0.cfg) (ha : CloseAntes d0.cfg)
    (hrun : Running (arrayAfter d bets)) (hs : step (arrayAfter d bets) bet = (d', res)) (hs' : step (arrayAfter e bets) bet = (e', res'))
    (hshow : AtShowdown d') (hr : Ranks d' s) (hr' : Ranks e' s') (hi : Improves j s s') (hj : j < d0.cfg.numPlayers) :
    ∃ obs pays done obs' pays' done', res = .ok (obs, pays, done) ∧ res' = .ok (obs', pays', done') ∧
      pays.getD j 0 ≤ pays'.getD j 0 := by
  have i1 : ArrayInHand (startStacks d0 rs) d := .dealt (array_seated hd) hsh h1
  have i2 : ArrayInHand (startStacks d0 rs) e := .dealt (array_seated hd) hsh' h2
  have c1 : d.cfg = d0.cfg := by have := reset_cfg d0 rb rs sh; rwa [h1] at this
  have c2 : ∀ (bets : List PyNum) (x : Dealer), (arrayAfter x bets).cfg = x.cfg := by
    intro bets
    induction bets with
    | nil => exact fun x => rfl
    | cons b bets ih => exact fun x => (ih _).trans (step_cfg x b)
  have c3 : (arrayAfter d bets).cfg = d0.cfg := (c2 bets d).trans c1
  have c4 : d'.cfg = d0.cfg := by have := step_cfg (arrayAfter d bets) bet; rw [hs] at this; exact this.trans c3
  have i3 := arrayAfter_in i1 bets
  have i4 : ArrayInHand (startStacks d0 rs) d' := by have := ArrayInHand.step bet i3; rwa [hs] at this
  exact C89_better i3 (arrayAfter_in i2 bets) (C89_blind i1 (C89_deal h1 h2) bets hrun) (by rw [c3]; exact hn) (by rw [c3]; exact hz) hrun
    hs hs' hshow hr hr' (C71_folds_covered i4 (by rw [c4]; exact hn) (by rw [c4]; exact hz) (by rw [c4]; exact hcov) (by rw [c4]; exact ha))
    hi (by rw [c3]; exact hj)

/-- **C89**: the others do not get more than they would get if the player had the worse hand, odd chips apart. -/
theorem C89_others (h : ArrayInHand S d) (h' : ArrayInHand S e) (hc : SameButCards d e) (hn : NonNegative S d.cfg) (hz : SizesOk d.cfg)
    (hcov : Covers S d.cfg) (ha : CloseAntes d.cfg) (hrun : Running d) (hs : step d bet = (d', res)) (hs' : step e bet = (e', res'))
    (hsh : AtShowdown d') (hr : Ranks d' s) (hr' : Ranks e' s') (hi : Improves j s s') :
    ∃ obs pays done obs' pays' done', res = .ok (obs, pays, done) ∧ res' = .ok (obs', pays', done') ∧
      ∀ i < d.cfg.numPlayers, i ≠ j → pays'.getD i 0 ≤ pays.getD i 0 + oddAt d' s + oddAt e' s' := by
  have hsame : SameHand d' e' := by
    have := step_hand hc (by obtain ⟨⟨a, ha⟩, -⟩ := hrun; rw [ha]; simp) bet
    rwa [hs, hs'] at this
  have hcfg : d'.cfg = d.cfg := by have := step_cfg d bet; rwa [hs] at this
  have hrun' : Running e := by obtain ⟨C, D, H, rfl⟩ := sameButCards_iff.1 hc; exact hrun
  have he : e.cfg = d.cfg := by obtain ⟨C, D, H, rfl⟩ := sameButCards_iff.1 hc; rfl
  obtain ⟨obs, pays, done, h1, -, w, -, h2⟩ := C71_fair h hn hz hcov ha hrun hs hsh hr
  obtain ⟨obs', pays', done', h1', -, w', -, h2'⟩ := C71_fair h' (by rw [he]; exact hn) (by rw [he]; exact hz) (by rw [he]; exact hcov)
    (by rw [he]; exact ha) hrun' hs' (hsame.showdown hsh) hr'
  refine ⟨obs, pays, done, obs', pays', done', h1, h1', fun i hi' hij => ?_⟩
  obtain ⟨a1, a2, a3, -⟩ := h2 i (by rw [hcfg]; exact hi')
  obtain ⟨b1, b2, b3, -⟩ := h2' i (by rw [hsame.cfg, hcfg]; exact hi')
  have f := fairShare_others (n := d'.cfg.numPlayers) (act := inB d') (c := contribution d') hi hij
  rw [hsame.cfg, hsame.inB, hsame.contribution] at b2
  have f : (dueAt e' s' i : Rat) ≤ dueAt d' s i + oddAt d' s := le_trans b2 (le_trans f a3)
  have f : dueAt e' s' i ≤ dueAt d' s i + oddAt d' s := by exact_mod_cast f
  have o1 : 0 ≤ oddAt e' s' := odd_nonneg
  have o2 : 0 ≤ oddAt d' s := odd_nonneg
  unfold received at a1 b1
  rw [hsame.contribution] at b1
  split_ifs at a1 b1 <;> omega

/-! ## witnesses -/

/-- Two shuffles of the same table and the same bets, from a computation. -/
theorem two_exist (a : DealerArgs) (cs : List Cmd) {sh sh' : Shuffle} (hs : IsShuffle sh) (hs' : IsShuffle sh') (bets : List PyNum)
    (bet : PyNum) {P : List Int → Dealer → Dealer → Except Err (List Int) → Dealer → Except Err (List Int) → Prop}
    [∀ S d d' r e' r', Decidable (P S d d' r e' r')]
    (h : (playTable a cs).bind (fun r => match reset r.2.1 false false sh, reset r.2.1 false false sh' with
      | (d, .ok _), (e, .ok _) => .ok (decide (Running (arrayAfter d bets) ∧ P (startStacks r.2.1 false) (arrayAfter d bets)
          (step (arrayAfter d bets) bet).1 ((step (arrayAfter d bets) bet).2.map (·.2.1))
          (step (arrayAfter e bets) bet).1 ((step (arrayAfter e bets) bet).2.map (·.2.1))))
      | _, _ => .error .indexError) = .ok true) :
    ∃ S d e d' e' res res', ArrayInHand S d ∧ ArrayInHand S e ∧ SameButCards d e ∧ step d bet = (d', res) ∧ step e bet = (e', res') ∧
      Running d ∧ P S d d' (res.map (·.2.1)) e' (res'.map (·.2.1)) := by
  obtain ⟨d0, d, e, o, o', h0, -, -, h1, h2, hrun, hp⟩ := deals_exist a cs hs hs' bets bet
    (P := fun d0 d d' r e' r' => Running d ∧ P (startStacks d0 false) d d' (r.map (·.2.1)) e' (r'.map (·.2.1))) h
  have i1 : ArrayInHand (startStacks d0 false) d := .dealt (array_seated h0) hs h1
  have i2 : ArrayInHand (startStacks d0 false) e := .dealt (array_seated h0) hs' h2
  exact ⟨_, _, _, _, _, _, _, arrayAfter_in i1 bets, arrayAfter_in i2 bets, C89_blind i1 (C89_deal h1 h2) bets hrun, rfl, rfl, hrun, hp⟩

set_option synthInstance.maxSize 1024 in
/-- the hypotheses of `C89_better` and `C89_others`, with an odd chip: the hand of `Clubs.C89_false_odd`. Seat 0 loses 2 with a king, and with
an ace wins 1, the odd chip included. -/
example : Improves 0 (strength [1, 0, 0]) (strength [0, 0, 0]) ∧
    ∃ S d e d' e' res res', ArrayInHand S d ∧ ArrayInHand S e ∧ SameButCards d e ∧ step d (.fin 0) = (d', res) ∧
      step e (.fin 0) = (e', res') ∧ Running d ∧ (NonNegative S d.cfg ∧ SizesOk d.cfg ∧ Covers S d.cfg ∧ CloseAntes d.cfg) ∧
      AtShowdown d' ∧ Ranks d' (strength [1, 0, 0]) ∧ Ranks e' (strength [0, 0, 0]) ∧
      FoldsCovered d'.cfg.numPlayers (inB d') (contribution d') ∧ oddAt e' (strength [0, 0, 0]) = 1 ∧
      res.map (·.2.1) = .ok [-2, 3, -1] ∧ res'.map (·.2.1) = .ok [1, 0, -1] :=
  ⟨improves_list (l := [1, 0, 0]) (by decide) (by decide),
    two_exist (mixed 3 3 2 [0, 0, 0] [1, 2, 0] 100) [.bet (-1), .bet (-1)] (isShuffle_rotate 2) (isShuffle_rotate 3)
      [.fin 2, .fin (-1), .fin 0, .fin 0] (.fin 0)
      (P := fun S d d' r e' r' => (NonNegative S d.cfg ∧ SizesOk d.cfg ∧ Covers S d.cfg ∧ CloseAntes d.cfg) ∧ AtShowdown d' ∧
        Ranks d' (strength [1, 0, 0]) ∧ Ranks e' (strength [0, 0, 0]) ∧ FoldsCovered d'.cfg.numPlayers (inB d') (contribution d') ∧
        oddAt e' (strength [0, 0, 0]) = 1 ∧ r = .ok [-2, 3, -1] ∧ r' = .ok [1, 0, -1]) (by decide +kernel)⟩

set_option synthInstance.maxSize 1024 in
/-- the same for the hand of `Clubs.C89_false`, with side pots and ties -/
example : Improves 0 (strength [1, 1, 1, 0]) (strength [0, 1, 1, 0]) ∧
    ∃ S d e d' e' res res', ArrayInHand S d ∧ ArrayInHand S e ∧ SameButCards d e ∧ step d (.fin 48) = (d', res) ∧
      step e (.fin 48) = (e', res') ∧ Running d ∧ (NonNegative S d.cfg ∧ SizesOk d.cfg ∧ Covers S d.cfg ∧ CloseAntes d.cfg) ∧
      AtShowdown d' ∧ Ranks d' (strength [1, 1, 1, 0]) ∧ Ranks e' (strength [0, 1, 1, 0]) ∧
      FoldsCovered d'.cfg.numPlayers (inB d') (contribution d') ∧ res.map (·.2.1) = .ok [-2, -50, -50, 102] ∧
      res'.map (·.2.1) = .ok [2, -50, -50, 98] :=
  ⟨improves_list (l := [1, 1, 1, 0]) (by decide) (by decide),
    two_exist (mixed 4 3 2 [0, 0, 0, 0] [1, 2, 0, 0] 100) [.bet 50, .bet 98, .bet 99, .bet (-1), .bet (-1), .bet (-1)] isShuffle_id
      isShuffle_swapFive [.fin 2, .fin 98, .fin 97] (.fin 48)
      (P := fun S d d' r e' r' => (NonNegative S d.cfg ∧ SizesOk d.cfg ∧ Covers S d.cfg ∧ CloseAntes d.cfg) ∧ AtShowdown d' ∧
        Ranks d' (strength [1, 1, 1, 0]) ∧ Ranks e' (strength [0, 1, 1, 0]) ∧
        FoldsCovered d'.cfg.numPlayers (inB d') (contribution d') ∧ r = .ok [-2, -50, -50, 102] ∧ r' = .ok [2, -50, -50, 98])
      (by decide +kernel)⟩

set_option synthInstance.maxSize 1024 in
/-- the hypotheses of `C89_hand` -/
example : ∃ d0 d e o o', ArrayReachable d0 ∧ IsShuffle (List.rotate · 2) ∧ IsShuffle (List.rotate · 3) ∧
    reset d0 false false (List.rotate · 2) = (d, .ok o) ∧ reset d0 false false (List.rotate · 3) = (e, .ok o') ∧
    (NonNegative (startStacks d0 false) d0.cfg ∧ SizesOk d0.cfg ∧ Covers (startStacks d0 false) d0.cfg ∧ CloseAntes d0.cfg) ∧
    Running (arrayAfter d [.fin 2, .fin (-1), .fin 0, .fin 0]) ∧
    AtShowdown (step (arrayAfter d [.fin 2, .fin (-1), .fin 0, .fin 0]) (.fin 0)).1 ∧
    Ranks (step (arrayAfter d [.fin 2, .fin (-1), .fin 0, .fin 0]) (.fin 0)).1 (strength [1, 0, 0]) ∧
    Ranks (step (arrayAfter e [.fin 2, .fin (-1), .fin 0, .fin 0]) (.fin 0)).1 (strength [0, 0, 0]) :=
  deals_exist (mixed 3 3 2 [0, 0, 0] [1, 2, 0] 100) [.bet (-1), .bet (-1)] (isShuffle_rotate 2) (isShuffle_rotate 3)
    [.fin 2, .fin (-1), .fin 0, .fin 0] (.fin 0)
    (P := fun d0 d d' _ e' _ => (NonNegative (startStacks d0 false) d0.cfg ∧ SizesOk d0.cfg ∧ Covers (startStacks d0 false) d0.cfg ∧
      CloseAntes d0.cfg) ∧ Running d ∧ AtShowdown d' ∧ Ranks d' (strength [1, 0, 0]) ∧ Ranks e' (strength [0, 0, 0])) (by decide +kernel)

end Clubs.Numpy

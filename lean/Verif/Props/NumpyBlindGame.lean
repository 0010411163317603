import Verif.Props.BlindGame
import Mathlib.Tactic.FieldSimp
import Mathlib.Algebra.Order.Field.Rat
import Mathlib.Algebra.Order.Field.Basic

/-!
# C111 for the array engine: nobody wins on average by betting without looking at the cards
-/

namespace Clubs.Numpy

open Spec

variable {S : List Int} {d e E : Dealer} {o : List Card} {rb rs : Bool} {sh : Shuffle} {obs : Observation} {bets : List PyNum}
  {bet : PyNum} {i j : Nat}

/-- the hand with the cards in this order -/
structure Played' (d : Dealer) (rb rs : Bool) (bets : List PyNum) (bet : PyNum) (e E : Dealer) (o : List Card) : Prop where
  inHand : ArrayInHand (startStacks d rs) E
  reach : ArrayReachable E
  same : SameButCards (arrayAfter e bets) E
  cfg : E.cfg = d.cfg
  seen : Seen (boardSize d.cfg 0) d.cfg.numPlayers d.cfg.numHoleCards.toNat
    (boardSize d.cfg (step (arrayAfter e bets) bet).1.street) o (step E bet).1
  some : (step E bet).1.holeCards ≠ []

theorem arrayAfter_hand (h : ArrayInHand S d) (bets : List PyNum) : ArrayInHand S (arrayAfter d bets) := by
  induction bets generalizing d with
  | nil => exact h
  | cons b bets ih => exact ih (.step b h)

theorem played_order (h : ArrayReachable d) (ht : d.deck.tricked = false) (he : Enough d.cfg) (hs : IsShuffle sh)
    (h0 : reset d rb rs sh = (e, .ok obs)) (hon : Running (arrayAfter e bets)) (ho : o ∈ orders d) :
    Played' d rb rs bets bet e (arrayAfter (reset d rb rs (toOrder o)).1 bets) o := by
  have htwo : 2 ≤ d.cfg.numPlayers := (array_seated h).two
  obtain ⟨e', obs', he'⟩ := array_reset_any (array_seated h) h0 (toOrder o)
  obtain ⟨l1, l2, l3⟩ := array_laid_reset h ht he ho he'
  have hre : ArrayReachable e' := by
    have := ArrayReachable.reset rb rs (isShuffle_toOrder o) h
    rwa [he'] at this
  have hcfg : e'.cfg = d.cfg := (C41_clean (array_seated h) (reset_ok_atSeat (array_seated h) he')).1
  obtain ⟨b1, b2, b3, b4⟩ := array_laid_bets hre l1 bets
  obtain ⟨g1, g2, g3⟩ := C74_grow b1 bet
  have hsame := C89_blind (S := startStacks d rs) (.dealt (array_seated h) hs h0) (C89_deal h0 he') bets hon
  have hhand := step_hand hsame (by obtain ⟨⟨a, ha⟩, -⟩ := hon; rw [ha]; simp) bet
  have hcf : (step (arrayAfter e' bets) bet).1.cfg = d.cfg := by rw [step_cfg, b4, hcfg]
  have hne : (step (arrayAfter e' bets) bet).1.holeCards ≠ [] := by
    rw [g2, b3]
    intro h
    have := l3.1
    rw [h] at this
    simp at this
    omega
  have hsize := (C74_shape (ArrayReachable.step bet b1) (.inr hne) (by rw [hcf]; exact he)).2.2
  rw [hcf, hhand.street] at hsize
  rw [he']
  refine ⟨arrayAfter_hand (.dealt (array_seated h) (isShuffle_toOrder o) he') bets, b1, hsame, b4.trans hcfg,
    seen_of_laid (laid_grow b2 g1 g2 g3) hsize ?_ fun i hi => ?_, hne⟩
  · rw [g2, b3, List.length_flatten, shape_lengths l3, List.sum_replicate_nat]
  · have hh := (C74_order h he').2.2.2 i hi
    rw [shuffle_toOrder ht ho, List.drop_drop, board_first] at hh
    rw [g2, b3, hh]

/-- the table after the hand with the cards in this order -/
abbrev endOf (d : Dealer) (rb rs : Bool) (bets : List PyNum) (bet : PyNum) (o : List Card) : Dealer × Except Err StepOut :=
  step (arrayAfter (reset d rb rs (toOrder o)).1 bets) bet

/-- what two players get -/
theorem pays_two {x : Dealer} {res : Except Err StepOut} {s : Nat → Int} (h : ArrayInHand S x) (hn : NonNegative S x.cfg)
    (hz : SizesOk x.cfg) (hcov : Covers S x.cfg) (hca : CloseAntes x.cfg) (h2 : x.cfg.numPlayers = 2) (hrun : Running x)
    (hs : step x bet = (E, res)) (hsh : AtShowdown E) (hr : Ranks E s) :
    paid res 0 = duel (contribution E) s ∧ paid res 1 = - duel (contribution E) s := by
  have hcfg : E.cfg = x.cfg := by have := step_cfg x bet; rwa [hs] at this
  obtain ⟨y, hd, -, -, -, hnn, -, -, e1, e2, e3, -⟩ := step_showdown h hn hz hrun hs hsh
  have hlen : E.active.length = 2 := by
    have := hd.active
    rw [e2, ← h2, ← hcfg, e1]
    exact this
  have hin := two_in hlen hsh
  obtain ⟨obs, pays, done, rfl, -, w, -, h3⟩ := C71_fair h hn hz hcov hca hrun hs hsh hr
  have h2' : E.cfg.numPlayers = 2 := by rw [hcfg, h2]
  have h0 : oddAt E s = 0 := by
    unfold oddAt
    rw [h2']
    exact odd_two (le_refl _) fun k hk hf => by rw [hin k hk] at hf; simp at hf
  rw [h2'] at h3
  refine duel_of_fair hin (fun i hi => ?_) fun j hj => ?_
  · have h4 := hnn i (by rw [← e1, h2']; exact hi)
    unfold contribution at h4 ⊢
    rwa [e3]
  · obtain ⟨a1, a2, a3, -⟩ := h3 j hj
    rw [h0] at a1 a3
    have : received E pays j = dueAt E s j := by rw [a1]; split_ifs <;> omega
    rw [this]
    push_cast at a3
    rw [add_zero] at a3
    exact le_antisymm a2 a3

theorem mean_eq_zero {os : List (List Card)} {φ : List Card → Int} (h : (os.map φ).sum = 0) : mean os φ = 0 := by
  unfold mean
  rw [h]
  simp

/-- **C111** for the array engine: two players bet without looking at the cards, and the bets lead to a showdown. Then neither wins anything
on average over all orders of the deck, whoever has put in more. -/
theorem C111_two_players (h : ArrayReachable d) (ht : d.deck.tricked = false) (he : Enough d.cfg) (hf : HandsFit d.cfg)
    (hg : GoodEvaluator d.cfg) (hs : IsShuffle sh) (h0 : reset d rb rs sh = (e, .ok obs)) (hn : NonNegative (startStacks d rs) d.cfg)
    (hz : SizesOk d.cfg) (hcov : Covers (startStacks d rs) d.cfg) (hca : CloseAntes d.cfg) (h2 : d.cfg.numPlayers = 2)
    (hon : Running (arrayAfter e bets)) (hsh : AtShowdown (step (arrayAfter e bets) bet).1) (hi : i < 2) :
    mean (orders d) (fun o => paid (endOf d rb rs bets bet o).2 i) = 0 := by
  have hd := array_dealt' h
  have key : ∀ o ∈ orders d, paid (endOf d rb rs bets bet (swapHands d 0 1 o)).2 i = - paid (endOf d rb rs bets bet o).2 i := by
    intro o ho
    have ho' := swapHands_mem hd he (i := 0) (j := 1) (by omega) (by omega) ho
    have P := played_order (bet := bet) h ht he hs h0 hon ho
    have P' := played_order (bet := bet) h ht he hs h0 hon ho'
    have hx := seen_exchanged (i := 0) (j := 1) (by rw [step_cfg, P.cfg]) (by omega) (by omega) (order_length hd he ho) P.seen P'.seen
    have hne : (arrayAfter e bets).action ≠ none := by obtain ⟨⟨a, ha⟩, -⟩ := hon; rw [ha]; simp
    have H := step_hand P.same hne bet
    have H' := step_hand P'.same hne bet
    unfold endOf
    generalize arrayAfter (reset d rb rs (toOrder o)).1 bets = x at *
    generalize arrayAfter (reset d rb rs (toOrder (swapHands d 0 1 o))).1 bets = x' at *
    have hsE := H.showdown hsh
    have hxs : step x bet = ((step x bet).1, (step x bet).2) := rfl
    have hxs' : step x' bet = ((step x' bet).1, (step x' bet).2) := rfl
    have hsE' := H'.showdown hsh
    have hr := ranks_value (ranks_exist (ArrayReachable.step bet P.reach) P.some (by have := hsE.1; omega) (by rw [step_cfg, P.cfg]; exact he)
      (by rw [step_cfg, P.cfg]; exact hf) (by rw [step_cfg, P.cfg]; exact hg))
    have hc : (step x' bet).1.cfg = (step x bet).1.cfg := by rw [step_cfg, step_cfg, P.cfg, P'.cfg]
    obtain ⟨y, hy, -, -, -, -, -, -, e1, e2, -⟩ := step_showdown P.inHand (by rw [P.cfg]; exact hn) (by rw [P.cfg]; exact hz)
      (running_same P.same hon) hxs hsE
    have hlen : (step x bet).1.active.length = 2 := by
      have := hy.active
      rw [e2, ← h2, ← P.cfg, ← step_cfg x bet, e1]
      exact this
    have hr' := ranks_swap (by rw [step_cfg, P.cfg, h2]) (two_in hlen hsE) hc hx hr
    obtain ⟨p0, p1⟩ := pays_two P.inHand (by rw [P.cfg]; exact hn) (by rw [P.cfg]; exact hz) (by rw [P.cfg]; exact hcov)
      (by rw [P.cfg]; exact hca) (by rw [P.cfg]; exact h2) (running_same P.same hon) hxs hsE hr
    obtain ⟨q0, q1⟩ := pays_two P'.inHand (by rw [P'.cfg]; exact hn) (by rw [P'.cfg]; exact hz) (by rw [P'.cfg]; exact hcov)
      (by rw [P'.cfg]; exact hca) (by rw [P'.cfg]; exact h2) (running_same P'.same hon) hxs' hsE' hr'
    rw [duel_swap, H'.contribution, ← H.contribution] at q0 q1
    rcases (by omega : i = 0 ∨ i = 1) with rfl | rfl
    · rw [q0, p0]
    · rw [q1, p1]
  have hp := hand_places hd he (i := 0) (j := 1) (by omega) (by omega)
  have hsum := sum_swapCards hd.wf.cards_nodup hp.1 hp.2 fun o => paid (endOf d rb rs bets bet o).2 i
  have hneg : (d.deck.fullDeck.permutations.map fun o => paid (endOf d rb rs bets bet (swapHands d 0 1 o)).2 i) =
      d.deck.fullDeck.permutations.map fun o => - paid (endOf d rb rs bets bet o).2 i := List.map_congr_left key
  change (d.deck.fullDeck.permutations.map fun o => paid (endOf d rb rs bets bet (swapHands d 0 1 o)).2 i).sum = _ at hsum
  rw [hneg, sum_neg_map] at hsum
  apply mean_eq_zero
  unfold orders
  omega

/-- the sums of `C111_equal` -/
theorem equal_sums (h : ArrayReachable d) (ht : d.deck.tricked = false) (he : Enough d.cfg) (hf : HandsFit d.cfg)
    (hg : GoodEvaluator d.cfg) (hs : IsShuffle sh) (h0 : reset d rb rs sh = (e, .ok obs)) (hn : NonNegative (startStacks d rs) d.cfg)
    (hz : SizesOk d.cfg) (hcov : Covers (startStacks d rs) d.cfg) (hca : CloseAntes d.cfg) (hon : Running (arrayAfter e bets))
    (hsh : AtShowdown (step (arrayAfter e bets) bet).1) (hij : i < j)
    (hj : j < d.cfg.numPlayers) (hini : isIn (step (arrayAfter e bets) bet).1 i) (hinj : isIn (step (arrayAfter e bets) bet).1 j)
    (heq : contribution (step (arrayAfter e bets) bet).1 i = contribution (step (arrayAfter e bets) bet).1 j) :
    |((orders d).map fun o => paid (endOf d rb rs bets bet o).2 j).sum - ((orders d).map fun o => paid (endOf d rb rs bets bet o).2 i).sum| ≤
      ((orders d).map fun o => oddAt (endOf d rb rs bets bet o).1 (value (endOf d rb rs bets bet o).1)).sum := by
  have hd := array_dealt' h
  have key : ∀ o ∈ orders d, |paid (endOf d rb rs bets bet (swapHands d i j o)).2 j - paid (endOf d rb rs bets bet o).2 i| ≤
      oddAt (endOf d rb rs bets bet o).1 (value (endOf d rb rs bets bet o).1) := by
    intro o ho
    have ho' := swapHands_mem hd he hij hj ho
    have P := played_order (bet := bet) h ht he hs h0 hon ho
    have P' := played_order (bet := bet) h ht he hs h0 hon ho'
    have hx := seen_exchanged (by rw [step_cfg, P.cfg]) hij hj (order_length hd he ho) P.seen P'.seen
    have hne : (arrayAfter e bets).action ≠ none := by obtain ⟨⟨a, ha⟩, -⟩ := hon; rw [ha]; simp
    have H := step_hand P.same hne bet
    unfold endOf at *
    generalize arrayAfter (reset d rb rs (toOrder o)).1 bets = x at *
    generalize arrayAfter (reset d rb rs (toOrder (swapHands d i j o))).1 bets = x' at *
    have hsE := H.showdown hsh
    have hxs : step x bet = ((step x bet).1, (step x bet).2) := rfl
    have hxs' : step x' bet = ((step x' bet).1, (step x' bet).2) := rfl
    have hr := ranks_value (ranks_exist (ArrayReachable.step bet P.reach) P.some (by have := hsE.1; omega) (by rw [step_cfg, P.cfg]; exact he)
      (by rw [step_cfg, P.cfg]; exact hf) (by rw [step_cfg, P.cfg]; exact hg))
    have hin : ∀ k, isIn (step (arrayAfter e bets) bet).1 k → isIn (step x bet).1 k := by
      intro k hk
      unfold isIn at hk ⊢
      rwa [H.active]
    have ha := equalSeats_swap (d := (step x bet).1) (by rw [step_cfg, P.cfg]; omega) (by rw [step_cfg, P.cfg]; exact hj) (hin i hini)
      (hin j hinj) (by rw [H.contribution]; exact heq)
    obtain ⟨_, pays, _, _, pays', _, h1, h2, h3⟩ := C110_exchange P.inHand P'.inHand (same_trans P.same P'.same) (by rw [P.cfg]; exact hn)
      (by rw [P.cfg]; exact hz) (by rw [P.cfg]; exact hcov) (by rw [P.cfg]; exact hca) (running_same P.same hon) hxs hxs' hsE hr ha hx
    have h4 := h3 i (by rw [P.cfg]; omega)
    rw [Equiv.swap_apply_left] at h4
    rw [h1, h2]
    exact h4
  have hp := hand_places hd he hij hj
  exact sum_exchange hd.wf.cards_nodup hp.1 hp.2 (fun o => paid (endOf d rb rs bets bet o).2 i)
    (fun o => paid (endOf d rb rs bets bet o).2 j) _ key

theorem mean_le {os : List (List Card)} {φ ψ ω : List Card → Int} (h : |(os.map φ).sum - (os.map ψ).sum| ≤ (os.map ω).sum) :
    |mean os φ - mean os ψ| ≤ mean os ω := by
  have h' : |(((os.map φ).sum : Int) : Rat) - (((os.map ψ).sum : Int) : Rat)| ≤ (((os.map ω).sum : Int) : Rat) := by exact_mod_cast h
  unfold mean
  rw [← sub_div, abs_div, abs_of_nonneg (Nat.cast_nonneg os.length : (0 : Rat) ≤ os.length)]
  exact div_le_div_of_nonneg_right h' (Nat.cast_nonneg _)

/-- **C111** for the array engine, with more players, ties and side pots: what players who are in with as many chips win on average differs
by no more than the odd chips do on average. -/
theorem C111_equal (h : ArrayReachable d) (ht : d.deck.tricked = false) (he : Enough d.cfg) (hf : HandsFit d.cfg)
    (hg : GoodEvaluator d.cfg) (hs : IsShuffle sh) (h0 : reset d rb rs sh = (e, .ok obs)) (hn : NonNegative (startStacks d rs) d.cfg)
    (hz : SizesOk d.cfg) (hcov : Covers (startStacks d rs) d.cfg) (hca : CloseAntes d.cfg) (hon : Running (arrayAfter e bets))
    (hsh : AtShowdown (step (arrayAfter e bets) bet).1) (hij : i < j)
    (hj : j < d.cfg.numPlayers) (hini : isIn (step (arrayAfter e bets) bet).1 i) (hinj : isIn (step (arrayAfter e bets) bet).1 j)
    (heq : contribution (step (arrayAfter e bets) bet).1 i = contribution (step (arrayAfter e bets) bet).1 j) :
    |mean (orders d) (fun o => paid (endOf d rb rs bets bet o).2 j) - mean (orders d) (fun o => paid (endOf d rb rs bets bet o).2 i)| ≤
      mean (orders d) (fun o => oddAt (endOf d rb rs bets bet o).1 (value (endOf d rb rs bets bet o).1)) :=
  mean_le (equal_sums h ht he hf hg hs h0 hn hz hcov hca hon hsh hij hj hini hinj heq)

theorem mean_abs_le {os : List (List Card)} {φ ω : List Card → Int} (h : |(os.map φ).sum| ≤ (os.map ω).sum) : |mean os φ| ≤ mean os ω := by
  have h' : |(((os.map φ).sum : Int) : Rat)| ≤ (((os.map ω).sum : Int) : Rat) := by exact_mod_cast h
  unfold mean
  rw [abs_div, abs_of_nonneg (Nat.cast_nonneg os.length : (0 : Rat) ≤ os.length)]
  exact div_le_div_of_nonneg_right h' (Nat.cast_nonneg _)

/-- **C111** for the array engine, any number of players: if everybody is in with as many chips, nobody wins or loses more on average than
the odd chips come to on average. -/
theorem C111_everybody (h : ArrayReachable d) (ht : d.deck.tricked = false) (he : Enough d.cfg) (hf : HandsFit d.cfg)
    (hg : GoodEvaluator d.cfg) (hs : IsShuffle sh) (h0 : reset d rb rs sh = (e, .ok obs)) (hn : NonNegative (startStacks d rs) d.cfg)
    (hz : SizesOk d.cfg) (hcov : Covers (startStacks d rs) d.cfg) (hca : CloseAntes d.cfg) (hon : Running (arrayAfter e bets))
    (hsh : AtShowdown (step (arrayAfter e bets) bet).1) (hin : ∀ k < d.cfg.numPlayers, isIn (step (arrayAfter e bets) bet).1 k)
    (heq : ∀ k < d.cfg.numPlayers, ∀ l < d.cfg.numPlayers,
      contribution (step (arrayAfter e bets) bet).1 k = contribution (step (arrayAfter e bets) bet).1 l) (hi : i < d.cfg.numPlayers) :
    |mean (orders d) (fun o => paid (endOf d rb rs bets bet o).2 i)| ≤
      mean (orders d) (fun o => oddAt (endOf d rb rs bets bet o).1 (value (endOf d rb rs bets bet o).1)) := by
  apply mean_abs_le
  refine close_zero (n := d.cfg.numPlayers) (T := fun k => ((orders d).map fun o => paid (endOf d rb rs bets bet o).2 k).sum) ?_ hi
    fun k hk => ?_
  · apply sums_zero (orders d) d.cfg.numPlayers fun o k => paid (endOf d rb rs bets bet o).2 k
    intro o ho
    have P := played_order (bet := bet) h ht he hs h0 hon ho
    have hne : (arrayAfter e bets).action ≠ none := by obtain ⟨⟨a, ha⟩, -⟩ := hon; rw [ha]; simp
    have H := step_hand P.same hne bet
    unfold endOf
    generalize arrayAfter (reset d rb rs (toOrder o)).1 bets = x at *
    have hsE := H.showdown hsh
    have hxs : step x bet = ((step x bet).1, (step x bet).2) := rfl
    have hr := ranks_value (ranks_exist (ArrayReachable.step bet P.reach) P.some (by have := hsE.1; omega) (by rw [step_cfg, P.cfg]; exact he)
      (by rw [step_cfg, P.cfg]; exact hf) (by rw [step_cfg, P.cfg]; exact hg))
    have hrun := running_same P.same hon
    obtain ⟨_, pays, _, h1, h2, -⟩ := C71_fair P.inHand (by rw [P.cfg]; exact hn) (by rw [P.cfg]; exact hz) (by rw [P.cfg]; exact hcov)
      (by rw [P.cfg]; exact hca) hrun hxs hsE hr
    rw [h1] at hxs
    obtain ⟨h3, h4, -⟩ := C69_payouts P.inHand (by rw [P.cfg]; exact hn) (by rw [P.cfg]; exact hz)
      (by obtain ⟨⟨a, ha⟩, -⟩ := hrun; rw [ha]; simp) hxs h2
    rw [h1, ← h4, sum_eq_range pays, h3, P.cfg]
    rfl
  · rcases Nat.lt_trichotomy i k with g | g | g
    · exact equal_sums h ht he hf hg hs h0 hn hz hcov hca hon hsh g hk (hin i hi) (hin k hk) (heq i hi k hk)
    · subst g
      rw [sub_self, abs_zero]
      have : ∀ l : List (List Card), 0 ≤ (l.map fun o => oddAt (endOf d rb rs bets bet o).1 (value (endOf d rb rs bets bet o).1)).sum := by
        intro l
        induction l with
        | nil => simp
        | cons o l ih =>
          rw [List.map_cons, List.sum_cons]
          have : 0 ≤ oddAt (endOf d rb rs bets bet o).1 (value (endOf d rb rs bets bet o).1) := odd_nonneg
          omega
      exact this _
    · rw [abs_sub_comm]
      exact equal_sums h ht he hf hg hs h0 hn hz hcov hca hon hsh g hi (hin k hk) (hin i hi) (heq k hk i hi)

/-! ## witnesses -/

/-- the first hand of a new table with the default order of the hands -/
theorem first_exists (a : DealerArgs) (ha : a.order = none) (bets : List PyNum) (bet : PyNum) {P : Dealer → Dealer → Dealer → Prop}
    [∀ d x y, Decidable (P d x y)]
    (h : (match new a id with
      | .ok d => (match reset d false false id with
        | (e, .ok _) => decide (P d (arrayAfter e bets) (step (arrayAfter e bets) bet).1)
        | _ => false)
      | .error _ => false) = true) :
    ∃ d e obs, ArrayReachable d ∧ IsShuffle id ∧ reset d false false id = (e, .ok obs) ∧ GoodEvaluator d.cfg ∧
      P d (arrayAfter e bets) (step (arrayAfter e bets) bet).1 := by
  split at h
  · next d hd =>
    split at h
    · next e obs he => exact ⟨d, e, obs, .new isShuffle_id hd, isShuffle_id, he, new_goodEvaluator hd ha, by simpa using h⟩
    · simp at h
  · simp at h

set_option synthInstance.maxSize 1024 in
/-- the hypotheses of `C111_two_players`: four cards, a raise to 4 and a call. -/
example : ∃ d e obs, ArrayReachable d ∧ IsShuffle id ∧ reset d false false id = (e, .ok obs) ∧ GoodEvaluator d.cfg ∧
    d.deck.tricked = false ∧ Enough d.cfg ∧ HandsFit d.cfg ∧ NonNegative (startStacks d false) d.cfg ∧ SizesOk d.cfg ∧
    Covers (startStacks d false) d.cfg ∧ CloseAntes d.cfg ∧
    d.cfg.numPlayers = 2 ∧ Running (arrayAfter e [.fin 3, .fin 2, .fin 0]) ∧
    AtShowdown (step (arrayAfter e [.fin 3, .fin 2, .fin 0]) (.fin 0)).1 ∧
    (step (arrayAfter e [.fin 3, .fin 2, .fin 0]) (.fin 0)).1.potCommits = [4, 4] :=
  first_exists (mixed 2 2 2 [0, 0] [1, 2] 10) rfl [.fin 3, .fin 2, .fin 0] (.fin 0) (P := fun d0 d d' => d0.deck.tricked = false ∧
    Enough d0.cfg ∧ HandsFit d0.cfg ∧ NonNegative (startStacks d0 false) d0.cfg ∧ SizesOk d0.cfg ∧ Covers (startStacks d0 false) d0.cfg ∧
    CloseAntes d0.cfg ∧ d0.cfg.numPlayers = 2 ∧ Running d ∧ AtShowdown d' ∧ d'.potCommits = [4, 4])
    (by decide +kernel)

set_option synthInstance.maxSize 1024 in
/-- the hypotheses of `C111_equal` and `C111_everybody`: three players, ties, all in with 2 chips -/
example : ∃ d e obs, ArrayReachable d ∧ IsShuffle id ∧ reset d false false id = (e, .ok obs) ∧ GoodEvaluator d.cfg ∧
    d.deck.tricked = false ∧ Enough d.cfg ∧ HandsFit d.cfg ∧ NonNegative (startStacks d false) d.cfg ∧ SizesOk d.cfg ∧
    Covers (startStacks d false) d.cfg ∧ CloseAntes d.cfg ∧ d.cfg.numPlayers = 3 ∧
    Running (arrayAfter e [.fin 2, .fin 1, .fin 0, .fin 0, .fin 0]) ∧
    AtShowdown (step (arrayAfter e [.fin 2, .fin 1, .fin 0, .fin 0, .fin 0]) (.fin 0)).1 ∧
    (step (arrayAfter e [.fin 2, .fin 1, .fin 0, .fin 0, .fin 0]) (.fin 0)).1.active = [true, true, true] ∧
    (step (arrayAfter e [.fin 2, .fin 1, .fin 0, .fin 0, .fin 0]) (.fin 0)).1.potCommits = [2, 2, 2] :=
  first_exists (mixed 3 2 2 [0, 0, 0] [1, 2, 0] 10) rfl [.fin 2, .fin 1, .fin 0, .fin 0, .fin 0] (.fin 0) (P := fun d0 d d' =>
    d0.deck.tricked = false ∧ Enough d0.cfg ∧ HandsFit d0.cfg ∧ NonNegative (startStacks d0 false) d0.cfg ∧ SizesOk d0.cfg ∧
    Covers (startStacks d0 false) d0.cfg ∧ CloseAntes d0.cfg ∧ d0.cfg.numPlayers = 3 ∧ Running d ∧ AtShowdown d' ∧
    d'.active = [true, true, true] ∧ d'.potCommits = [2, 2, 2])
    (by decide +kernel)

end Clubs.Numpy

import Verif.Lemmas.Scale
import Verif.Props.Showdown
import Verif.Spec.Turn

/-!
# The unit of the chips does not matter: C91
-/

namespace Clubs

open Spec

variable {k : Int} {S : List Int} {d : Dealer} {bet : PyNum}

/-! ## when pots go up evenly -/

theorem loopOdd_eq {n : Nat} {worst : Int} {C T : List Int} (hl : T.length = C.length) (hpos : ∀ c ∈ C, 0 ≤ c) :
    loopOdd n worst C.sum C T = oddChips n worst (handList C T) := by
  have hp : ∀ h ∈ handList C T, 0 ≤ h.commit := by
    intro h hh
    obtain ⟨h1, -, h2⟩ := handList_mem hh
    rw [h2]
    exact hpos _ ((mem_getD 0).2 ⟨h.idx, by omega, rfl⟩)
  exact (potLoop_eq (worst := worst) hp (handList C T).length 0 (by omega)
    { hands := handList C T, pot := C.sum, remainder := 0, payouts := List.replicate n 0 }
    (drained_zero hp).symm (by rw [drained_zero hp]; exact (handList_sum hl).symm)).2

/-- without odd chips the pots go up evenly -/
theorem even_of_clear {s : Nat → Int} (hd : Seated d) (hh : d.holeCards.length = d.cfg.numPlayers) (hpot : d.pot = d.potCommits.sum)
    (hpos : ∀ i < d.cfg.numPlayers, 0 ≤ contribution d i) (hr : Ranks d s) (hc : ClearPot d s) (ho : oddAt d s = 0) : EvenPots d := by
  intro _ _ T' hT'
  obtain ⟨T, hT1, hT2, hT3⟩ := evalHands_of_ranks hh hr
  obtain rfl : T' = T := by
    rw [hT1, Except.ok.injEq] at hT'
    exact hT'.symm
  have D := deal_of hd hpos hr hT2 hT3
  have hcongr : ∀ i < d.cfg.numPlayers, inB d i = true → s i = T'.getD i 0 := by
    intro i hi ha
    rw [hT3 i hi, ha, if_pos rfl]
  have K : Clear d.cfg.numPlayers d.potCommits T' (inB d) := ⟨hc.folds, noDrainedTie_congr hcongr hc.ties⟩
  rw [hpot, loopOdd_eq (by rw [hT2, hd.potCommits]) D.pos, odd_eq D K]
  exact (odd_congr (c := contribution d) hcongr).symm.trans ho

/-- one pot, if every contribution is a multiple of every possible number of winners -/
theorem potStep_even {D worst : Int} {i : Nat} {st : PotState} {h : Hand} (hm : h ∈ st.hands) (h1 : ∀ g ∈ st.hands, D ∣ g.commit)
    (h2 : ∀ m : Nat, 1 ≤ m → m ≤ st.hands.length → (m : Int) ∣ D) :
    (potStep worst st i h).remainder = st.remainder ∧ (∀ g ∈ (potStep worst st i h).hands, D ∣ g.commit) ∧
      (potStep worst st i h).hands.length = st.hands.length := by
  have hmin : ∀ g ∈ st.hands, D ∣ min g.commit h.commit := by
    intro g hg
    rcases min_choice g.commit h.commit with e | e <;> rw [e]
    · exact h1 g hg
    · exact h1 h hm
  have hsum : D ∣ (st.hands.map fun g => min g.commit h.commit).sum := by
    refine List.dvd_sum fun x hx => ?_
    obtain ⟨g, hg, rfl⟩ := List.mem_map.1 hx
    exact hmin g hg
  have hE : 0 < ((st.hands.filter fun g => g.strength == h.strength).map (·.idx)).length := by
    rw [List.length_map]
    apply List.length_pos_of_mem
    rw [List.mem_filter]
    exact ⟨hm, by simp⟩
  have hE2 : ((st.hands.filter fun g => g.strength == h.strength).map (·.idx)).length ≤ st.hands.length := by
    rw [List.length_map]; exact List.length_filter_le _ _
  refine ⟨?_, ?_, by unfold potStep; simp⟩
  · show st.remainder + _ % _ = _
    rw [Int.emod_eq_zero_of_dvd ((h2 _ hE hE2).trans hsum), add_zero]
  · intro g hg
    obtain ⟨j, hj⟩ := List.mem_iff_getElem?.1 hg
    unfold potStep at hj
    simp only [List.getElem?_modify, List.getElem?_map] at hj
    cases hx : st.hands[j]? with
    | none => rw [hx] at hj; simp at hj
    | some x =>
      have hxm := List.mem_of_getElem? hx
      have := Dvd.dvd.sub (h1 _ hxm) (hmin _ hxm)
      rw [hx] at hj
      by_cases hij : i = j
      · simp only [Option.map_some, hij, if_true, Option.map_eq_map, Option.some.injEq] at hj
        rw [← hj]; exact this
      · simp only [Option.map_some, hij, if_false, Option.map_eq_map, Option.some.injEq] at hj
        rw [← hj]; exact this

theorem potLoop_even {D worst : Int} (fuel i : Nat) (st : PotState) (h1 : ∀ g ∈ st.hands, D ∣ g.commit)
    (h2 : ∀ m : Nat, 1 ≤ m → m ≤ st.hands.length → (m : Int) ∣ D) : (potLoop worst fuel i st).remainder = st.remainder := by
  induction fuel generalizing i st with
  | zero => rfl
  | succ fuel ih =>
    unfold potLoop
    cases hh : st.hands[i]? with
    | none => rfl
    | some h =>
      simp only []
      obtain ⟨e1, e2, e3⟩ := potStep_even (worst := worst) (i := i) (List.mem_of_getElem? hh) h1 h2
      split_ifs
      · exact ih _ _ h1 h2
      · exact e1
      · rw [ih _ _ e2 (by rw [e3]; exact h2), e1]

/-- if every contribution is a multiple of every possible number of winners, the pots go up evenly -/
theorem even_of_multiples {D : Int} (hD : ∀ m : Nat, 1 ≤ m → m ≤ d.cfg.numPlayers → (m : Int) ∣ D)
    (hC : ∀ i < d.cfg.numPlayers, D ∣ contribution d i) : EvenPots d := by
  intro _ _ T hT
  have hT := evalHands_length hT
  refine potLoop_even (D := D) _ _ _ (fun h hh => ?_) fun m m1 m2 => hD m m1 ?_
  · obtain ⟨h1, -, h2⟩ := handList_mem hh
    rw [h2]
    exact hC _ (by omega)
  · have : (handList d.potCommits T).length = T.length := by
      have := (handList_idx d.potCommits T).length_eq
      simpa using this
    have m2 : m ≤ (handList d.potCommits T).length := m2
    omega

/-! ## C91 -/

/-- **C91**: creating a dealer: multiplying all amounts of chips in the arguments multiplies them at the table, and changes nothing else. -/
theorem C91_new (a : DealerArgs) (shuf : Shuffle) : Dealer.new (scaleArgs k a) shuf = (Dealer.new a shuf).map (scaleTable k) := by
  have c1 : ∀ (v : ListOr Int) (m : Int), checkInp (scaleArg k v) m = (checkInp v m).map (scaleAll k) := by
    intro v m
    cases v with
    | scalar x => simp [scaleArg, checkInp, Except.map, scaleAll_replicate]
    | list l =>
      simp only [scaleArg, checkInp, scaleAll_length]
      split <;> rfl
  have c2 : ∀ (v : ListOr RawRaise) (m : Int), checkInp (scaleRaws k v) m = (checkInp v m).map (List.map (scaleRaw k)) := by
    intro v m
    cases v with
    | scalar x => simp [scaleRaws, checkInp, Except.map]
    | list l =>
      simp only [scaleRaws, checkInp, List.length_map]
      split <;> rfl
  have c3 : ∀ l : List Int, pyGet (scaleAll k l) 1 = (pyGet l 1).map (k * ·) := by
    intro l
    unfold pyGet
    simp only [scaleAll_length]
    unfold scaleAll
    rw [List.getElem?_map]
    generalize (if (1 : Int) < 0 then 1 + (l.length : Int) else 1) = j
    split
    · rfl
    · cases l[j.toNat]? <;> rfl
  have c4 : ∀ l : List RawRaise, (l.map (scaleRaw k)).mapM cleanRs = (l.mapM cleanRs).map (List.map (scaleSize k)) := by
    intro l
    induction l with
    | nil => rfl
    | cons r l ih =>
      rw [List.map_cons, List.mapM_cons, List.mapM_cons, ih]
      cases r with
      | other => rfl
      | int n => cases l.mapM cleanRs <;> rfl
      | pot => cases l.mapM cleanRs <;> rfl
      | inf => cases l.mapM cleanRs <;> rfl
  unfold Dealer.new scaleArgs
  simp only [c1, c2]
  cases h1 : checkInp a.blinds a.numPlayers with
  | error e => rfl
  | ok blinds =>
  cases h2 : checkInp a.antes a.numPlayers with
  | error e => rfl
  | ok antes =>
  cases h3 : checkInp a.raiseSizes a.numStreets with
  | error e => rfl
  | ok sizes =>
  cases h4 : checkInp a.numRaises a.numStreets with
  | error e => rfl
  | ok num =>
  cases h5 : checkInp a.numCommunityCards a.numStreets with
  | error e => rfl
  | ok ncc =>
  simp only [Except.map, Bind.bind, Except.bind, c3, c4]
  cases h6 : pyGet blinds 1 with
  | error e => rfl
  | ok bb =>
  cases h7 : sizes.mapM cleanRs with
  | error e => rfl
  | ok rs =>
  cases h8 : num.mapM cleanNumRaises with
  | error e => rfl
  | ok nr =>
  cases h9 : Deck.new a.numSuits a.numRanks shuf with
  | error e => rfl
  | ok deck =>
  cases h10 : Evaluator.new a.numSuits a.numRanks a.numCardsForHand a.mandatoryNumHoleCards a.lowEndStraight a.order with
  | error e => rfl
  | ok ev =>
  cases h11 : dictGet POS_DICT a.numPlayers.toNat with
  | none => rfl
  | some p =>
    simp only [pure, Except.pure, scaleTable, scaleConfig, scaleAll_replicate, mul_zero]
    rfl

/-- **C91**: dealing a hand, at any table. -/
theorem C91_reset (hk : 0 < k) (d : Dealer) (rb rs : Bool) (shuf : Shuffle) :
    (scaleTable k d).reset rb rs shuf = (scaleTable k (d.reset rb rs shuf).1, (d.reset rb rs shuf).2.map (scaleView k)) :=
  reset_scale hk d rb rs shuf

theorem finish_table (x : Dealer) : SameTable x x.finish.1 ∧ x.finish.1.street = x.street := by
  rcases finish_cases x with ⟨e, -, h⟩ | ⟨p, -, -, h, -⟩ | ⟨p, -, -, h, -⟩ <;> rw [h]
  · exact ⟨⟨rfl, rfl, rfl, rfl, rfl, rfl⟩, rfl⟩
  · exact ⟨⟨rfl, rfl, rfl, rfl, rfl, rfl⟩, rfl⟩
  · exact ⟨⟨rfl, rfl, rfl, rfl, rfl, rfl⟩, rfl⟩

/-- **C91**: a bet, if the showdown that it may lead to leaves no odd chips: same exceptions and done flags; table, observation and payouts in the
other unit. -/
theorem C91_step (hk : 0 < k) (h : InHand S d) (hn : NonNegative S d.cfg) (hrun : Running d) (hw : WholeBet bet)
    (he : AtShowdown (d.step bet).1 → ∃ s, Ranks (d.step bet).1 s ∧ ClearPot (d.step bet).1 s ∧ oddAt (d.step bet).1 s = 0) :
    (scaleTable k d).step (scaleBet k bet) = (scaleTable k (d.step bet).1, scaleResult k (d.step bet).2) := by
  obtain ⟨⟨a, ha⟩, hst⟩ := hrun
  refine step_scale hk ha hw fun b c lo hi hb hbs => ?_
  intro h1 h2
  generalize hx : d.afterBet bet.isNeg c (cleanBet b c lo hi) = x at h1 h2 ⊢
  obtain ⟨hlive, h2c⟩ : Live S d ∧ (d.street < d.cfg.numStreets → 2 ≤ countTrue d.active) := by
    rcases live_of_running h with h | ⟨e, p, rfl, -⟩
    · exact h
    · simp [Dealer.settle] at ha
  have hlx : Live S x := by rw [← hx]; exact afterBet_live hlive hst (h2c hst) _ _ _
  have hfin : d.step bet = x.finish := by
    rcases step_some ha bet with ⟨e, hr, -⟩ | ⟨b', e, hr, hs, -⟩ | ⟨b', c', lo', hi', hr, hs, g⟩
    · rw [hr] at hb; simp at hb
    · rw [hs] at hbs; simp at hbs
    · rw [hr] at hb; rw [hs] at hbs
      simp only [Except.ok.injEq, Prod.mk.injEq] at hb hbs
      obtain ⟨rfl, rfl, rfl⟩ := hbs
      subst hb
      rw [g, hx]
  obtain ⟨e, es⟩ := finish_table x
  rw [hfin] at he
  have hone := hlx.one
  obtain ⟨s, r1, r2, r3⟩ := he ⟨by rw [es, e.cfg]; exact h2, by
    show 2 ≤ numIn _
    unfold numIn
    rw [e.active]
    unfold countTrue at hone h1
    omega⟩
  have hpos := (afterBet_nn_of h hn ha hbs hx.symm).contrib
  exact even_of_clear hlx.seated hlx.holeLen hlx.pot hpos (e.ranks r1) (e.clear r2) (by rw [e.odd]; exact r3) h1 h2

/-- **C91**: a bet at a table where everybody's contribution is a multiple of every possible number of winners. Then there are no odd chips, and
nothing else is needed. -/
theorem C91_multiples (hk : 0 < k) {a : Nat} (ha : d.action = some a) (hw : WholeBet bet) {D : Int}
    (hD : ∀ m : Nat, 1 ≤ m → m ≤ d.cfg.numPlayers → (m : Int) ∣ D) (hC : ∀ i < d.cfg.numPlayers, D ∣ contribution (d.step bet).1 i) :
    (scaleTable k d).step (scaleBet k bet) = (scaleTable k (d.step bet).1, scaleResult k (d.step bet).2) := by
  refine step_scale hk ha hw fun b c lo hi hb hbs => ?_
  generalize hx : d.afterBet bet.isNeg c (cleanBet b c lo hi) = x
  have hfin : d.step bet = x.finish := by
    rcases step_some ha bet with ⟨e, hr, -⟩ | ⟨b', e, hr, hs, -⟩ | ⟨b', c', lo', hi', hr, hs, g⟩
    · rw [hr] at hb; simp at hb
    · rw [hs] at hbs; simp at hbs
    · rw [hr] at hb; rw [hs] at hbs
      simp only [Except.ok.injEq, Prod.mk.injEq] at hb hbs
      obtain ⟨rfl, rfl, rfl⟩ := hbs
      subst hb
      rw [g, hx]
  obtain ⟨e, es⟩ := finish_table x
  have hcfg : x.cfg = d.cfg := by rw [← hx]; exact (afterBet_fields d _ _ _).1
  refine even_of_multiples (D := D) (by rw [hcfg]; exact hD) fun i hi => ?_
  have := hC i (by rw [← hcfg]; exact hi)
  unfold contribution at this ⊢
  rwa [hfin, e.potCommits] at this

/-- **C91**: any number of bets. -/
theorem C91_bets (hk : 0 < k) (h : InHand S d) (hn : NonNegative S d.cfg) (bets : List PyNum) (hw : ∀ b ∈ bets, WholeBet b)
    (hrun : ∀ l b, l ++ [b] <+: bets → Running (Spec.afterBets d l))
    (he : ∀ l, l <+: bets → AtShowdown (Spec.afterBets d l) → ∃ s, Ranks (Spec.afterBets d l) s ∧ ClearPot (Spec.afterBets d l) s ∧
      oddAt (Spec.afterBets d l) s = 0) :
    Spec.afterBets (scaleTable k d) (bets.map (scaleBet k)) = scaleTable k (Spec.afterBets d bets) := by
  induction bets generalizing d with
  | nil => rfl
  | cons b bets ih =>
    show Spec.afterBets ((scaleTable k d).step (scaleBet k b)).1 (bets.map (scaleBet k)) = scaleTable k (Spec.afterBets (d.step b).1 bets)
    rw [C91_step hk h hn (hrun [] b ⟨bets, rfl⟩) (hw b (by simp)) (he [b] ⟨bets, rfl⟩)]
    refine ih (.step b h) (by rw [step_cfg]; exact hn) (fun x hx => hw x (by simp [hx])) (fun l x hl => ?_) fun l hl => ?_
    · exact hrun (b :: l) x (by rw [List.cons_append]; exact (List.prefix_cons_inj b).2 hl)
    · exact he (b :: l) ((List.prefix_cons_inj b).2 hl)

/-- **C91**: the winning chances do not depend on the chips at all. -/
theorem C91_odds (d : Dealer) : (scaleTable k d).winProbabilities = d.winProbabilities := rfl

/-- **C91**: with odd chips the unit matters, of course: three players with equal hands divide a pot of 7; in units of a third of a chip
everybody gets the same. -/
theorem C91_odd : ∃ S d d' out, InHand S d ∧ Reachable d ∧ d.step (.fin 0) = (d', .ok out) ∧ NonNegative S d.cfg ∧ Running d ∧ AtShowdown d' ∧
    Ranks d' (fun _ => 1) ∧ ClearPot d' (fun _ => 1) ∧ oddAt d' (fun _ => 1) ≠ 0 ∧ out.2.1 = [0, -1, 1, 0] ∧
    ((scaleTable 3 d).step (.fin 0)).2.map (·.2.1) = .ok [1, -3, 1, 1] :=
  step_exists (ties 4 [1, 2, 0, 0] 10)
    [.bet 2, .bet 2, .bet (-1), .bet 0, .bet 0, .bet 0] (.fin 0) (by decide +kernel)

/-- the hypotheses of `C91_step` at a showdown with a tie that goes up evenly -/
example : ∃ S d d' out, InHand S d ∧ Reachable d ∧ d.step (.fin 0) = (d', .ok out) ∧ NonNegative S d.cfg ∧ Running d ∧ AtShowdown d' ∧
    Ranks d' (fun _ => 1) ∧ ClearPot d' (fun _ => 1) ∧ oddAt d' (fun _ => 1) = 0 ∧ out.2.1 = [0, -2, 1, 1] :=
  step_exists (ties 4 [2, 4, 0, 0] 10) [.bet 4, .bet (-1), .bet (-1), .bet 0, .bet 0] (.fin 0) (by decide +kernel)

/-- … before the showdown, with a raise -/
example : ∃ S d d' out, InHand S d ∧ Reachable d ∧ d.step (.fin 7) = (d', .ok out) ∧ NonNegative S d.cfg ∧ Running d ∧ ¬ AtShowdown d' ∧
    out.1.minRaise = 11 ∧ out.1.call = 6 :=
  step_exists (small 3 [1, 2, 0] 20) [] (.fin 7) (by decide +kernel)

example : WholeBet (.fin 7) := by
  intro q hq
  simp only [PyNum.fin.injEq] at hq
  exact ⟨7, by rw [← hq]; norm_num⟩

/-- the hypotheses of `C91_multiples`: two players, all contributions even -/
example : ∃ S d d' out, InHand S d ∧ Reachable d ∧ d.step (.fin 0) = (d', .ok out) ∧ d.action = some 0 ∧ AtShowdown d' ∧
    (∀ m < d.cfg.numPlayers + 1, 1 ≤ m → (m : Int) ∣ 2) ∧ ∀ i < d.cfg.numPlayers, (2 : Int) ∣ contribution d' i :=
  step_exists (ties 2 [2, 4] 20) [.bet 2, .bet 0, .bet 0] (.fin 0) (by decide +kernel)

end Clubs

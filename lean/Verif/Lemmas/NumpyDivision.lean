import Verif.Lemmas.Division
import Verif.Lemmas.NumpyShow
import Verif.Lemmas.NumpyRun
import Mathlib.Data.Prod.Lex

/-! # The exact division of a pot by the array engine -/

namespace Clubs.Numpy

open Spec Finset

variable {n : Nat} {worst : Int} {C T : List Int} {act : Nat → Bool} {s : Nat → Int}

theorem eAt_sharers (D : Deal n worst C T act) (hs : Strengths n T act s) {i : Nat} (hi : i < (handList C T).length) :
    (eAt worst (handList C T) i).toFinset = arraySharers n act (fn C) s (handList C T)[i].idx := by
  obtain ⟨i1, i2, i3⟩ := hand_at D hi
  ext q
  rw [List.mem_toFinset, mem_eAt hi]
  unfold arraySharers
  rw [mem_filter, mem_range]
  constructor
  · rintro ⟨j, hj, rfl, h⟩
    obtain ⟨j1, j2, j3⟩ := hand_at D hj
    refine ⟨j1, fun ai => ?_⟩
    rw [before_iff D hs hj hi]
    have hb := D.better _ i1 ai
    by_cases hx : j < i
    · rw [if_pos hx] at h; omega
    · rw [if_neg hx] at h
      have aj : act (handList C T)[j].idx = true := by
        by_contra hcon
        rw [Bool.not_eq_true] at hcon
        have := D.folded _ j1 hcon
        omega
      refine ⟨aj, ?_, hx⟩
      rw [hs _ i1 ai, hs _ j1 aj, ← j2, ← i2, h]
  · rintro ⟨hq, h⟩
    obtain ⟨j, hj, rfl⟩ := seat_at D hq
    obtain ⟨j1, j2, j3⟩ := hand_at D hj
    rw [before_iff D hs hj hi] at h
    refine ⟨j, hj, rfl, ?_⟩
    cases ai : act (handList C T)[i].idx
    · have hf := D.folded _ i1 ai
      cases aj : act (handList C T)[j].idx
      · have := D.folded _ j1 aj
        rw [i2, j2, hf, this, ite_self]
      · have hji : j < i := by
          rw [← before_iff D hs hj hi]
          exact .inl ⟨aj, by rw [ai]; simp⟩
        rw [if_pos hji, i2, hf]
    · obtain ⟨h1, h2, h3⟩ := h ai
      rw [if_neg h3, i2, j2, ← hs _ i1 ai, ← hs _ j1 h1, h2]

theorem eAt_card (D : Deal n worst C T act) (hs : Strengths n T act s) {i : Nat} (hi : i < (handList C T).length) :
    (eAt worst (handList C T) i).length = (arraySharers n act (fn C) s (handList C T)[i].idx).card := by
  have hn : ((handList C T).map (·.idx)).Nodup := (handList_idx C T).nodup_iff.2 List.nodup_range
  rw [← eAt_sharers D hs hi, List.toFinset_card_of_nodup (eAt_props hn hi).1]

theorem base_shares (D : Deal n worst C T act) (hs : Strengths n T act s) {j : Nat} (hj : j < n) :
    (baseList n worst (handList C T)).getD j 0 = arrayShares n act (fn C) s j := by
  rw [(showdown_facts (worst := worst) D.len D.clen D.pos).base j hj]
  unfold arrayShares
  apply sum_positions D
  intro i hi
  rw [wAt_piece D hs hi, eAt_card D hs hi, ← eAt_sharers (worst := worst) D hs hi]
  simp only [List.mem_toFinset]

theorem odd_left (D : Deal n worst C T act) (hs : Strengths n T act s) :
    oddSum n worst (handList C T) = arrayLeft n act (fn C) s := by
  rw [(showdown_facts (worst := worst) D.len D.clen D.pos).odd]
  unfold arrayLeft
  apply sum_positions D
  intro i hi
  rw [wAt_piece D hs hi, eAt_card D hs hi]

/-- nobody has a payout: no seat is found for the odd chips -/
theorem oddChips_none {button : Nat} {r : Int} {p : List Int} (h : ∀ i < p.length, p.getD i 0 = 0) :
    oddChips n button r p = .error .valueError := by
  unfold oddChips
  simp only []
  rw [if_pos]
  rw [List.filter_eq_nil_iff]
  intro i hi
  simpa using h i (List.mem_range.1 hi)

/-- what a showdown pays, for every button and every pot -/
inductive PaidOut (x : Dealer) (s : Nat → Int) : Prop
  | even (p : List Int) (h : payouts x = .ok p) (h0 : arrayLeftAt x s = 0)
      (hp : ∀ j < x.cfg.numPlayers, received x p j = arraySharesAt x s j)
  | odd (p : List Int) (w : Nat) (h : payouts x = .ok p) (h0 : arrayLeftAt x s ≠ 0) (hw : w < x.cfg.numPlayers)
      (hd : arraySharesAt x s w ≠ 0)
      (hf : ∀ i < x.cfg.numPlayers, arraySharesAt x s i ≠ 0 →
        fromButton x.cfg.numPlayers x.button w ≤ fromButton x.cfg.numPlayers x.button i)
      (hp : ∀ j < x.cfg.numPlayers, received x p j = arraySharesAt x s j + if w = j then arrayLeftAt x s else 0)
  | raises (h : payouts x = .error .valueError) (h0 : arrayLeftAt x s ≠ 0)
      (hf : ∀ i < x.cfg.numPlayers, arraySharesAt x s i = 0)

theorem showdown_paidOut {x : Dealer} (hd : Seated (atSeat x)) (hh : x.holeCards.length = x.cfg.numPlayers)
    (hpot : x.pot = x.potCommits.sum) (hpos : ∀ i < x.cfg.numPlayers, 0 ≤ contribution x i) (hr : Ranks x s)
    (hone : countTrue x.active ≠ 1) (hst : x.cfg.numStreets ≤ x.street) :
    PaidOut x s ∧ 0 ≤ arrayLeftAt x s ∧ ∀ j < x.cfg.numPlayers, 0 ≤ arraySharesAt x s j := by
  obtain ⟨T, hT1, hT2, hT3⟩ := evalHands_of_ranks hh hr
  have D : Deal x.cfg.numPlayers x.worstHand x.potCommits T (inB x) := deal_of (d := atSeat x) hd hpos hr hT2 hT3
  have hcongr : Strengths x.cfg.numPlayers T (inB x) s := by
    intro i hi ha
    rw [hT3 i hi, ha, if_pos rfl]
  have hbase : ∀ j < x.cfg.numPlayers,
      (baseList x.cfg.numPlayers x.worstHand (handList x.potCommits T)).getD j 0 = arraySharesAt x s j :=
    fun j hj => base_shares D hcongr hj
  have hodd : oddSum x.cfg.numPlayers x.worstHand (handList x.potCommits T) = arrayLeftAt x s := odd_left D hcongr
  have hcl : x.potCommits.length = x.cfg.numPlayers := hd.potCommits
  have f := showdown_facts (worst := x.worstHand) hT2 hcl D.pos
  refine ⟨?_, by rw [← hodd]; exact oddSum_nonneg f, fun j hj => by rw [← hbase j hj]; exact base_nonneg f j hj⟩
  have hpp := potPayouts_eq x.cfg.numPlayers x.button x.worstHand x.potCommits T (by rw [hT2, hcl]) D.pos
  have hev : evalRound x = potPayouts x.cfg.numPlayers x.button x.worstHand x.potCommits.sum x.potCommits T := by
    unfold evalRound evalHands
    rw [hT1, hpot]
  have hpay : ∀ q, evalRound x = .ok q → payouts x = .ok (List.zipWith (· - ·) q x.potCommits) := by
    intro q hq
    unfold payouts
    simp only []
    rw [if_neg hone, if_pos hst, hq]
  have hrec : ∀ q : List Int, q.length = x.cfg.numPlayers → ∀ j < x.cfg.numPlayers,
      received x (List.zipWith (· - ·) q x.potCommits) j = q.getD j 0 := by
    intro q hq j hj
    unfold received
    rw [getD_zipWith _ _ _ _ 0 0 _ (by omega) (by rw [hcl]; exact hj)]
    show q.getD j 0 - x.potCommits.getD j 0 + x.potCommits.getD j 0 = _
    ring
  rw [hpp, hodd] at hev
  by_cases h0 : arrayLeftAt x s = 0
  · rw [if_neg (by simpa using h0)] at hev
    refine .even _ (hpay _ hev) h0 fun j hj => ?_
    rw [hrec _ f.length j hj, hbase j hj]
  · rw [if_pos h0] at hev
    by_cases hz : ∀ i < x.cfg.numPlayers, arraySharesAt x s i = 0
    · rw [oddChips_none (by
        intro i hi
        rw [f.length] at hi
        rw [hbase i hi]; exact hz i hi)] at hev
      refine .raises ?_ h0 hz
      unfold payouts
      simp only []
      rw [if_neg hone, if_pos hst, hev]
    · obtain ⟨i, hz⟩ := not_forall.1 hz
      obtain ⟨hin, hdue⟩ := Classical.not_imp.1 hz
      obtain ⟨w, hw, hne, he, hf⟩ := oddChips_seat (button := x.button) (r := arrayLeftAt x s) f.length
        ⟨i, hin, by rw [hbase i hin]; exact hdue⟩
      rw [he] at hev
      refine .odd _ w (hpay _ hev) h0 hw (by rw [← hbase w hw]; exact hne) ?_ ?_
      · intro i hi hdi
        exact hf i hi (by rw [hbase i hi]; exact hdi)
      · intro j hj
        rw [hrec _ (by rw [List.length_modify, f.length]) j hj, getD_modify _ _ _ _ _ (by rw [f.length]; exact hj), hbase j hj]
        split
        · rfl
        · rw [add_zero]

/-! ## who has a share -/

variable {c : Nat → Int}

/-- if somebody who is in put in chips, somebody has a share -/
theorem shares_pos (hc : ∀ k < n, 0 ≤ c k) (h : ∃ i < n, act i = true ∧ 0 < c i) :
    ∃ j < n, act j = true ∧ 0 < arrayShares n act c s j := by
  obtain ⟨i0, h0, h1, h2⟩ := h
  obtain ⟨i, hi, hmin⟩ := Finset.exists_min_image ((range n).filter fun i => act i = true ∧ 0 < c i)
    (fun i => toLex (s i, toLex (c i, i))) ⟨i0, by rw [mem_filter, mem_range]; exact ⟨h0, h1, h2⟩⟩
  rw [mem_filter, mem_range] at hi
  obtain ⟨i1, i2, i3⟩ := hi
  refine ⟨i, i1, i2, ?_⟩
  -- whoever comes earlier put in nothing
  have hfirst : ∀ k < n, Before act c s k i → c k = 0 := by
    intro k hk hb
    by_contra hne
    have hk0 := hc k hk
    have ak : act k = true := by
      rcases hb with ⟨h1, -⟩ | ⟨⟨h1, -⟩, -⟩
      · exact h1
      · rw [h1]; exact i2
    have := hmin k (by rw [mem_filter, mem_range]; exact ⟨hk, ak, by omega⟩)
    rw [Prod.Lex.le_iff, Prod.Lex.le_iff] at this
    simp only [ofLex_toLex] at this
    rcases hb with ⟨-, h1⟩ | ⟨⟨-, h1⟩, h3⟩
    · have := h1 i2
      omega
    · have := h1 ak
      omega
  have hreach : reached n act c s i = 0 := by
    unfold reached
    have : ((range n).filter fun k => Before act c s k i).sup (fun k => (c k).toNat) ≤ 0 := by
      apply Finset.sup_le
      intro k hk
      rw [mem_filter, mem_range] at hk
      rw [hfirst k hk.1 hk.2]; simp
    omega
  have hself : i ∈ arraySharers n act c s i := by
    unfold arraySharers
    rw [mem_filter, mem_range]
    refine ⟨i1, fun _ => ⟨i2, rfl, ?_⟩⟩
    rintro (⟨-, h1⟩ | ⟨-, h1⟩)
    · have := h1 i2; omega
    · omega
  have hcard : 0 < ((arraySharers n act c s i).card : Int) := by
    have := Finset.card_pos.2 ⟨i, hself⟩
    omega
  have hpiece : ((arraySharers n act c s i).card : Int) * c i ≤ piece n act c s i := by
    unfold piece
    rw [hreach, max_eq_left (hc i i1)]
    have hsub : arraySharers n act c s i ⊆ range n := filter_subset _ _
    calc ((arraySharers n act c s i).card : Int) * c i = ∑ k ∈ arraySharers n act c s i, c i := by
          rw [Finset.sum_const, nsmul_eq_mul]
      _ ≤ ∑ k ∈ arraySharers n act c s i, (min (c k) (c i) - min (c k) 0) := by
          apply Finset.sum_le_sum
          intro k hk
          unfold arraySharers at hk
          rw [mem_filter, mem_range] at hk
          obtain ⟨k1, k2⟩ := hk
          obtain ⟨k2, k3, k4⟩ := k2 i2
          have : c i ≤ c k := by
            by_contra hcon
            exact k4 (.inr ⟨⟨by rw [k2, i2], fun _ => k3⟩, .inl (by omega)⟩)
          have := hc k k1
          omega
      _ ≤ _ := by
          apply Finset.sum_le_sum_of_subset_of_nonneg hsub
          intro k hk _
          have := hc k (mem_range.1 hk)
          omega
  have hq : 0 < piece n act c s i / ((arraySharers n act c s i).card : Int) := by
    have := Int.le_ediv_of_mul_le hcard (a := c i) (b := piece n act c s i) (by rw [mul_comm]; exact hpiece)
    omega
  unfold arrayShares
  refine lt_of_lt_of_le ?_ (Finset.single_le_sum (f := fun k => if i ∈ arraySharers n act c s k then
      piece n act c s k / ((arraySharers n act c s k).card : Int) else 0) ?_ (mem_range.2 i1))
  · show 0 < if i ∈ arraySharers n act c s i then _ else _
    rw [if_pos hself]
    exact hq
  · intro k _
    show 0 ≤ if i ∈ arraySharers n act c s k then _ else _
    split
    · apply Int.ediv_nonneg _ (by omega)
      unfold piece
      apply Finset.sum_nonneg
      intro q _
      omega
    · exact le_refl _

end Clubs.Numpy

namespace Clubs

open Spec

variable {S : List Int} {d d' : Dealer}

/-- somebody who is in put in chips, if anybody did -/
def Stake (d : Dealer) : Prop :=
  (∃ i < d.cfg.numPlayers, 0 < contribution d i) → ∃ i < d.cfg.numPlayers, isIn d i ∧ 0 < contribution d i

/-- when a hand is dealt, nobody who is out has put in chips -/
theorem dealt_out {rb rs : Bool} {shuf : Shuffle} {obs : Observation} (h : Seated d)
    (hr : d.reset rb rs shuf = (d', .ok obs)) (i : Nat) (hi : i < d'.cfg.numPlayers) (hout : ¬ isIn d' i) :
    contribution d' i = 0 := by
  obtain ⟨h1, h2, rfl, -⟩ := reset_ok hr
  have hcfg : ((d.posted rb rs shuf).moveAction.moveAction).cfg = d.cfg := blindStart_cfg d rb rs shuf
  rw [hcfg] at hi
  obtain ⟨c1, c2, -, -, -, -, -, -, -, c5, c6, -, c7, -⟩ := blindStart_same d rb rs shuf
  have hb := blindStart_seated h rb rs shuf
  have ha : d.cfg.antes.length = (d.blindStart rb rs shuf).cfg.numPlayers := by rw [c1]; exact h.antes
  have hbl : d.cfg.blinds.length = ((d.blindStart rb rs shuf).collectMultipleBets d.cfg.antes false).cfg.numPlayers := by
    show _ = (d.blindStart rb rs shuf).cfg.numPlayers
    rw [c1]; exact h.blinds
  have hb1 := collectMultipleBets_seated hb false ha
  have g1 := (collectMultipleBets_money hb false ha).1 i (by rw [c1]; exact hi)
  have g2 := (collectMultipleBets_money hb1 true hbl).1 i (by show i < (d.blindStart rb rs shuf).cfg.numPlayers; rw [c1]; exact hi)
  have e2 : contribution (d.blindStart rb rs shuf) i = 0 := by
    unfold contribution; rw [c5]; exact getD_replicate _ _ _ _ hi
  show contribution (d.posted rb rs shuf) i = 0
  unfold Dealer.posted
  rw [g2.2.1, g1.2.1, e2, forcedBets_getD hb ha i (by rw [c1]; exact hi),
    forcedBets_getD hb1 hbl i (by show i < (d.blindStart rb rs shuf).cfg.numPlayers; rw [c1]; exact hi),
    if_neg (fun hc => hout hc.2), if_neg (fun hc => hout hc.2)]
  rfl

theorem dealt_stake {rb rs : Bool} {shuf : Shuffle} {obs : Observation} (h : Seated d)
    (hr : d.reset rb rs shuf = (d', .ok obs)) : Stake d' := by
  rintro ⟨i, hi, h1⟩
  refine ⟨i, hi, ?_, h1⟩
  by_contra hout
  have := dealt_out h hr i hi hout
  omega

theorem afterBet_stake {g : Int} {fold : Bool} {b c lo hi : Int} (hl : Live S d) (hS : ∀ i < d.cfg.numPlayers, 0 ≤ stack d i)
    (hn : NN d) (ht : Topped g d) (hst : Stake d) (hb : d.betSizes = .ok (c, lo, hi)) :
    Stake (d.afterBet fold c (cleanBet b c lo hi)) := by
  obtain ⟨A, P, ht, -⟩ := ht
  have hd := hl.seated
  have hbet := betOf_nonneg (b := b) hd (nn_pot hl hn) hb fold
  have hc : c = min (pyMax d.streetCommits - streetBet d d.seat) (stack d d.seat) := by
    obtain ⟨rs, nr, -, -, h1, -⟩ := betSizes_spec hb
    exact h1
  generalize cleanBet b c lo hi = x at *
  have hcon := contribution_afterBet hd fold c x
  have hslt := seat_lt hd
  have hin : ∀ i < d.cfg.numPlayers, isIn (d.afterBet fold c x) i ↔ isIn (d.acted fold c x) i := by
    intro i _
    unfold isIn
    rcases afterBet_cases d fold c x with ⟨-, ee⟩ | ⟨-, ee⟩
    · rw [ee]; rfl
    · rw [ee]
      obtain ⟨-, -, -, -, g5, -⟩ := nextStreet_fields (d.acted fold c x).moveAction
      rw [g5]; rfl
  unfold Stake
  rw [afterBet_cfg]
  rintro ⟨i, hi, h1⟩
  obtain ⟨a, ha, hain⟩ := hl.action
  have hseat : d.seat = a := by unfold Dealer.seat; rw [ha]; rfl
  by_cases hf : c ≠ 0 ∧ (x < c ∨ fold = true)
  · -- a fold: the player who bet most is in
    obtain ⟨j, hj, e⟩ := max_exists hd
    have h2 := ht.pos _ hslt
    have h3 := max_ge hd _ hslt
    have h4 := hS _ hslt
    have h5 : 0 < pyMax d.streetCommits ∧ streetBet d d.seat < pyMax d.streetCommits := by
      have := hf.1
      omega
    have hjin : isIn d j := by
      by_contra hcon
      have := ht.out j hj hcon
      omega
    have hne : d.seat ≠ j := by rintro rfl; omega
    refine ⟨j, hj, ?_, ?_⟩
    · rw [hin j hj, acted_isIn hd fold c x j hj]
      exact ⟨hjin, fun h => hne h.1⟩
    · rw [(hcon j hj).1, if_neg hne]
      have := hn.street j hj
      omega
  · have hm : 0 ≤ min (stack d d.seat) (betOf fold c x) := le_min (hS _ hslt) hbet
    have hkeep : ∀ j < d.cfg.numPlayers, isIn d j → isIn (d.afterBet fold c x) j := by
      intro j hj hjin
      rw [hin j hj, acted_isIn hd fold c x j hj]
      exact ⟨hjin, fun h => hf h.2⟩
    by_cases hsi : d.seat = i
    · exact ⟨i, hi, hkeep i hi (by rw [← hsi, hseat]; exact hain), h1⟩
    · rw [(hcon i hi).1, if_neg hsi] at h1
      obtain ⟨j, hj, j1, j2⟩ := hst ⟨i, hi, by omega⟩
      refine ⟨j, hj, hkeep j hj j1, ?_⟩
      rw [(hcon j hj).1]
      split <;> omega

end Clubs

namespace Clubs.Numpy

open Spec

variable {S : List Int} {d : Dealer}

/-- at every table where everybody can pay ante and blind, somebody who is in put in chips, if anybody did -/
theorem stake_of (h : ArrayInHand S d) (hn : NonNegative S d.cfg) (hz : SizesOk d.cfg) (hc : Covers S d.cfg) (ha : d.action ≠ none) :
    Stake d := by
  have := array_induct (P := fun S x => NonNegative S x.cfg → SizesOk x.cfg → Covers S x.cfg →
      NN x ∧ (∀ i < x.cfg.numPlayers, 0 ≤ stack x i) ∧ Topped x.cfg.antes.sum x ∧ Stake x)
    (fun d d' rb rs shuf obs hd hs hr hn _ hc => by
      have hpos : 0 ≤ d'.cfg.antes.sum := List.sum_nonneg hn.antes
      refine ⟨dealt_nn hd hr hn, dealt_covered hd hr hn hc, dealt_top hpos hd hr hn ?_, dealt_stake hd hr⟩
      intro a ha b hb
      have := List.single_le_sum hn.antes a ha
      have := hn.antes b hb
      omega)
    (fun S x fold b c lo hi hl hst h2 ih hb hf hn hz hc => by
      rw [Clubs.afterBet_cfg] at hn hz hc
      obtain ⟨i1, i2, i3, i4⟩ := ih hn hz hc
      rw [afterBet_clean hl.seated (nn_pot hl i1) hz hb hf, Clubs.afterBet_cfg]
      refine ⟨afterBet_nn hl hn.start h2 i1 hb, ?_, afterBet_top hl i2 i1 i3 hb, afterBet_stake hl i2 i1 i3 i4 hb⟩
      intro i hi'
      rw [(contribution_afterBet hl.seated fold c _ i hi').2]
      have h3 := i2 i hi'
      split
      · next h4 => rw [h4]; have := min_le_left (stack x i) (betOf fold c (Clubs.cleanBet b c lo hi)); omega
      · omega) h
  rcases this with ⟨h1, -⟩ | ⟨e, p, rfl, -⟩
  · exact (h1 hn hz hc).2.2.2
  · simp [Dealer.settle] at ha

end Clubs.Numpy

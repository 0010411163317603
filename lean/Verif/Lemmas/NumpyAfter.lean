import Verif.Lemmas.NumpyShow
import Verif.Lemmas.Level

/-!
# Comparing the hands again after the hand
-/

namespace Clubs.Numpy

open Spec

variable {worst : Int} {H : List Hand}

/-- The loop when the pot has been paid out before: the pot becomes negative, so it does not stop early. -/
theorem potLoop_after (hpos : ∀ h ∈ H, 0 ≤ h.commit) (fuel i : Nat) (hf : i + fuel = H.length) (st : PotState)
    (h1 : st.hands = drained worst H i) (h2 : st.pot < 0 ∨ st.pot = 0 ∧ 0 < wAt H i ∨ ∀ k, i ≤ k → k < H.length → wAt H k = 0) :
    (potLoop worst fuel i st).payouts =
      ((List.range' i fuel).foldl (fun a k => outAt worst H k a) (st.payouts, st.remainder)).1 ∧
    (potLoop worst fuel i st).remainder =
      ((List.range' i fuel).foldl (fun a k => outAt worst H k a) (st.payouts, st.remainder)).2 := by
  induction fuel generalizing i st with
  | zero => simp [potLoop]
  | succ fuel ih =>
    have hi : i < H.length := by omega
    rw [potLoop]
    have hget : st.hands[i]? = some { idx := H[i].idx, strength := H[i].strength, commit := max (H[i].commit - lvl H i) 0 } := by
      rw [h1, List.getElem?_eq_getElem (by rw [drained_length]; exact hi), drained_get _ _ _ _ hi]
      simp only [lt_irrefl, if_false]
    rw [hget]
    simp only []
    have hcut : (st.hands.map fun g => min g.commit (max (H[i].commit - lvl H i) 0)).sum = wAt H i := by
      rw [h1]; exact cut_sum i hi hpos
    rw [List.range'_succ, List.foldl_cons]
    have hE : eAt worst H i = ((st.hands.filter fun g => g.strength == H[i].strength).map (·.idx)) := by
      unfold eAt
      rw [← h1, hget]
    have hst : potStep worst st i { idx := H[i].idx, strength := H[i].strength, commit := max (H[i].commit - lvl H i) 0 } =
        { payouts := (outAt worst H i (st.payouts, st.remainder)).1
          remainder := (outAt worst H i (st.payouts, st.remainder)).2
          hands := drained worst H (i + 1)
          pot := st.pot - wAt H i } := by
      unfold potStep outAt
      simp only [hcut, hE]
      congr 1
      rw [drained_succ hi hpos, h1]
    rw [hst]
    simp only []
    have hw := wAt_nonneg (H := H) i
    rcases h2 with h2 | ⟨h2, h3⟩ | h2
    · rw [if_neg (by omega)]
      exact ih (i + 1) (by omega) _ rfl (.inl (show st.pot - wAt H i < 0 by omega))
    · rw [if_neg (by omega)]
      exact ih (i + 1) (by omega) _ rfl (.inl (show st.pot - wAt H i < 0 by omega))
    · have hrest : ∀ (l : List Nat), (∀ k ∈ l, i + 1 ≤ k ∧ k < H.length) → ∀ acc,
          l.foldl (fun a k => outAt worst H k a) acc = acc := by
        intro l
        induction l with
        | nil => simp
        | cons k l ihl =>
          intro hl acc
          rw [List.foldl_cons, outAt_zero (h2 k (by have := (hl k (by simp)).1; omega) (hl k (by simp)).2)]
          exact ihl (fun k hk => hl k (by simp [hk])) acc
      split
      · rw [hrest _ (by
          intro k hk
          rw [List.mem_range'_1] at hk
          omega)]
        exact ⟨rfl, rfl⟩
      · exact ih (i + 1) (by omega) _ rfl (.inr (.inr fun k h3 h4 => h2 k (by omega) h4))

/-- Comparing the hands again gives the same, if the best hand has paid something or nobody has. -/
theorem potPayouts_after (n button : Nat) (worst : Int) (potCommits strengths : List Int)
    (hl : strengths.length = potCommits.length) (hpos : ∀ c ∈ potCommits, 0 ≤ c)
    (h : (∃ g, (handList potCommits strengths)[0]? = some g ∧ 0 < g.commit) ∨ ∀ c ∈ potCommits, c = 0) :
    potPayouts n button worst 0 potCommits strengths = potPayouts n button worst potCommits.sum potCommits strengths := by
  have hmem : ∀ h ∈ handList potCommits strengths, h.commit ∈ potCommits := by
    intro h hh
    obtain ⟨h1, -, h2⟩ := handList_mem hh
    rw [h2]
    exact (mem_getD 0).2 ⟨h.idx, by omega, rfl⟩
  have hp : ∀ h ∈ handList potCommits strengths, 0 ≤ h.commit := fun h hh => hpos _ (hmem h hh)
  have := potLoop_after (worst := worst) hp (handList potCommits strengths).length 0 (by omega)
    { hands := handList potCommits strengths, pot := 0, remainder := 0, payouts := List.replicate n 0 }
    (drained_zero hp).symm (by
      rcases h with ⟨g, h1, h2⟩ | h
      · refine .inr (.inl ⟨rfl, ?_⟩)
        obtain ⟨h3, h4⟩ := List.getElem?_eq_some_iff.1 h1
        have h5 : wAt (handList potCommits strengths) 0 ≠ 0 := by
          intro hz
          rw [wAt_zero h3, lvl_zero, h4] at hz
          omega
        have := wAt_nonneg (H := handList potCommits strengths) 0
        omega
      · refine .inr (.inr fun k _ hk => ?_)
        rw [wAt_zero hk, h _ (hmem _ (List.getElem_mem hk))]
        exact lvl_nonneg _ _)
  rw [potPayouts_eq n button worst potCommits strengths hl hpos]
  unfold potPayouts
  simp only
  unfold baseList oddSum
  rw [← this.1, ← this.2]
  rfl

/-- Everybody who is in has put something into the pot, or nobody has. -/
theorem payouts_after {x : Dealer} {s : Nat → Int} {p : List Int} (hd : Seated (atSeat x)) (hh : x.holeCards.length = x.cfg.numPlayers)
    (hpot : x.pot = x.potCommits.sum) (hpos : ∀ i < x.cfg.numPlayers, 0 ≤ contribution x i) (hr : Ranks x s)
    (htwo : 2 ≤ countTrue x.active) (hst : x.cfg.numStreets ≤ x.street)
    (hin : (∀ i < x.cfg.numPlayers, isIn x i → 0 < contribution x i) ∨ ∀ i < x.cfg.numPlayers, contribution x i = 0) :
    payouts (x.settle p) = payouts x := by
  obtain ⟨T, hT1, hT2, hT3⟩ := evalHands_of_ranks hh hr
  have D : Deal x.cfg.numPlayers x.worstHand x.potCommits T (inB x) := deal_of (d := atSeat x) hd hpos hr hT2 hT3
  have hcl : x.potCommits.length = x.cfg.numPlayers := hd.potCommits
  have hev : evalRound (x.settle p) = evalRound x := by
    unfold evalRound evalHands
    rw [show (x.settle p).evalHands (x.settle p).holeCards (x.settle p).communityCards = .ok T from hT1, hT1]
    simp only []
    show potPayouts x.cfg.numPlayers x.button x.worstHand 0 x.potCommits T = potPayouts x.cfg.numPlayers x.button x.worstHand x.pot x.potCommits T
    rw [hpot]
    refine potPayouts_after _ _ _ _ _ (by rw [hT2, hcl]) D.pos ?_
    rcases hin with hin | hin
    · left
      obtain ⟨i, hi, hi2⟩ := countTrue_pos.1 (show 1 ≤ countTrue x.active by omega)
      have hin' : i < x.cfg.numPlayers := by rw [← (show x.active.length = x.cfg.numPlayers from hd.active)]; exact hi
      have hm := mem_handList (potCommits := x.potCommits) (strengths := T) (i := i) (by rw [hT2]; exact hin')
      obtain ⟨j, hj, ej⟩ := List.mem_iff_getElem.1 hm
      have hn0 : 0 < (handList x.potCommits T).length := by omega
      refine ⟨_, List.getElem?_eq_getElem hn0, ?_⟩
      obtain ⟨a1, a2, a3⟩ := hand_at D hn0
      have hle : ((handList x.potCommits T)[0]).strength ≤ T.getD i 0 := by
        by_cases hj0 : j = 0
        · subst hj0
          rw [ej]
        · have hs : (handList x.potCommits T).Pairwise keyLe := sortByKey_sorted _
          have := List.pairwise_iff_getElem.1 hs 0 j hn0 hj (by omega)
          rw [ej] at this
          unfold keyLe at this
          simp only at this
          omega
      have hbest : inB x ((handList x.potCommits T)[0]).idx = true := by
        by_contra hc
        have h1 := D.folded _ a1 (by simpa using hc)
        have h2 := D.better i hin' hi2
        rw [← a2] at h1
        omega
      rw [a3]
      exact hin _ a1 hbest
    · right
      intro c hc
      obtain ⟨i, hi, rfl⟩ := (mem_getD 0).1 hc
      exact hin i (by omega)
  have key : ∀ y : Dealer, countTrue y.active ≠ 1 → y.street ≥ y.cfg.numStreets → payouts y = (match evalRound y with
      | .error e => .error e
      | .ok q => .ok (List.zipWith (· - ·) q y.potCommits)) := by
    intro y h1 h2
    unfold payouts
    simp only []
    rw [if_neg h1, if_pos h2]
    cases evalRound y <;> rfl
  rw [key (x.settle p) (show countTrue x.active ≠ 1 by omega) hst, key x (by omega) hst, hev]
  rfl

/-! ## who has put in how much -/

variable {S : List Int} {d : Dealer}

theorem level_afterBet {x : Dealer} {g : Int} {fold : Bool} {b c lo up : Int} (hl : Live S x) (hst : x.street < x.cfg.numStreets)
    (h2 : 2 ≤ countTrue x.active) (ih : Level g x) (hb : x.betSizes = .ok (c, lo, up)) (hn : NonNegative S x.cfg) :
    Level g (x.afterBet fold c (Clubs.cleanBet b c lo up)) := by
  obtain ⟨i1, j1, i2, -⟩ := ih
  refine ⟨afterBet_top hl i2 j1 i1 hb, afterBet_nn hl hn.start h2 j1 hb, ?_, ?_⟩
  · intro i hi
    rw [Clubs.afterBet_cfg] at hi
    rw [(contribution_afterBet hl.seated fold c (Clubs.cleanBet b c lo up) i hi).2]
    have h3 := i2 i hi
    split
    · next h4 => rw [h4]; have := min_le_left (stack x i) (betOf fold c (Clubs.cleanBet b c lo up)); omega
    · omega
  · intro h5 i hi
    rw [Clubs.afterBet_cfg] at h5 hi
    rcases afterBet_cases x fold c (Clubs.cleanBet b c lo up) with ⟨-, ee⟩ | ⟨-, ee⟩
    · rw [ee] at h5
      change x.cfg.numStreets ≤ x.street at h5
      omega
    · rw [ee]
      obtain ⟨g1, -, -, g4, -⟩ := nextStreet_fields (x.acted fold c (Clubs.cleanBet b c lo up)).moveAction
      unfold streetBet
      rw [g1]
      exact getD_replicate _ _ _ _ (by rw [g4]; exact hi)

theorem array_level {g : Int} (hg : 0 ≤ g) (h : ArrayInHand S d) (hn : NonNegative S d.cfg) (hz : SizesOk d.cfg) (hcov : Covers S d.cfg)
    (he : ∀ a ∈ d.cfg.antes, ∀ b ∈ d.cfg.antes, a ≤ b + g) :
    (Level g (atSeat d) ∧ Live S (atSeat d)) ∨ ∃ e p, d = e.settle p ∧ Level g (atSeat e) ∧ Live S (atSeat e) := by
  have := array_induct (P := fun S x => NonNegative S x.cfg → SizesOk x.cfg → Covers S x.cfg →
      (∀ a ∈ x.cfg.antes, ∀ b ∈ x.cfg.antes, a ≤ b + g) → Level g x)
    (fun d d' rb rs shuf obs hd hs hr hn _ hc he => level_dealt hg hd hr hn hc he)
    (fun S x fold b c lo up hl hst h2 ih hb hf hn hz hc he => by
      rw [Clubs.afterBet_cfg] at hn hz hc he
      have h3 := ih hn hz hc he
      rw [afterBet_clean hl.seated (nn_pot hl h3.nn) hz hb hf]
      exact level_afterBet hl hst h2 h3 hb hn) h
  rcases this with ⟨h1, hl, -⟩ | ⟨e, p, rfl, h1, hl, -⟩
  · exact .inl ⟨h1 hn hz hcov he, hl⟩
  · exact .inr ⟨e, p, rfl, h1 hn hz hcov he, hl⟩

/-- with equal antes -/
theorem array_level_showdown (h : ArrayInHand S d) (hn : NonNegative S d.cfg) (hz : SizesOk d.cfg) (hcov : Covers S d.cfg)
    (he : EqualAntes d.cfg) (hst : d.cfg.numStreets ≤ d.street) : S.length = d.cfg.numPlayers ∧
      ∃ M, (∀ i < d.cfg.numPlayers, contribution d i ≤ M) ∧
      (∀ i < d.cfg.numPlayers, 0 ≤ contribution d i ∧ contribution d i ≤ S.getD i 0) ∧
      ∀ i < d.cfg.numPlayers, isIn d i → contribution d i = M ∨ contribution d i = S.getD i 0 := by
  have key : ∀ e : Dealer, Level 0 e → Live S e → e.cfg.numStreets ≤ e.street →
      ∃ M, (∀ i < e.cfg.numPlayers, contribution e i ≤ M) ∧
      (∀ i < e.cfg.numPlayers, 0 ≤ contribution e i ∧ contribution e i ≤ S.getD i 0) ∧
      ∀ i < e.cfg.numPlayers, isIn e i → contribution e i = M ∨ contribution e i = S.getD i 0 := by
    intro e hlv hl hst
    obtain ⟨A, P, ht, hA⟩ := hlv.top
    have h2 := hl.seated.two
    have hA' : ∀ i < e.cfg.numPlayers, A i = A 0 := fun i hi => by
      have h3 := hA i hi 0 (by omega)
      have h4 := hA 0 (by omega) i hi
      omega
    refine ⟨P + A 0, fun i hi => ?_, fun i hi => ⟨hlv.nn.contrib i hi, ?_⟩, fun i hi hin => ?_⟩
    · have h3 := ht.le i hi
      have h4 := hlv.clean hst i hi
      have h5 := hA' i hi
      unfold carried at h3
      omega
    · have h3 := hl.money i hi
      have h4 := hlv.stack i hi
      omega
    · have h4 := hlv.clean hst i hi
      have h5 := hA' i hi
      have h6 := hl.money i hi
      by_cases h0 : stack e i = 0
      · right; omega
      · left
        have h3 := ht.eq i hi hin (by omega)
        unfold carried at h3
        omega
  have he' : ∀ a ∈ d.cfg.antes, ∀ b ∈ d.cfg.antes, a ≤ b + 0 := fun a ha b hb => by rw [he a ha b hb]; omega
  rcases array_level (g := 0) (by omega) h hn hz hcov he' with ⟨h1, h2⟩ | ⟨e, p, rfl, h1, h2⟩
  · exact ⟨h2.startLen, key (atSeat d) h1 h2 hst⟩
  · exact ⟨h2.startLen, key (atSeat e) h1 h2 hst⟩

end Clubs.Numpy

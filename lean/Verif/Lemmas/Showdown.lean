import Verif.Lemmas.Layers
import Verif.Lemmas.Shares
import Verif.Lemmas.View
import Verif.Lemmas.Eval
import Verif.Lemmas.Deck
import Mathlib.Data.List.Forall2

/-! # The showdown at a table -/

namespace Clubs

open Spec

theorem evaluate_le {e : Evaluator} {h c : List Card} {v : Int} (hv : e.evaluate h c = .ok v) : v ≤ e.table.maxRank := by
  unfold Evaluator.evaluate at hv
  split at hv
  · simp at hv
  · exact (minLoop_ok hv).2.1

theorem evalHands_of_ranks {d : Dealer} {s : Nat → Int} (hh : d.holeCards.length = d.cfg.numPlayers) (hr : Ranks d s) :
    ∃ T, d.evalHands d.holeCards d.communityCards = .ok T ∧ T.length = d.cfg.numPlayers ∧
      ∀ i < d.cfg.numPlayers, T.getD i 0 = if inB d i then s i else d.worstHand := by
  refine ⟨(List.range d.cfg.numPlayers).map fun i => if inB d i then s i else d.worstHand, ?_, by simp, ?_⟩
  · unfold Dealer.evalHands
    rw [mapM_ok_iff, List.forall₂_map_right_iff, List.forall₂_same]
    intro i hi
    rw [List.mem_range] at hi
    by_cases ha : d.active.getD i false = true
    · rw [if_pos ha, List.getElem?_eq_getElem (by omega)]
      simp only []
      rw [show inB d i = true from ha, if_pos rfl]
      have := hr i hi ha
      rwa [getD_eq _ _ _ (by omega)] at this
    · rw [if_neg ha, if_neg (show ¬ inB d i = true from ha)]
  · intro i hi
    rw [getD_map _ _ _ 0 _ (by simpa using hi), getD_eq _ _ _ (by simpa using hi)]
    simp

theorem ranks_of_evalHands {d : Dealer} {T : List Int} (hh : d.holeCards.length = d.cfg.numPlayers)
    (h : d.evalHands d.holeCards d.communityCards = .ok T) : Ranks d (fun i => T.getD i 0) := by
  unfold Dealer.evalHands at h
  rw [mapM_ok_iff] at h
  intro i hi ha
  have hlen := h.length_eq
  rw [List.length_range] at hlen
  have := List.Forall₂.get h (i := i) (by simpa using hi) (by omega)
  simp only [List.get_eq_getElem, List.getElem_range] at this
  rw [if_pos (show d.active.getD i false = true from ha), List.getElem?_eq_getElem (by omega)] at this
  simp only [] at this
  rw [getD_eq _ _ _ (by omega : i < d.holeCards.length), this]
  simp only []
  rw [getD_eq _ _ _ (by omega)]

theorem ranks_inj {d : Dealer} {s s' : Nat → Int} (h : Ranks d s) (h' : Ranks d s') :
    ∀ i < d.cfg.numPlayers, inB d i = true → s i = s' i := by
  intro i hi ha
  have h1 := h i hi ha
  rw [h' i hi ha] at h1
  simpa using h1.symm

theorem deal_of {d : Dealer} {s : Nat → Int} {T : List Int} (hd : Seated d)
    (hpos : ∀ i < d.cfg.numPlayers, 0 ≤ contribution d i) (hr : Ranks d s) (hl : T.length = d.cfg.numPlayers)
    (hT : ∀ i < d.cfg.numPlayers, T.getD i 0 = if inB d i then s i else d.worstHand) :
    Deal d.cfg.numPlayers d.worstHand d.potCommits T (inB d) where
  len := hl
  clen := hd.potCommits
  pos := by
    intro x hx
    obtain ⟨i, hi, rfl⟩ := (mem_getD 0).1 hx
    exact hpos i (by rw [← hd.potCommits]; exact hi)
  better := by
    intro i hi ha
    rw [hT i hi, ha, if_pos rfl]
    have := evaluate_le (hr i hi ha)
    unfold Dealer.worstHand
    omega
  folded := by
    intro i hi ha
    rw [hT i hi, ha, if_neg (by simp)]

/-- what a showdown pays, for every button -/
inductive Paid (d : Dealer) (s : Nat → Int) : Prop
  | even (p : List Int) (h : d.payouts = .ok p) (h0 : oddAt d s = 0)
      (hp : ∀ j < d.cfg.numPlayers, received d p j = dueAt d s j)
  | odd (p : List Int) (k : Nat) (h : d.payouts = .ok p) (h0 : oddAt d s ≠ 0) (hk : 1 ≤ k)
      (hn : d.button + k < d.cfg.numPlayers) (hw : dueAt d s (d.button + k) ≠ 0)
      (hf : ∀ j, 1 ≤ j → j < k → dueAt d s (d.button + j) = 0)
      (hp : ∀ j < d.cfg.numPlayers, received d p j = dueAt d s j + if k = j then oddAt d s else 0)
  | raises (h : d.payouts = .error .indexError) (h0 : oddAt d s ≠ 0)
      (hf : ∀ i, d.button < i → i < d.cfg.numPlayers → dueAt d s i = 0)

theorem showdown_paid {d : Dealer} {s : Nat → Int} (hd : Seated d) (hh : d.holeCards.length = d.cfg.numPlayers)
    (hpot : d.pot = d.potCommits.sum)
    (hpos : ∀ i < d.cfg.numPlayers, 0 ≤ contribution d i) (hr : Ranks d s) (hc : ClearPot d s)
    (hone : countTrue d.active ≠ 1) (hst : d.cfg.numStreets ≤ d.street) : Paid d s := by
  obtain ⟨T, hT1, hT2, hT3⟩ := evalHands_of_ranks hh hr
  have D := deal_of hd hpos hr hT2 hT3
  have hcongr : ∀ i < d.cfg.numPlayers, inB d i = true → s i = T.getD i 0 := by
    intro i hi ha
    rw [hT3 i hi, ha, if_pos rfl]
  have K : Clear d.cfg.numPlayers d.potCommits T (inB d) := ⟨hc.folds, noDrainedTie_congr hcongr hc.ties⟩
  have hbase : ∀ j < d.cfg.numPlayers,
      (baseList d.cfg.numPlayers d.worstHand (handList d.potCommits T)).getD j 0 = dueAt d s j := by
    intro j hj
    rw [base_due D K j hj]
    exact (due_congr (c := contribution d) hcongr j).symm
  have hodd : oddChips d.cfg.numPlayers d.worstHand (handList d.potCommits T) = oddAt d s := by
    rw [odd_eq D K]
    exact (odd_congr (c := contribution d) hcongr).symm
  have f := showdown_facts (worst := d.worstHand) hT2 hd.potCommits D.pos
  have hpp := potPayouts_eq d.cfg.numPlayers d.button d.worstHand d.potCommits T (by rw [hT2, hd.potCommits]) D.pos
  have hev : d.evalRound = potPayouts d.cfg.numPlayers d.button d.worstHand d.potCommits.sum d.potCommits T := by
    unfold Dealer.evalRound
    rw [hT1, hpot]
  have hpay : ∀ q, d.evalRound = .ok q → d.payouts = .ok (List.zipWith (· - ·) q d.potCommits) := by
    intro q hq
    unfold Dealer.payouts
    simp only []
    rw [if_neg hone, if_pos hst, hq]
  have hrec : ∀ q : List Int, q.length = d.cfg.numPlayers → ∀ j < d.cfg.numPlayers,
      received d (List.zipWith (· - ·) q d.potCommits) j = q.getD j 0 := by
    intro q hq j hj
    unfold received
    rw [getD_zipWith _ _ _ _ 0 0 _ (by omega) (by rw [hd.potCommits]; exact hj)]
    show q.getD j 0 - d.potCommits.getD j 0 + d.potCommits.getD j 0 = _
    ring
  rw [hpp, hodd] at hev
  have hbtn : d.button % d.cfg.numPlayers = d.button := Nat.mod_eq_of_lt hd.button
  by_cases h0 : oddAt d s = 0
  · rw [if_neg (by simpa using h0)] at hev
    refine .even _ (hpay _ hev) h0 fun j hj => ?_
    rw [hrec _ f.length j hj, hbase j hj]
  · rw [if_pos h0] at hev
    rcases remainderLoop_spec (button := d.button) (r := oddAt d s) d.cfg.numPlayers 1 _ f.length (le_refl _) (by omega) with
      ⟨k, k1, k2, k3, k4, k5⟩ | ⟨k1, k2 | ⟨k2, k3⟩⟩
    · rw [k5] at hev
      rw [hbtn] at k2 k3 k4
      refine .odd _ k (hpay _ hev) h0 k1 (by omega) ?_ ?_ ?_
      · rw [hbase _ k2] at k3
        rwa [Nat.add_comm]
      · intro j h1 h2
        have := k4 j h1 h2
        rw [hbase _ (by omega)] at this
        rwa [Nat.add_comm]
      · intro j hj
        rw [hrec _ (by rw [List.length_modify, f.length]) j hj, getD_modify _ _ _ _ _ (by rw [f.length]; exact hj), hbase j hj]
        split
        · rfl
        · rw [add_zero]
    · rw [k2] at hev
      refine .raises ?_ h0 ?_
      · unfold Dealer.payouts
        simp only []
        rw [if_neg hone, if_pos hst, hev]
      · intro i h1 h2
        rw [hbtn] at k1
        have := k1 (i - d.button) (by omega) (by omega)
        rwa [show i - d.button + d.button = i by omega, hbase i h2] at this
    · have := hd.two; omega

/-- a step that reaches the showdown -/
theorem step_showdown {S : List Int} {d d' : Dealer} {bet : PyNum} {res : Except Err StepOut} (h : InHand S d)
    (hn : NonNegative S d.cfg) (hrun : Running d) (hs : d.step bet = (d', res)) (hsh : AtShowdown d') :
    ∃ x, Seated x ∧ x.holeCards.length = x.cfg.numPlayers ∧ x.pot = x.potCommits.sum ∧
      (∀ i < x.cfg.numPlayers, 0 ≤ contribution x i) ∧ countTrue x.active ≠ 1 ∧ x.cfg.numStreets ≤ x.street ∧
      d'.cfg = x.cfg ∧ d'.active = x.active ∧ d'.potCommits = x.potCommits ∧ d'.button = x.button ∧
      d'.holeCards = x.holeCards ∧ d'.communityCards = x.communityCards ∧ d'.street = x.street ∧
      ((∃ e, x.payouts = .error e ∧ res = .error e ∧ d' = x) ∨
        ∃ obs p, x.payouts = .ok p ∧ res = .ok (obs, p, x.done) ∧ d' = x.settle p ∧ d'.action = none) := by
  obtain ⟨⟨a, ha⟩, hst⟩ := hrun
  have h2 : ∀ x : Dealer, x.active = d'.active → countTrue x.active ≠ 1 := by
    intro x hx h1
    have := hsh.2
    unfold numIn at this
    unfold countTrue at h1
    rw [hx] at h1
    omega
  cases step_cases h ha bet with
  | refused e h1 =>
    rw [h1] at hs
    obtain ⟨rfl, -⟩ := Prod.mk.inj hs
    have := hsh.1
    omega
  | stuck b c lo hi e x hb hbs hx hlx hp h1 =>
    rw [h1] at hs
    obtain ⟨rfl, rfl⟩ := Prod.mk.inj hs
    exact ⟨x, hlx.seated, hlx.holeLen, hlx.pot, (afterBet_nn_of h hn ha hbs hx).contrib, h2 x rfl, hsh.1,
      rfl, rfl, rfl, rfl, rfl, rfl, rfl, .inl ⟨e, hp, rfl, rfl⟩⟩
  | goesOn b c lo hi p x obs hb hbs hx hlx hp hd ho h1 =>
    rw [h1] at hs
    obtain ⟨rfl, rfl⟩ := Prod.mk.inj hs
    exfalso
    unfold Dealer.done at hd
    rw [if_pos (.inl hsh.1)] at hd
    simp at hd
  | ended b c lo hi p x obs hb hbs hx hlx hp hd ho h1 =>
    rw [h1] at hs
    obtain ⟨rfl, rfl⟩ := Prod.mk.inj hs
    exact ⟨x, hlx.seated, hlx.holeLen, hlx.pot, (afterBet_nn_of h hn ha hbs hx).contrib, h2 x rfl, hsh.1,
      rfl, rfl, rfl, rfl, rfl, rfl, rfl, .inr ⟨obs, p, hp, rfl, rfl, rfl⟩⟩

end Clubs

import Verif.Lemmas.NumpyRun

/-! # The showdown of the array engine -/

namespace Clubs.Numpy

open Spec

/-- what a showdown pays: every seat its shares, and all the odd chips to one winner -/
inductive Paid (x : Dealer) (s : Nat → Int) : Prop
  | even (p : List Int) (h : payouts x = .ok p) (h0 : oddAt x s = 0)
      (hp : ∀ j < x.cfg.numPlayers, received x p j = dueAt x s j)
  | odd (p : List Int) (w : Nat) (h : payouts x = .ok p) (h0 : oddAt x s ≠ 0) (hw : w < x.cfg.numPlayers)
      (hd : dueAt x s w ≠ 0)
      (hf : ∀ i < x.cfg.numPlayers, dueAt x s i ≠ 0 → fromButton x.cfg.numPlayers x.button w ≤ fromButton x.cfg.numPlayers x.button i)
      (hp : ∀ j < x.cfg.numPlayers, received x p j = dueAt x s j + if w = j then oddAt x s else 0)

theorem showdown_paid {x : Dealer} {s : Nat → Int} (hd : Seated (atSeat x)) (hh : x.holeCards.length = x.cfg.numPlayers)
    (hpot : x.pot = x.potCommits.sum) (hpos : ∀ i < x.cfg.numPlayers, 0 ≤ contribution x i) (hr : Ranks x s)
    (hc : FoldsCovered x.cfg.numPlayers (inB x) (contribution x)) (hone : countTrue x.active ≠ 1)
    (hst : x.cfg.numStreets ≤ x.street) : Paid x s := by
  obtain ⟨T, hT1, hT2, hT3⟩ := evalHands_of_ranks hh hr
  have D : Deal x.cfg.numPlayers x.worstHand x.potCommits T (inB x) := deal_of (d := atSeat x) hd hpos hr hT2 hT3
  have hcongr : ∀ i < x.cfg.numPlayers, inB x i = true → s i = T.getD i 0 := by
    intro i hi ha
    rw [hT3 i hi, ha, if_pos rfl]
  have hbase : ∀ j < x.cfg.numPlayers,
      (baseList x.cfg.numPlayers x.worstHand (handList x.potCommits T)).getD j 0 = dueAt x s j := by
    intro j hj
    rw [base_due D hc j hj]
    exact (due_congr (c := contribution x) hcongr j).symm
  have hodd : oddSum x.cfg.numPlayers x.worstHand (handList x.potCommits T) = oddAt x s := by
    rw [odd_eq D hc]
    exact (odd_congr (c := contribution x) hcongr).symm
  have hcl : x.potCommits.length = x.cfg.numPlayers := hd.potCommits
  have f := showdown_facts (worst := x.worstHand) hT2 hcl D.pos
  have hpp := potPayouts_eq x.cfg.numPlayers x.button x.worstHand x.potCommits T (by rw [hT2, hcl]) D.pos
  have hev : evalRound x = potPayouts x.cfg.numPlayers x.button x.worstHand x.potCommits.sum x.potCommits T := by
    unfold evalRound evalHands
    rw [hT1, hpot]
  have hpay : ∀ q, evalRound x = .ok q → payouts x = .ok (List.zipWith (· - ·) q x.potCommits) := by
    intro q hq
    unfold payouts
    simp only []
    rw [if_neg hone, if_pos hst, hq]
  have hrec : ∀ q : List Int, q.length = x.cfg.numPlayers → ∀ j < x.cfg.numPlayers,
      received x (List.zipWith (· - ·) q x.potCommits) j = q.getD j 0 := by
    intro q hq j hj
    unfold received
    rw [getD_zipWith _ _ _ _ 0 0 _ (by omega) (by rw [hcl]; exact hj)]
    show q.getD j 0 - x.potCommits.getD j 0 + x.potCommits.getD j 0 = _
    ring
  rw [hpp, hodd] at hev
  by_cases h0 : oddAt x s = 0
  · rw [if_neg (by simpa using h0)] at hev
    refine .even _ (hpay _ hev) h0 fun j hj => ?_
    rw [hrec _ f.length j hj, hbase j hj]
  · rw [if_pos h0] at hev
    obtain ⟨i, -, t, -, hi, -⟩ := two_winners hc h0
    have hin : i < x.cfg.numPlayers := (winners_act hi).1
    have hdue : dueAt x s i ≠ 0 := (due_pos_iff hpos i).2 ⟨t, hi⟩
    obtain ⟨w, hw, hne, he, hf⟩ := oddChips_seat (button := x.button) (r := oddAt x s) f.length
      ⟨i, hin, by rw [hbase i hin]; exact hdue⟩
    rw [he] at hev
    refine .odd _ w (hpay _ hev) h0 hw (by rw [← hbase w hw]; exact hne) ?_ ?_
    · intro i hi hdi
      exact hf i hi (by rw [hbase i hi]; exact hdi)
    · intro j hj
      rw [hrec _ (by rw [List.length_modify, f.length]) j hj, getD_modify _ _ _ _ _ (by rw [f.length]; exact hj), hbase j hj]
      split
      · rfl
      · rw [add_zero]

/-- the first seat after the button, as long as the button has the number of a seat -/
theorem firstAfter_of {n b w : Nat} {p : Nat → Prop} (hb : b < n) (hw : w < n) (hp : p w)
    (hf : ∀ i < n, p i → fromButton n b w ≤ fromButton n b i) : FirstAfter n p b w := by
  unfold fromButton at hf
  by_cases hwb : w ≤ b
  · refine ⟨n + w - b, by omega, by omega, ?_, hp, ?_⟩
    · rw [show b + (n + w - b) = w + n by omega, Nat.add_mod_right, Nat.mod_eq_of_lt hw]
    · intro j h1 h2 hpj
      have hlt := Nat.mod_lt (b + j) (show 0 < n by omega)
      have h3 := hf _ hlt hpj
      rw [if_pos hwb] at h3
      by_cases h4 : b + j < n
      · rw [Nat.mod_eq_of_lt h4, if_neg (by omega)] at h3
        omega
      · rw [Nat.mod_eq_sub_mod (by omega), Nat.mod_eq_of_lt (by omega)] at h3
        split at h3 <;> omega
  · refine ⟨w - b, by omega, by omega, ?_, hp, ?_⟩
    · rw [show b + (w - b) = w by omega, Nat.mod_eq_of_lt hw]
    · intro j h1 h2 hpj
      rw [Nat.mod_eq_of_lt (by omega)] at hpj
      have h3 := hf _ (by omega) hpj
      rw [if_neg hwb, if_neg (by omega)] at h3
      omega

/-- a step that reaches the showdown -/
theorem step_showdown {S : List Int} {d d' : Dealer} {bet : PyNum} {res : Except Err StepOut} (h : ArrayInHand S d)
    (hn : NonNegative S d.cfg) (hz : SizesOk d.cfg) (hrun : Running d) (hs : step d bet = (d', res)) (hsh : AtShowdown d') :
    ∃ x, Seated (atSeat x) ∧ Sound S (atSeat x) ∧ x.holeCards.length = x.cfg.numPlayers ∧ x.pot = x.potCommits.sum ∧
      (∀ i < x.cfg.numPlayers, 0 ≤ contribution x i) ∧ countTrue x.active ≠ 1 ∧ x.cfg.numStreets ≤ x.street ∧
      d'.cfg = x.cfg ∧ d'.active = x.active ∧ d'.potCommits = x.potCommits ∧ d'.button = x.button ∧
      d'.holeCards = x.holeCards ∧ d'.communityCards = x.communityCards ∧ d'.street = x.street ∧
      ((∃ e, payouts x = .error e ∧ res = .error e ∧ d' = x) ∨
        ∃ obs p, payouts x = .ok p ∧ res = .ok (obs, p, done x) ∧ d' = x.settle p ∧ d'.action = none) := by
  obtain ⟨⟨a, ha⟩, hst⟩ := hrun
  have h2 : ∀ x : Dealer, x.active = d'.active → countTrue x.active ≠ 1 := by
    intro x hx h1
    have := hsh.2
    unfold numIn at this
    unfold countTrue at h1
    rw [hx] at h1
    omega
  cases step_cases h ha bet with
  | refused e h1 =>
    rw [h1] at hs
    obtain ⟨rfl, -⟩ := Prod.mk.inj hs
    have := hsh.1
    omega
  | stuck b c lo hi e x hb hbs hx hlx hp h1 =>
    rw [h1] at hs
    obtain ⟨rfl, rfl⟩ := Prod.mk.inj hs
    have hsd := (afterBet_sound_of h hn hz ha hb hbs hx).1
    exact ⟨x, hlx.seated, hsd, hlx.holeLen, hlx.pot, hsd.nn.contrib, h2 x rfl, hsh.1,
      rfl, rfl, rfl, rfl, rfl, rfl, rfl, .inl ⟨e, hp, rfl, rfl⟩⟩
  | goesOn b c lo hi p x obs hb hbs hx hlx hp hd ho h1 =>
    rw [h1] at hs
    obtain ⟨rfl, rfl⟩ := Prod.mk.inj hs
    exfalso
    rw [(done_all_iff x).2 (.inl hsh.1)] at hd
    simp at hd
  | ended b c lo hi p x obs hb hbs hx hlx hp hd ho h1 =>
    rw [h1] at hs
    obtain ⟨rfl, rfl⟩ := Prod.mk.inj hs
    have hsd := (afterBet_sound_of h hn hz ha hb hbs hx).1
    exact ⟨x, hlx.seated, hsd, hlx.holeLen, hlx.pot, hsd.nn.contrib, h2 x rfl, hsh.1,
      rfl, rfl, rfl, rfl, rfl, rfl, rfl, .inr ⟨obs, p, hp, rfl, rfl, rfl⟩⟩

end Clubs.Numpy

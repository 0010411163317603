import Verif.Props.Level
import Verif.Props.Ends

/-!
# Hands with equal antes and equal stacks: C18, C20 and C28
-/

namespace Clubs

open Spec

variable {S : List Int} {d d' : Dealer} {bet : PyNum}

theorem covers_of_deep {c : Config} (h : Deep S c) : Covers S c :=
  fun i hi => .inr fun j hj => by have := h i hi j hj; omega

/-- somebody who is in has chips, if not all but one are all in -/
theorem someone_has_chips (h : Seated d) (hc : d.allAllIn = false) : ∃ i < d.cfg.numPlayers, isIn d i ∧ stack d i ≠ 0 := by
  by_contra hno
  simp only [not_exists, not_and, not_not] at hno
  have : d.allAllIn = true := (allAllIn_iff h).2 fun i hi j hj hini _ h1 _ => absurd (hno i hi hini) h1
  rw [hc] at this
  simp at this

/-- on a new street everybody who is in has chips -/
theorem fresh_chips (hl : Level 0 d) (hlive : Live S d) (hS : EqualStart S) (hz : ∀ i < d.cfg.numPlayers, streetBet d i = 0)
    {j : Nat} (hj : j < d.cfg.numPlayers) (hinj : isIn d j) (hcj : stack d j ≠ 0) {i : Nat} (hi : i < d.cfg.numPlayers) :
    0 < stack d i ∨ ¬ isIn d i := by
  by_cases hini : isIn d i
  swap
  · exact .inr hini
  left
  obtain ⟨A, P, ht, hA⟩ := hl.top
  have h1 := hlive.money i hi
  have h2 := hlive.money j hj
  have h3 := hl.stack i hi
  have h4 := hl.stack j hj
  have h5 := ht.le i hi
  have h6 := ht.eq j hj hinj (by rw [hz j hj]; omega)
  have h7 := hA i hi j hj
  have h8 := hA j hj i hi
  have hSe : S.getD i 0 = S.getD j 0 :=
    hS _ ((mem_getD 0).2 ⟨i, by have := hlive.startLen; omega, rfl⟩) _ ((mem_getD 0).2 ⟨j, by have := hlive.startLen; omega, rfl⟩)
  unfold carried at h5 h6
  rw [hz i hi] at h5
  rw [hz j hj] at h6
  omega

/-- **C28**, complete for tables with equal antes at which all start with the same chips, more than ante and blind: the hand is played until
one player is left or all streets are dealt. -/
theorem C28_equal_start (h : InHand S d) (hn : NonNegative S d.cfg) (hdeep : Deep S d.cfg) (he : EqualAntes d.cfg) (hS : EqualStart S) :
    ¬ EndedEarly d := by
  have := inHand_induct (P := fun S d => NonNegative S d.cfg → Deep S d.cfg → EqualAntes d.cfg → EqualStart S →
      Level 0 d ∧ OptInv d ∧ d.allAgreed = false ∧ (d.street < d.cfg.numStreets → ∀ i < d.cfg.numPlayers, isIn d i → ¬ opt d i → 0 < stack d i))
    (fun d d' rb rs shuf obs hd hs hr hn hc he _ => ⟨level_dealt (le_refl 0) hd hr hn (covers_of_deep hc)
        (fun a ha b hb => by rw [he a ha b hb]; omega), dealt_optInv hd hr,
      dealt_not_agreed hd hr, fun _ i hi _ _ => dealt_deep hd hr hn hc i hi⟩)
    (fun S d fold b c lo up hin hl hst hc2 ih hb hn hdeep he hS => by
      rw [afterBet_cfg] at hn hdeep he
      obtain ⟨i1, i2, -, i3⟩ := ih hn hdeep he hS
      have hlev := level_step (fold := fold) (b := b) hin hl hst hc2 i1 hb hn (covers_of_deep hdeep)
      refine ⟨hlev, afterBet_optInv hl hc2 i2, afterBet_not_agreed hl hc2, ?_⟩
      intro hst2 i hi hisin hno
      generalize hx : cleanBet b c lo up = x at *
      have hlive := afterBet_live hl hst hc2 fold c x
      have hs := acted_seated hl.seated fold c x
      have hi' := hi
      rw [afterBet_cfg] at hi
      rcases afterBet_cases d fold c x with ⟨g1, g2⟩ | ⟨g1, g2⟩
      · rw [g2] at hisin hno ⊢
        obtain ⟨a, ha, hain⟩ := hl.action
        obtain ⟨a2, hmv⟩ := moveAction_spec (d := d.acted fold c x) hs.active (acted_count hl.seated ha hain hc2 fold c x)
        change isIn (d.acted fold c x) i at hisin
        have hno2 : ¬ opt (d.acted fold c x) i := by
          intro ho
          exact hno (moved_option_mono hmv (by rw [hs.streetOption]; exact hi) ho)
        have hnums := acted_nums hl.seated fold c x i hi
        unfold opt at hno2
        rw [hnums.2.2.2] at hno2
        by_cases hsi : d.seat = i
        · rw [if_pos hsi] at hno2; exact absurd rfl hno2
        · rw [if_neg hsi] at hno2
          show 0 < stack (d.acted fold c x) i
          rw [hnums.1, if_neg hsi]
          have := i3 hst i hi ((acted_isIn hl.seated fold c x i hi).1 hisin).1 hno2
          omega
      · have hst3 := hst2
        rw [g2] at hst2
        obtain ⟨f1, -, -, f4, f5, f6, -⟩ := nextStreet_fields (d.acted fold c x).moveAction
        have hns := nextStreet_street (d := (d.acted fold c x).moveAction) hst
        rw [hns, f4] at hst2
        have hnai : (d.acted fold c x).moveAction.allAllIn = false := by
          cases hxx : (d.acted fold c x).moveAction.allAllIn
          · rfl
          · rw [hxx] at hst2; simp at hst2
        obtain ⟨j, hj, hinj, hcj⟩ := someone_has_chips (moveAction_seated hs) hnai
        have e1 : isIn (d.afterBet fold c x) j := by rw [g2]; unfold isIn at hinj ⊢; rw [f5]; exact hinj
        have e2 : stack (d.afterBet fold c x) j ≠ 0 := by rw [g2]; unfold stack at hcj ⊢; rw [f6]; exact hcj
        refine (fresh_chips hlev hlive hS ?_ (j := j) (by rw [afterBet_cfg]; exact hj) e1 e2 hi').resolve_right (fun hh => hh hisin)
        intro k hk
        rw [afterBet_cfg] at hk
        rw [g2]
        unfold streetBet
        rw [f1]
        exact getD_replicate _ _ _ _ (by rw [f4]; exact hk)) h
  rintro ⟨hend, hnum, hst⟩
  rcases this with ⟨-, hl, -⟩ | ⟨e, p, rfl, hP, hl, hp, hd⟩
  · obtain ⟨a, h1, -⟩ := hl.action
    rw [hend] at h1; simp at h1
  · change 2 ≤ countTrue e.active at hnum
    change e.street < e.cfg.numStreets at hst
    obtain ⟨-, hopt, hna, hpos⟩ := hP hn hdeep he hS
    have hpos := hpos hst
    have hz : ∀ i < e.cfg.numPlayers, isIn e i → stack e i = 0 := by
      rcases (done_all_iff hl.seated).1 hd with h1 | h1 | h1
      · omega
      · omega
      · exact h1
    have hall : ∀ i < e.cfg.numPlayers, opt e i := by
      apply options_all hl.seated hl.one hopt
      intro i hi hin
      by_contra hno
      have := hpos i hi hin hno
      rw [hz i hi hin] at this
      omega
    have := (allAgreed_iff hl.seated).2 ⟨hall, fun i hi hin hne => absurd (hz i hi hin) hne⟩
    rw [hna] at this
    simp at this

/-- **C18**, complete for such tables: no step changes the number of chips. -/
theorem C18_equal_start (h : InHand S d) (hn : NonNegative S d.cfg) (hdeep : Deep S d.cfg) (he : EqualAntes d.cfg) (hS : EqualStart S)
    (bet : PyNum) : allChips (d.step bet).1 = allChips d := by
  refine C18_conserved_partial h hn bet fun hh => ?_
  exact C28_equal_start (InHand.step bet h) (by rw [step_cfg]; exact hn) (by rw [step_cfg]; exact hdeep) (by rw [step_cfg]; exact he) hS hh.2

/-- **C20**, complete for such tables: the payouts of a hand sum to zero. -/
theorem C20_equal_start (h : InHand S d) (hn : NonNegative S d.cfg) (hdeep : Deep S d.cfg) (he : EqualAntes d.cfg) (hS : EqualStart S)
    (ha : d.action ≠ none) {obs : Observation} {pays : List Int} {done : List Bool} (hr : (d.step bet).2 = .ok (obs, pays, done))
    (hend : (d.step bet).1.action = none) : pays.sum = 0 :=
  C20_zero_sum_partial h hn ha hr hend
    (C28_equal_start (InHand.step bet h) (by rw [step_cfg]; exact hn) (by rw [step_cfg]; exact hdeep) (by rw [step_cfg]; exact he) hS)

instance (S : List Int) (c : Config) : Decidable (Deep S c) := by unfold Deep; infer_instance

/-- a hand with three players in which all go all in on the first street -/
example : ∃ S d d' out, InHand S d ∧ Reachable d ∧ d.step (.fin 8) = (d', .ok out) ∧ NonNegative S d.cfg ∧ Deep S d.cfg ∧
    EqualAntes d.cfg ∧ EqualStart S ∧ d.action ≠ none ∧ d'.action = none ∧ numIn d' = 3 :=
  step_exists (small 3 [1, 2, 0] 10) [.bet 10, .bet 9] (.fin 8) (by decide +kernel)

end Clubs

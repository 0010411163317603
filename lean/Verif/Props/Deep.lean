import Verif.Props.EqualStart
import Verif.Props.Betting
import Verif.Props.Dealing

/-!
# Hands in which everybody starts with more than ante and blind: C30
-/

namespace Clubs

open Spec

variable {S : List Int} {d d' : Dealer} {bet : PyNum}

/-- somebody has put in the big blind -/
theorem someone_posted (h : InHand S d) (hn : NonNegative S d.cfg) (hdeep : Deep S d.cfg) (hbb : d.cfg.bigBlind = d.cfg.blinds.getD 1 0)
    (ha : d.action ≠ none) : d.cfg.bigBlind ≤ d.pot := by
  have := inHand_induct (P := fun S d => NonNegative S d.cfg → Deep S d.cfg → d.cfg.bigBlind = d.cfg.blinds.getD 1 0 →
      NN d ∧ ∃ i < d.cfg.numPlayers, d.cfg.bigBlind ≤ contribution d i)
    (fun d d' rb rs shuf obs hd hs hr hn hc hbb => by
      have hnn := dealt_nn hd hr hn
      have hcfg : d'.cfg = d.cfg := by have := reset_cfg d rb rs shuf; rwa [hr] at this
      have h2 := hd.two
      rw [hcfg] at hn hc hbb
      obtain ⟨i, hi, hb⟩ := C52_posted_partial hd hr (fun i hi j hj => by
        have h1 := hc i hi j hj
        have h3 := list_getD_nonneg hn.antes j
        have h4 := list_getD_nonneg hn.blinds j
        omega) 1 (by omega)
      refine ⟨hnn, i, by rw [hcfg]; exact hi, ?_⟩
      have := hnn.street i (by rw [hcfg]; exact hi)
      rw [hcfg, hbb, ← hb]
      exact this)
    (fun S d fold b c lo up hin hl hst hc2 ih hb hn hdeep hbb => by
      rw [afterBet_cfg] at hn hdeep hbb ⊢
      obtain ⟨i1, i, hi, i2⟩ := ih hn hdeep hbb
      obtain ⟨a, ha, -⟩ := hl.action
      obtain ⟨j1, -, j3⟩ := covered_of_inHand hin hn (covers_of_deep hdeep) (by rw [ha]; simp)
      refine ⟨afterBet_nn hl hn.start hc2 j1 hb, i, hi, ?_⟩
      rw [(contribution_afterBet hl.seated fold c (cleanBet b c lo up) i hi).1]
      have h5 := betOf_nonneg (b := b) hl.seated (nn_pot hl j1) hb fold
      have h6 := j3 d.seat (seat_lt hl.seated)
      split <;> omega) h
  rcases this with ⟨h1, hl, -⟩ | ⟨e, p, rfl, -⟩
  · obtain ⟨hnn, i, hi, h2⟩ := h1 hn hdeep hbb
    rw [hl.pot]
    refine h2.trans ?_
    unfold contribution
    rw [getD_eq _ _ _ (by rw [hl.seated.potCommits]; exact hi)]
    refine List.single_le_sum (fun x hx => ?_) _ (List.getElem_mem _)
    obtain ⟨j, hj, rfl⟩ := List.getElem_of_mem hx
    have := hnn.contrib j (by rw [← hl.seated.potCommits]; exact hj)
    unfold contribution at this
    rwa [getD_eq _ _ _ hj] at this
  · exact absurd rfl ha

/-- **C30**, complete for hands in which everybody starts with more than ante and blind, whatever the betting limit: the smallest raise is at
most the largest, so `random.randint(min_raise, max_raise)` finds an integer. -/
theorem C30_deep {obs : Observation} (h : InHand S d) (hn : NonNegative S d.cfg) (hdeep : Deep S d.cfg)
    (hbb : d.cfg.bigBlind = d.cfg.blinds.getD 1 0) (ha : d.action ≠ none) (hsh : Shows d obs) : obs.minRaise ≤ obs.maxRaise := by
  obtain ⟨a, ha'⟩ := Option.ne_none_iff_exists'.1 ha
  exact C30_pot_partial h hn (covers_of_deep hdeep) ha' hsh (someone_posted h hn hdeep hbb ha)

/-- a pot-limit hand that meets the hypotheses -/
example : ∃ S d obs, InHand S d ∧ NonNegative S d.cfg ∧ Deep S d.cfg ∧ d.cfg.bigBlind = d.cfg.blinds.getD 1 0 ∧ d.action ≠ none ∧
    Shows d obs ∧ obs.minRaise = 11 ∧ obs.maxRaise = 22 := by
  obtain ⟨S, d, obs, h1, -, h2, h3⟩ := played_exists (a := limit 3 [1, 2, 0] 40 (.scalar .pot) (.scalar .inf)) (cs := [.bet 7])
    (f := fun S d obs => nonNegB S d && (decide (Deep S d.cfg) && (decide (d.cfg.bigBlind = d.cfg.blinds.getD 1 0) &&
      (decide (d.action ≠ none) && (decide (obs.minRaise = 11) && decide (obs.maxRaise = 22)))))) (by decide +kernel)
  simp only [Bool.and_eq_true, decide_eq_true_eq] at h3
  obtain ⟨a0, a1, a2, a3, a4, a5⟩ := h3
  exact ⟨S, d, obs, h1, nonNegB_iff a0, a1, a2, a3, h2, a4, a5⟩

end Clubs

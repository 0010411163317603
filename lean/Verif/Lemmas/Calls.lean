import Verif.Lemmas.Terminate
import Verif.Spec.Calls

/-! # Hands in which everybody only calls -/

namespace Clubs

open Spec

variable {S : List Int} {d0 d : Dealer} {a : Nat} {c lo up : Int}

theorem cleanBet_self (hc : 0 ≤ c) : cleanBet c c lo up = c := by
  have := cleanBet_cases c c lo up
  rw [max_eq_right hc] at this
  simp only [abs_eq_max_neg] at this
  rcases this with h1 | h1 | h1 | h1 <;> omega

/-- the table `d` in a hand that began with `d0` -/
structure Calling (S : List Int) (d0 d : Dealer) : Prop where
  cfg : d.cfg = d0.cfg
  active : d.active = d0.active
  first : d.street = 0 → pyMax d.streetCommits = pyMax d0.streetCommits ∧ ∀ i < d.cfg.numPlayers, isIn d i →
    streetBet d i - streetBet d0 i = contribution d i - contribution d0 i ∧
    ((¬ opt d i ∧ contribution d i = contribution d0 i) ∨ contribution d i = answered S d0 i)
  later : 1 ≤ d.street → pyMax d.streetCommits = 0 ∧ ∀ i < d.cfg.numPlayers, isIn d i →
    streetBet d i = 0 ∧ contribution d i = answered S d0 i

theorem calling_start (h0 : ∀ i < d0.cfg.numPlayers, isIn d0 i → ¬ opt d0 i) (hs : d0.street = 0) : Calling S d0 d0 where
  cfg := rfl
  active := rfl
  first _ := ⟨rfl, fun i hi hin => ⟨by omega, .inl ⟨h0 i hi hin, rfl⟩⟩⟩
  later h := by omega

theorem afterBet_calling (hl : Live S d) (hc2 : 2 ≤ countTrue d.active) (ha : d.action = some a) (hs0 : 0 ≤ stack d a)
    (hc : c = min (toCall d a) (stack d a)) (hst : d.street < d.cfg.numStreets) (h : Calling S d0 d) :
    Calling S d0 (d.afterBet false c c) := by
  have hd := hl.seated
  have halt := hd.action a ha
  have hseat := seat_some ha
  obtain ⟨a0, ha0, hain⟩ := hl.action
  obtain rfl : a = a0 := by rw [ha] at ha0; simpa using ha0
  have hc0 : 0 ≤ toCall d a := by have := call_nonneg hd; rw [hseat] at this; exact this
  have hnums := acted_nums hd false c c
  have hbet : betOf false c c = c := by unfold betOf; rw [if_neg (by simp)]
  have hsd := acted_seated hd false c c
  have hcnt := acted_count hd ha hain hc2 false c c
  obtain ⟨a2, hmv⟩ := moveAction_spec (d := d.acted false c c) hsd.active hcnt
  have hact : (d.acted false c c).active = d.active := by
    unfold Dealer.acted
    simp only []
    rw [if_neg (by simp)]
  rw [hseat, hbet, min_eq_right (show c ≤ stack d a by omega)] at hnums
  have hopts : ∀ i < d.cfg.numPlayers, isIn d i → (opt (d.acted false c c).moveAction i ↔ a = i ∨ opt d i) := by
    intro i hi hin
    have hin2 : isIn (d.acted false c c) i := by unfold isIn; rw [hact]; exact hin
    unfold opt
    rw [moved_option hmv (by rw [hsd.streetOption]; exact hi) hin2, (hnums i hi).2.2.2]
    by_cases hai : a = i
    · simp [hai]
    · simp [hai]
  have hld : d.streetCommits.length = d.cfg.numPlayers := hd.streetCommits
  have hmaxd : ∀ i < d.cfg.numPlayers, streetBet d i ≤ pyMax d.streetCommits := fun i hi => pyMax_getD (by rw [hld]; exact hi)
  -- the highest bet stays
  have hmax : pyMax (d.acted false c c).streetCommits = pyMax d.streetCommits := by
    have hlx : (d.acted false c c).streetCommits.length = d.cfg.numPlayers := hsd.streetCommits
    obtain ⟨md, hmd, emd⟩ := (mem_getD 0).1 (pyMax_mem (l := d.streetCommits) (by intro h; rw [h] at hld; simp at hld; omega))
    obtain ⟨mx, hmx, emx⟩ := (mem_getD 0).1 (pyMax_mem (l := (d.acted false c c).streetCommits) (by intro h; rw [h] at hlx; simp at hlx; omega))
    rw [hld] at hmd
    rw [hlx] at hmx
    have emd : streetBet d md = pyMax d.streetCommits := emd
    have emx : streetBet (d.acted false c c) mx = pyMax (d.acted false c c).streetCommits := emx
    apply le_antisymm
    · rw [← emx, (hnums mx hmx).2.2.1]
      have := hmaxd mx hmx
      unfold toCall at hc
      split
      · next h => subst h; omega
      · omega
    · rw [← emd]
      have h1 : streetBet (d.acted false c c) md ≤ _ := pyMax_getD (l := (d.acted false c c).streetCommits) (i := md) (by rw [hlx]; exact hmd)
      rw [(hnums md hmd).2.2.1] at h1
      split at h1 <;> omega
  -- what the player who called has in
  have hself : contribution (d.acted false c c) a = answered S d0 a ∧
      (1 ≤ d.street → c = 0) := by
    have hm := hl.money a halt
    have h1 := (hnums a halt).2.1
    rw [if_pos rfl] at h1
    unfold answered
    by_cases hst0 : d.street = 0
    · obtain ⟨f1, f2⟩ := h.first hst0
      obtain ⟨f3, -⟩ := f2 a halt hain
      refine ⟨?_, by omega⟩
      unfold toCall at hc ⊢
      omega
    · obtain ⟨f1, f2⟩ := h.later (by omega)
      obtain ⟨f3, f4⟩ := f2 a halt hain
      have : c = 0 := by unfold toCall at hc; omega
      refine ⟨?_, fun _ => this⟩
      unfold answered at f4
      omega
  have hothers : ∀ i < d.cfg.numPlayers, a ≠ i → contribution (d.acted false c c) i = contribution d i ∧
      streetBet (d.acted false c c) i = streetBet d i := by
    intro i hi hai
    have h1 := hnums i hi
    simp only [if_neg hai] at h1
    exact ⟨by omega, by omega⟩
  have hbeta := (hnums a halt).2.2.1
  have hcona := (hnums a halt).2.1
  rw [if_pos rfl] at hbeta hcona
  rcases afterBet_cases d false c c with ⟨h1, h2⟩ | ⟨h1, h2⟩
  · rw [h2]
    have hstr : (d.acted false c c).moveAction.street = d.street := rfl
    have hcfg : (d.acted false c c).moveAction.cfg = d.cfg := rfl
    have hisIn : ∀ i, isIn (d.acted false c c).moveAction i → isIn d i := by
      intro i hi
      unfold isIn at hi ⊢
      rw [show (d.acted false c c).moveAction.active = d.active from hact] at hi
      exact hi
    have hcon : ∀ i, contribution (d.acted false c c).moveAction i = contribution (d.acted false c c) i := fun _ => rfl
    have hsb : ∀ i, streetBet (d.acted false c c).moveAction i = streetBet (d.acted false c c) i := fun _ => rfl
    have hmx : pyMax (d.acted false c c).moveAction.streetCommits = pyMax d.streetCommits := hmax
    refine ⟨h.cfg, hact.trans h.active, ?_, ?_⟩
    · intro hst0
      rw [hstr] at hst0
      obtain ⟨f1, f2⟩ := h.first hst0
      refine ⟨hmx.trans f1, ?_⟩
      intro i hi hin
      rw [hcfg] at hi
      have hind := hisIn i hin
      obtain ⟨f3, f4⟩ := f2 i hi hind
      rw [hcon, hsb]
      by_cases hai : a = i
      · subst hai
        exact ⟨by omega, .inr hself.1⟩
      · obtain ⟨o1, o2⟩ := hothers i hi hai
        rw [o1, o2, hopts i hi hind]
        refine ⟨f3, f4.imp (fun h => ⟨?_, h.2⟩) id⟩
        rintro (h3 | h3)
        · exact hai h3
        · exact h.1 h3
    · intro hst1
      rw [hstr] at hst1
      obtain ⟨f1, f2⟩ := h.later hst1
      refine ⟨hmx.trans f1, ?_⟩
      intro i hi hin
      rw [hcfg] at hi
      obtain ⟨f3, f4⟩ := f2 i hi (hisIn i hin)
      rw [hcon, hsb]
      by_cases hai : a = i
      · subst hai
        have := hself.2 hst1
        exact ⟨by omega, hself.1⟩
      · obtain ⟨o1, o2⟩ := hothers i hi hai
        rw [o1, o2]
        exact ⟨f3, f4⟩
  · have hsM := moveAction_seated hsd
    obtain ⟨g1, -, -, g4, g5, -, g7, -⟩ := nextStreet_fields (d.acted false c c).moveAction
    have hlt : 1 ≤ (d.acted false c c).moveAction.nextStreet.street := by
      rw [nextStreet_street (show (d.acted false c c).moveAction.street < _ from hst)]
      split
      · exact hl.oneStreet
      · omega
    rw [h2]
    have hcfg : (d.acted false c c).moveAction.nextStreet.cfg = d.cfg := g4
    refine ⟨hcfg.trans h.cfg, by rw [g5]; exact hact.trans h.active, by omega, fun _ => ?_⟩
    rw [g1, hcfg]
    refine ⟨?_, ?_⟩
    · have hn : d.cfg.numPlayers ≠ 0 := by omega
      have := pyMax_mem (l := List.replicate d.cfg.numPlayers (0 : Int)) (by simp [hn])
      exact (List.mem_replicate.1 this).2
    · intro i hi hin
      have hind : isIn d i := by
        unfold isIn at hin ⊢
        rw [g5, show (d.acted false c c).moveAction.active = d.active from hact] at hin
        exact hin
      have hsb : streetBet (d.acted false c c).moveAction.nextStreet i = 0 := by
        unfold streetBet
        rw [g1, hcfg]
        simp [List.getD_eq_getElem?_getD, hi]
      have hcon : contribution (d.acted false c c).moveAction.nextStreet i = contribution (d.acted false c c) i := by
        unfold contribution
        rw [g7]
        rfl
      refine ⟨hsb, ?_⟩
      rw [hcon]
      by_cases hai : a = i
      · subst hai; exact hself.1
      · rw [(hothers i hi hai).1]
        by_cases hst0 : d.street = 0
        · obtain ⟨-, f2⟩ := h.first hst0
          obtain ⟨-, f4⟩ := f2 i hi hind
          have hop := ((allAgreed_iff hsM).1 h1).1 i hi
          rw [hopts i hi hind] at hop
          rcases f4 with f4 | f4
          · rcases hop with h3 | h3
            · exact absurd h3 hai
            · exact absurd h3 f4.1
          · exact f4
        · exact ((h.later (by omega)).2 i hi hind).2

end Clubs

import Verif.Lemmas.Terminate
import Mathlib.Data.Int.ModEq

/-! # Who has answered the last raise -/

namespace Clubs

open Spec

/-- The `k` seats from `s` on have settled, the next one is to act, and it and those behind it have not yet had a turn, have not
put in as much as others, or have no chips. -/
structure Ring (d : Dealer) (s k : Nat) : Prop where
  lt : k < d.cfg.numPlayers
  seat : d.seat = (s + k) % d.cfg.numPlayers
  settled : ∀ j < k, unsat d ((s + j) % d.cfg.numPlayers) = false
  waiting : ∀ j, k ≤ j → j < d.cfg.numPlayers → isIn d ((s + j) % d.cfg.numPlayers) → stack d ((s + j) % d.cfg.numPlayers) ≠ 0 →
    ¬ opt d ((s + j) % d.cfg.numPlayers) ∨ streetBet d ((s + j) % d.cfg.numPlayers) < pyMax d.streetCommits

variable {S : List Int} {d : Dealer} {a s k : Nat} {fold : Bool} {b c lo up : Int}

/-- all seats lie on the ring -/
theorem ring_all {n s : Nat} {p : Nat → Prop} {m : Nat} (hm : n ≤ m) (h : ∀ j < m, p ((s + j) % n)) : ∀ i < n, p i := by
  intro i hi
  obtain ⟨j, j1, j2, j3⟩ := round_reach (s := s) hi
  by_cases hj : j = n
  · have := h 0 (by omega)
    subst hj
    rw [Nat.add_mod_right] at j3
    rw [Nat.add_zero, j3] at this
    exact this
  · have := h j (by omega)
    rw [j3] at this
    exact this

/-- How a bet that does not end the street changes who has settled. -/
theorem acted_ring (hl : Live S d) (hc2 : 2 ≤ countTrue d.active) (hp0 : 0 ≤ d.pot) (ho : OptInv d) (ha : d.action = some a)
    (hs0 : 0 ≤ stack d a) (hb : d.betSizes = .ok (c, lo, up)) (hst : d.street < d.cfg.numStreets)
    (hna : (d.acted fold c (cleanBet b c lo up)).moveAction.allAgreed = false) (hr : Ring d s k) :
    d.pot ≤ (d.acted fold c (cleanBet b c lo up)).moveAction.pot ∧
    (∀ i < d.cfg.numPlayers, isIn (d.acted fold c (cleanBet b c lo up)).moveAction i →
      isIn d i ∧ (opt (d.acted fold c (cleanBet b c lo up)).moveAction i ↔ a = i ∨ opt d i)) ∧ ∃ t, 1 ≤ t ∧
      ((min (stack d a) (betOf fold c (cleanBet b c lo up)) ≤ min (toCall d a) (stack d a) ∧
        Ring (d.acted fold c (cleanBet b c lo up)).moveAction s (k + t)) ∨
      (min (toCall d a) (stack d a) < min (stack d a) (betOf fold c (cleanBet b c lo up)) ∧
        d.pot < (d.acted fold c (cleanBet b c lo up)).moveAction.pot ∧
        Ring (d.acted fold c (cleanBet b c lo up)).moveAction a t)) := by
  have hd := hl.seated
  have hseat := seat_some ha
  have halt := hd.action a ha
  obtain ⟨a0, ha0, hain⟩ := hl.action
  obtain rfl : a = a0 := by rw [ha] at ha0; simpa using ha0
  have hsd := acted_seated hd fold c (cleanBet b c lo up)
  have hcnt := acted_count hd ha0 hain hc2 fold c (cleanBet b c lo up)
  obtain ⟨a2, hmv⟩ := moveAction_spec (d := d.acted fold c (cleanBet b c lo up)) hsd.active hcnt
  have hx0 := betOf_nonneg (b := b) hd hp0 hb fold
  have hcall : c = min (toCall d a) (stack d a) := by
    obtain ⟨rs, nr, -, -, h1, -⟩ := betSizes_spec hb
    rw [hseat] at h1; exact h1
  have hc0 : 0 ≤ toCall d a := by have := call_nonneg hd; rw [hseat] at this; exact this
  have hnums := acted_nums hd fold c (cleanBet b c lo up)
  have hsM := moveAction_seated hsd
  have hunsat := exists_unsat_of (S := S) (d := d.afterBet fold c (cleanBet b c lo up)) (afterBet_live hl hst hc2 _ _ _)
    (by rcases afterBet_cases d fold c (cleanBet b c lo up) with ⟨h1, h2⟩ | ⟨h1, -⟩
        · rw [h2]; exact h1
        · rw [hna] at h1; cases h1) (afterBet_optInv hl hc2 ho)
  have hafter : d.afterBet fold c (cleanBet b c lo up) = (d.acted fold c (cleanBet b c lo up)).moveAction := by
    rcases afterBet_cases d fold c (cleanBet b c lo up) with ⟨h1, h2⟩ | ⟨h1, -⟩
    · exact h2
    · rw [hna] at h1; cases h1
  rw [hafter] at hunsat
  have hpot : (d.acted fold c (cleanBet b c lo up)).moveAction.pot = d.pot + min (stack d d.seat) (betOf fold c (cleanBet b c lo up)) := rfl
  have hins : ∀ i < d.cfg.numPlayers, (isIn (d.acted fold c (cleanBet b c lo up)).moveAction i ↔
      isIn d i ∧ ¬ (a = i ∧ c ≠ 0 ∧ (cleanBet b c lo up < c ∨ fold = true))) := by
    intro i hi
    have := acted_isIn hd fold c (cleanBet b c lo up) i hi
    rw [hseat] at this
    exact this
  have hopts : ∀ i < d.cfg.numPlayers, isIn (d.acted fold c (cleanBet b c lo up)).moveAction i →
      (opt (d.acted fold c (cleanBet b c lo up)).moveAction i ↔ a = i ∨ opt d i) := by
    intro i hi hin
    unfold opt
    rw [moved_option hmv (by rw [hsd.streetOption]; exact hi) hin, (hnums i hi).2.2.2, hseat]
    by_cases hai : a = i
    · simp [hai]
    · simp [hai]
  have hstk : ∀ i < d.cfg.numPlayers, stack (d.acted fold c (cleanBet b c lo up)).moveAction i =
      stack d i - (if a = i then min (stack d a) (betOf fold c (cleanBet b c lo up)) else 0) := by
    intro i hi
    have := (hnums i hi).1
    rw [hseat] at this
    exact this
  have hbets : ∀ i < d.cfg.numPlayers, streetBet (d.acted fold c (cleanBet b c lo up)).moveAction i =
      streetBet d i + (if a = i then min (stack d a) (betOf fold c (cleanBet b c lo up)) else 0) := by
    intro i hi
    have := (hnums i hi).2.2.1
    rw [hseat] at this
    exact this
  obtain ⟨t, t1, t2, t3, t4, -⟩ := hmv.between
  have hcfg : (d.acted fold c (cleanBet b c lo up)).moveAction.cfg = d.cfg := rfl
  have hcfg' : (d.acted fold c (cleanBet b c lo up)).cfg = d.cfg := rfl
  rw [hcfg'] at t2 t3 t4
  rw [acted_seat, hseat] at t3 t4
  have t4' : ∀ j, 1 ≤ j → j < t → ¬ isIn (d.acted fold c (cleanBet b c lo up)).moveAction ((a + j) % d.cfg.numPlayers) := t4
  have hs2 : (d.acted fold c (cleanBet b c lo up)).moveAction.seat = (a + t) % d.cfg.numPlayers := by
    rw [← t3]
    apply seat_some
    rw [hmv.eq]
  rw [hseat] at hpot
  have hfoldy : betOf fold c (cleanBet b c lo up) = if c ≠ 0 ∧ (cleanBet b c lo up < c ∨ fold = true) then 0 else cleanBet b c lo up := rfl
  generalize hx : (d.acted fold c (cleanBet b c lo up)).moveAction = x at *
  generalize cleanBet b c lo up = z at *
  generalize betOf fold c z = y at *
  clear hx
  have hy0 : 0 ≤ min (stack d a) y := by omega
  have hnpos : 0 < d.cfg.numPlayers := by omega
  have hlx : x.streetCommits.length = d.cfg.numPlayers := by rw [hsM.streetCommits, hcfg]
  have hld : d.streetCommits.length = d.cfg.numPlayers := hd.streetCommits
  have hmaxd : ∀ i < d.cfg.numPlayers, streetBet d i ≤ pyMax d.streetCommits := fun i hi => pyMax_getD (by rw [hld]; exact hi)
  have hmaxx : ∀ i < d.cfg.numPlayers, streetBet x i ≤ pyMax x.streetCommits := fun i hi => pyMax_getD (by rw [hlx]; exact hi)
  obtain ⟨md, hmd, emd⟩ := (mem_getD 0).1 (pyMax_mem (l := d.streetCommits) (by intro h; rw [h] at hld; simp at hld; omega))
  obtain ⟨mx, hmx, emx⟩ := (mem_getD 0).1 (pyMax_mem (l := x.streetCommits) (by intro h; rw [h] at hlx; simp at hlx; omega))
  rw [hld] at hmd
  rw [hlx] at hmx
  have emd : streetBet d md = pyMax d.streetCommits := emd
  have emx : streetBet x mx = pyMax x.streetCommits := emx
  have hba := hbets a halt
  have hsa := hstk a halt
  rw [if_pos rfl] at hba hsa
  refine ⟨by rw [hpot]; omega, fun i hi hin => ⟨((hins i hi).1 hin).1, hopts i hi hin⟩, t, t1, ?_⟩
  -- the seat that acted has settled
  have hself : unsat x a = false := by
    rw [← Bool.not_eq_true, unsat_iff]
    rintro ⟨h1, h2⟩
    have h3 := (hins a halt).1 h1
    have h4 : ¬ (c ≠ 0 ∧ (z < c ∨ fold = true)) := fun h => h3.2 ⟨rfl, h⟩
    rw [if_neg h4] at hfoldy
    rcases h2 with h2 | ⟨h2, h5⟩
    · exact h2 ((hopts a halt h1).2 (.inl rfl))
    · have k1 := hmaxx a halt
      have k2 : streetBet x mx = streetBet d mx ∨ mx = a := by
        by_cases hm : a = mx
        · exact .inr hm.symm
        · left; rw [hbets mx hmx, if_neg hm]; omega
      rcases k2 with k2 | rfl
      · have k3 := hmaxd mx hmx
        unfold toCall at hcall hc0
        omega
      · exact h5 emx
  have hpass : ∀ j, j < t → unsat x ((a + j) % d.cfg.numPlayers) = false := by
    intro j hj
    by_cases hj0 : j = 0
    · rw [hj0, Nat.add_zero, Nat.mod_eq_of_lt halt]; exact hself
    · rw [← Bool.not_eq_true, unsat_iff]
      rintro ⟨h1, -⟩
      exact t4' j (by omega) hj h1
  by_cases hraise : pyMax d.streetCommits < streetBet d a + min (stack d a) y
  · right
    have hmax : pyMax d.streetCommits < pyMax x.streetCommits := by
      have := hmaxx a halt
      omega
    have htn : t < d.cfg.numPlayers := by
      by_contra hcon
      obtain ⟨u, hu, hu2⟩ := hunsat
      rw [hcfg] at hu
      have := ring_all (p := fun i => unsat x i = false) (m := t) (s := a) (n := d.cfg.numPlayers) (by omega) hpass u hu
      rw [this] at hu2; cases hu2
    have h1 := hmaxd a halt
    refine ⟨by unfold toCall; omega, by rw [hpot]; omega, ⟨by rw [hcfg]; exact htn, by rw [hcfg]; exact hs2, ?_, ?_⟩⟩
    · rw [hcfg]; exact hpass
    · rw [hcfg]
      intro j hj1 hj2 hin hne
      right
      have hi : (a + j) % d.cfg.numPlayers < d.cfg.numPlayers := Nat.mod_lt _ hnpos
      have hne2 : a ≠ (a + j) % d.cfg.numPlayers := by
        intro h
        have h3 : (a + j) % d.cfg.numPlayers = a % d.cfg.numPlayers := by rw [← h, Nat.mod_eq_of_lt halt]
        have h4 : Nat.ModEq d.cfg.numPlayers (a + j) (a + 0) := h3
        have h5 := Nat.ModEq.add_left_cancel' a h4
        have h6 : j % d.cfg.numPlayers = 0 := by simpa [Nat.ModEq] using h5
        rw [Nat.mod_eq_of_lt hj2] at h6
        omega
      rw [hbets _ hi, if_neg hne2]
      have := hmaxd _ hi
      omega
  · left
    have hmax : pyMax x.streetCommits = pyMax d.streetCommits := by
      apply le_antisymm
      · rw [← emx, hbets mx hmx]
        have := hmaxd mx hmx
        split
        · next h => rw [← h]; omega
        · omega
      · rw [← emd]
        have h1 := hmaxx md hmd
        rw [hbets md hmd] at h1
        split at h1 <;> omega
    have hak : a = (s + k) % d.cfg.numPlayers := by rw [← hseat]; exact hr.seat
    have hsett : ∀ j < k + t, unsat x ((s + j) % d.cfg.numPlayers) = false := by
      intro j hj
      by_cases hjk : j < k
      · have hi : (s + j) % d.cfg.numPlayers < d.cfg.numPlayers := Nat.mod_lt _ hnpos
        by_cases hai : a = (s + j) % d.cfg.numPlayers
        · rw [← hai]; exact hself
        · have h1 := hr.settled j hjk
          rw [← Bool.not_eq_true, unsat_iff] at h1 ⊢
          rintro ⟨h2, h3⟩
          apply h1
          refine ⟨((hins _ hi).1 h2).1, ?_⟩
          rw [hopts _ hi h2, hstk _ hi, hbets _ hi, if_neg hai, hmax] at h3
          rcases h3 with h3 | h3
          · exact .inl fun h4 => h3 (.inr h4)
          · right
            simpa using h3
      · have h1 := hpass (j - k) (by omega)
        rw [hak, Nat.mod_add_mod, show s + k + (j - k) = s + j by omega] at h1
        exact h1
    have htn : k + t < d.cfg.numPlayers := by
      by_contra hcon
      obtain ⟨u, hu, hu2⟩ := hunsat
      rw [hcfg] at hu
      have := ring_all (p := fun i => unsat x i = false) (m := k + t) (s := s) (n := d.cfg.numPlayers) (by omega) hsett u hu
      rw [this] at hu2; cases hu2
    refine ⟨by unfold toCall; omega, ⟨by rw [hcfg]; exact htn, ?_, by rw [hcfg]; exact hsett, ?_⟩⟩
    · rw [hcfg, hs2, hak, Nat.mod_add_mod, Nat.add_assoc]
    · rw [hcfg]
      intro j hj1 hj2 hin hne
      have hi : (s + j) % d.cfg.numPlayers < d.cfg.numPlayers := Nat.mod_lt _ hnpos
      have hai : a ≠ (s + j) % d.cfg.numPlayers := by
        intro h
        have h4 : Nat.ModEq d.cfg.numPlayers (s + j) (s + k) := by
          show (s + j) % _ = (s + k) % _
          rw [← h, hak]
        have h5 : j % d.cfg.numPlayers = k % d.cfg.numPlayers := Nat.ModEq.add_left_cancel' s h4
        rw [Nat.mod_eq_of_lt hj2, Nat.mod_eq_of_lt hr.lt] at h5
        omega
      rw [hstk _ hi, if_neg hai] at hne
      have h1 := hr.waiting j (by omega) hj2 ((hins _ hi).1 hin).1 (by omega)
      rw [hopts _ hi hin, hbets _ hi, if_neg hai, hmax]
      rcases h1 with h1 | h1
      · left
        rintro (h2 | h2)
        · exact hai h2
        · exact h1 h2
      · right; omega

end Clubs

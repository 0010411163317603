import Verif.Lemmas.Trace

/-! # Every hand makes progress -/

namespace Clubs

open Spec

/-- somebody who is in and has not had a turn, or has not matched the bets although they have chips -/
def unsat (d : Dealer) (i : Nat) : Bool :=
  d.active.getD i false && (!(d.streetOption.getD i false) ||
    (decide (stack d i ≠ 0) && decide (streetBet d i ≠ pyMax d.streetCommits)))

theorem unsat_iff {d : Dealer} {i : Nat} :
    unsat d i = true ↔ isIn d i ∧ (¬ opt d i ∨ (stack d i ≠ 0 ∧ streetBet d i ≠ pyMax d.streetCommits)) := by
  unfold unsat isIn opt
  cases d.active.getD i false <;> cases d.streetOption.getD i false <;> simp

theorem exists_unsat_of {S : List Int} {d : Dealer} (hl : Live S d) (hna : d.allAgreed = false) (hopt : OptInv d) :
    ∃ i < d.cfg.numPlayers, unsat d i = true := by
  by_contra hcon
  have key : ∀ i < d.cfg.numPlayers, isIn d i → opt d i ∧ (stack d i ≠ 0 → streetBet d i = pyMax d.streetCommits) := by
    intro i hi hin
    have h1 : ¬ unsat d i = true := fun h2 => hcon ⟨i, hi, h2⟩
    rw [unsat_iff] at h1
    constructor
    · by_contra h2; exact h1 ⟨hin, .inl h2⟩
    · intro h2; by_contra h3; exact h1 ⟨hin, .inr ⟨h2, h3⟩⟩
  have := (allAgreed_iff hl.seated).2 ⟨options_all hl.seated hl.one hopt fun i hi hin => (key i hi hin).1,
    fun i hi hin => (key i hi hin).2⟩
  rw [hna] at this; simp at this

theorem exists_unsat {S : List Int} {d : Dealer} {a : Nat} (h : InHand S d) (ha : d.action = some a) :
    ∃ i < d.cfg.numPlayers, unsat d i = true :=
  exists_unsat_of (live_of_action h ha).1 (notAgreed_of_inHand h (by rw [ha]; simp)) (optInv_of_inHand h)

def streetsLeft (d : Dealer) : Nat := d.cfg.numStreets - d.street
def chipsLeft (d : Dealer) : Nat := ((List.range d.cfg.numPlayers).map fun i => (stack d i).natAbs).sum
def unsatCount (d : Dealer) : Nat := ((List.range d.cfg.numPlayers).map fun i => if unsat d i then 1 else 0).sum
def unsatDist (d : Dealer) : Nat := (List.range d.cfg.numPlayers).findIdx fun k => unsat d ((d.seat + k) % d.cfg.numPlayers)

/-- what goes down with every step -/
def progressOf (d : Dealer) : Nat × Nat × Nat × Nat × Nat :=
  (streetsLeft d, countTrue d.active, chipsLeft d, unsatCount d, unsatDist d)

/-- the order on it -/
def Less (p q : Nat × Nat × Nat × Nat × Nat) : Prop :=
  Prod.Lex (· < ·) (Prod.Lex (· < ·) (Prod.Lex (· < ·) (Prod.Lex (· < ·) (· < ·)))) p q

theorem less_wf : WellFounded Less :=
  WellFounded.prod_lex Nat.lt_wfRel.wf (WellFounded.prod_lex Nat.lt_wfRel.wf (WellFounded.prod_lex Nat.lt_wfRel.wf
    (WellFounded.prod_lex Nat.lt_wfRel.wf Nat.lt_wfRel.wf)))

theorem less_of {a b c e f a' b' c' e' f' : Nat}
    (h : a' < a ∨ a' = a ∧ (b' < b ∨ b' = b ∧ (c' < c ∨ c' = c ∧ (e' < e ∨ e' = e ∧ f' < f)))) :
    Less (a', b', c', e', f') (a, b, c, e, f) := by
  unfold Less
  rcases h with h | ⟨rfl, h | ⟨rfl, h | ⟨rfl, h | ⟨rfl, h⟩⟩⟩⟩
  · exact .left _ _ h
  · exact .right _ (.left _ _ h)
  · exact .right _ (.right _ (.left _ _ h))
  · exact .right _ (.right _ (.right _ (.left _ _ h)))
  · exact .right _ (.right _ (.right _ (.right _ h)))

theorem range_sum_lt {n a : Nat} {f g : Nat → Nat} (h : ∀ i < n, f i ≤ g i) (ha : a < n) (h2 : f a < g a) :
    ((List.range n).map f).sum < ((List.range n).map g).sum :=
  List.sum_lt_sum _ _ (fun i hi => h i (List.mem_range.1 hi)) ⟨a, List.mem_range.2 ha, h2⟩

theorem range_sum_congr {n : Nat} {f g : Nat → Nat} (h : ∀ i < n, f i = g i) :
    ((List.range n).map f).sum = ((List.range n).map g).sum := by
  congr 1
  exact List.map_congr_left fun i hi => h i (List.mem_range.1 hi)

/-- A bet that leaves the hand on the same street. -/
theorem acted_less_of {S : List Int} {d : Dealer} {a : Nat} {fold : Bool} {b c lo up : Int} (hl : Live S d)
    (hc2 : 2 ≤ countTrue d.active) (hp0 : 0 ≤ d.pot) (hex : ∃ i < d.cfg.numPlayers, unsat d i = true)
    (ha : d.action = some a) (hb : d.betSizes = .ok (c, lo, up)) :
    Less (progressOf (d.acted fold c (cleanBet b c lo up)).moveAction) (progressOf d) := by
  have hd := hl.seated
  have hseat := seat_some ha
  have halt := hd.action a ha
  obtain ⟨a0, ha0, hain⟩ := hl.action
  obtain rfl : a = a0 := by rw [ha] at ha0; simpa using ha0
  have hsd := acted_seated hd fold c (cleanBet b c lo up)
  have hcnt := acted_count hd ha0 hain hc2 fold c (cleanBet b c lo up)
  obtain ⟨a2, hmv⟩ := moveAction_spec (d := d.acted fold c (cleanBet b c lo up)) hsd.active hcnt
  have hx0 := betOf_nonneg (b := b) hd hp0 hb fold
  have hxle := cleanBet_le hb b
  have hcall : c = min (toCall d a) (stack d a) := by
    obtain ⟨rs, nr, -, -, h1, -⟩ := betSizes_spec hb
    rw [hseat] at h1; exact h1
  have hc0 : 0 ≤ toCall d a := by have := call_nonneg hd; rw [hseat] at this; exact this
  obtain ⟨u, hu, hun⟩ := hex
  have hnums := acted_nums hd fold c (cleanBet b c lo up)
  apply less_of
  right
  refine ⟨rfl, ?_⟩
  by_cases hf : c ≠ 0 ∧ (cleanBet b c lo up < c ∨ fold = true)
  · left
    show countTrue (d.acted fold c (cleanBet b c lo up)).active < countTrue d.active
    have : (d.acted fold c (cleanBet b c lo up)).active = d.active.set d.seat false := by
      unfold Dealer.acted
      simp only []
      rw [if_pos hf]
    rw [this, hseat]
    have := countTrue_set_false d.active a (by rw [hd.active]; exact halt) hain
    omega
  · right
    have hact : (d.acted fold c (cleanBet b c lo up)).active = d.active := by
      unfold Dealer.acted
      simp only []
      rw [if_neg hf]
    refine ⟨by show countTrue (d.acted fold c (cleanBet b c lo up)).active = _; rw [hact], ?_⟩
    have hbo : betOf fold c (cleanBet b c lo up) = cleanBet b c lo up := by unfold betOf; rw [if_neg hf]
    rw [hbo] at hx0
    rw [hseat] at hxle
    rw [hbo, hseat] at hnums
    generalize hy : min (stack d a) (cleanBet b c lo up) = y at hnums
    by_cases hy0 : y = 0
    · subst hy0
      have hnums2 : ∀ i < d.cfg.numPlayers, stack (d.acted fold c (cleanBet b c lo up)) i = stack d i ∧
          streetBet (d.acted fold c (cleanBet b c lo up)) i = streetBet d i := by
        intro i hi
        obtain ⟨n1, -, n3, -⟩ := hnums i hi
        rw [ite_self] at n1 n3
        omega
      right
      refine ⟨?_, ?_⟩
      · show ((List.range d.cfg.numPlayers).map fun i => (stack (d.acted fold c (cleanBet b c lo up)) i).natAbs).sum = _
        exact range_sum_congr fun i hi => by rw [(hnums2 i hi).1]
      -- the bets and stacks are the same
      have hmax : (d.acted fold c (cleanBet b c lo up)).streetCommits = d.streetCommits := by
        apply List.ext_getElem (by rw [hsd.streetCommits]; exact hd.streetCommits.symm)
        intro i h1 h2
        have h3 : i < d.cfg.numPlayers := by rw [← hd.streetCommits]; exact h2
        have h4 := (hnums2 i h3).2
        unfold streetBet at h4
        rw [getD_eq _ _ _ h1, getD_eq _ _ _ h2] at h4
        exact h4
      have hunsat : ∀ i < d.cfg.numPlayers, unsat (d.acted fold c (cleanBet b c lo up)).moveAction i =
          if a = i then false else unsat d i := by
        intro i hi
        rw [Bool.eq_iff_iff, unsat_iff]
        have e1 : isIn (d.acted fold c (cleanBet b c lo up)).moveAction i ↔ isIn d i := by
          show (d.acted fold c (cleanBet b c lo up)).active.getD i false = true ↔ _
          rw [hact]; rfl
        have e2 : stack (d.acted fold c (cleanBet b c lo up)).moveAction i = stack d i := (hnums2 i hi).1
        have e3 : streetBet (d.acted fold c (cleanBet b c lo up)).moveAction i = streetBet d i := (hnums2 i hi).2
        have e4 : (d.acted fold c (cleanBet b c lo up)).moveAction.streetCommits = d.streetCommits := hmax
        have e5 : isIn d i → (opt (d.acted fold c (cleanBet b c lo up)).moveAction i ↔ a = i ∨ opt d i) := by
          intro hin
          unfold opt
          rw [moved_option hmv (by rw [hsd.streetOption]; exact hi) (by
            show (d.acted fold c (cleanBet b c lo up)).active.getD i false = true; rw [hact]; exact hin),
            (hnums i hi).2.2.2]
          by_cases hai : a = i
          · simp [hai]
          · simp [hai]
        rw [e1, e2, e3, e4]
        by_cases hai : a = i
        · subst hai
          simp only [if_true, Bool.false_eq_true, iff_false]
          rintro ⟨h1, h2⟩
          rcases h2 with h2 | ⟨h2, h3⟩
          · exact h2 ((e5 h1).2 (.inl rfl))
          · have : toCall d a ≠ 0 := by unfold toCall; omega
            apply hf
            have : 0 < c ∨ c < 0 := by omega
            rcases this with h4 | h4
            · exact ⟨by omega, .inl (by omega)⟩
            · omega
        · rw [if_neg hai, unsat_iff]
          constructor
          · rintro ⟨h1, h2⟩
            refine ⟨h1, ?_⟩
            rcases h2 with h2 | h2
            · exact .inl fun h3 => h2 ((e5 h1).2 (.inr h3))
            · exact .inr h2
          · rintro ⟨h1, h2⟩
            refine ⟨h1, ?_⟩
            rcases h2 with h2 | h2
            · exact .inl fun h3 => by
                rcases (e5 h1).1 h3 with h4 | h4
                · exact hai h4
                · exact h2 h4
            · exact .inr h2
      by_cases hua : unsat d a = true
      · left
        show ((List.range d.cfg.numPlayers).map fun i =>
          if unsat (d.acted fold c (cleanBet b c lo up)).moveAction i then 1 else 0).sum <
          ((List.range d.cfg.numPlayers).map fun i => if unsat d i then 1 else 0).sum
        apply range_sum_lt (a := a) _ halt
        · rw [hunsat a halt, if_pos rfl, hua]; simp
        · intro i hi
          rw [hunsat i hi]
          by_cases hai : a = i
          · simp [hai]
          · simp [hai]
      · right
        have hsame : ∀ i < d.cfg.numPlayers, unsat (d.acted fold c (cleanBet b c lo up)).moveAction i = unsat d i := by
          intro i hi
          rw [hunsat i hi]
          by_cases hai : a = i
          · subst hai; simp only [if_true]; simpa using hua
          · simp [hai]
        refine ⟨range_sum_congr fun i hi => by rw [hsame i hi], ?_⟩
        -- the distance
        obtain ⟨k, k1, k2, k3, k4, -⟩ := hmv.between
        have hnpos : 0 < d.cfg.numPlayers := by omega
        have hcfg : (d.acted fold c (cleanBet b c lo up)).cfg = d.cfg := rfl
        rw [hcfg] at k2 k3 k4
        rw [acted_seat, hseat] at k3 k4
        have hs2 : (d.acted fold c (cleanBet b c lo up)).moveAction.seat = (a + k) % d.cfg.numPlayers := by
          rw [← k3]
          apply seat_some
          rw [hmv.eq]
        obtain ⟨j, j1, j2, j3⟩ := round_reach (s := a) hu
        have hlt : unsatDist d < d.cfg.numPlayers := by
          unfold unsatDist
          have := List.findIdx_lt_length_of_exists (xs := List.range d.cfg.numPlayers)
            (p := fun k => unsat d ((d.seat + k) % d.cfg.numPlayers)) (by
              refine ⟨j % d.cfg.numPlayers, List.mem_range.2 (Nat.mod_lt _ hnpos), ?_⟩
              rw [hseat, Nat.add_mod_mod, j3]; exact hun)
          simpa using this
        have hat : unsat d ((a + unsatDist d) % d.cfg.numPlayers) = true := by
          have := List.findIdx_getElem (xs := List.range d.cfg.numPlayers)
            (p := fun k => unsat d ((d.seat + k) % d.cfg.numPlayers)) (w := by simpa [unsatDist] using hlt)
          simp only [List.getElem_range, hseat] at this
          unfold unsatDist
          rw [hseat]
          exact this
        have hdpos : unsatDist d ≠ 0 := by
          intro h0
          rw [h0, Nat.add_zero, Nat.mod_eq_of_lt halt] at hat
          exact hua hat
        have hkle : k ≤ unsatDist d := by
          by_contra hcon
          refine k4 (unsatDist d) (by omega) (by omega) ?_
          show (d.acted fold c (cleanBet b c lo up)).active.getD _ false = true
          rw [hact]
          exact (unsat_iff.1 hat).1
        show unsatDist (d.acted fold c (cleanBet b c lo up)).moveAction < unsatDist d
        have : unsatDist (d.acted fold c (cleanBet b c lo up)).moveAction ≤ unsatDist d - k := by
          by_contra hcon
          have h1 := List.not_of_lt_findIdx (Nat.lt_of_not_le hcon)
          simp only [List.getElem_range] at h1
          rw [hs2] at h1
          have hcfg2 : (d.acted fold c (cleanBet b c lo up)).moveAction.cfg = d.cfg := rfl
          rw [hcfg2, Nat.mod_add_mod, show a + k + (unsatDist d - k) = a + unsatDist d by omega,
            hsame _ (Nat.mod_lt _ hnpos), hat] at h1
          simp at h1
        omega
    · left
      show ((List.range d.cfg.numPlayers).map fun i => (stack (d.acted fold c (cleanBet b c lo up)) i).natAbs).sum <
        ((List.range d.cfg.numPlayers).map fun i => (stack d i).natAbs).sum
      apply range_sum_lt (a := a) _ halt
      · rw [(hnums a halt).1, if_pos rfl]; omega
      · intro i hi
        rw [(hnums i hi).1]
        split
        · next hai => subst hai; omega
        · omega

theorem acted_less {S : List Int} {d : Dealer} {a : Nat} {fold : Bool} {b c lo up : Int} (h : InHand S d)
    (hn : NonNegative S d.cfg) (ha : d.action = some a) (hst : d.street < d.cfg.numStreets)
    (hb : d.betSizes = .ok (c, lo, up)) :
    Less (progressOf (d.acted fold c (cleanBet b c lo up)).moveAction) (progressOf d) := by
  obtain ⟨hl, hc2⟩ := live_of_action h ha
  exact acted_less_of hl (hc2 hst) (nn_pot hl (nn_of_action h hn ha)) (exists_unsat h ha) ha hb

end Clubs

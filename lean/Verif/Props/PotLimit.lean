import Verif.Props.Cost
import Verif.Lemmas.Words

/-!
# C108: how fast the pot of a pot-limit game grows

A bet of at most the pot after a call makes of a pot `p` and a highest bet `m` of the street at most `2p + 2m` and `p + 2m`.
-/

namespace Clubs

open Spec

/-! ## statement -/

/-- pot and highest bet after `k` bets of the largest size by players who have not bet on the street before -/
def Spec.potGrowth (p m : Int) : Nat → Int × Int
  | 0 => (p, m)
  | k + 1 => (2 * (potGrowth p m k).1 + 2 * (potGrowth p m k).2, (potGrowth p m k).1 + 2 * (potGrowth p m k).2)

/-- all chips that were put in during the hand -/
def Spec.chipsPutIn (d : Dealer) : Int := ((List.range d.cfg.numPlayers).map (contribution d)).sum

/-- every street is played with pot limit -/
def Spec.PotLimit (c : Config) : Prop := ∀ s < c.numStreets, c.raiseSizes[s]? = some .pot

/-! ## helpers -/

variable {S : List Int} {d d' : Dealer} {B : Int} {fold : Bool} {b c lo hi : Int}

theorem potGrowth_pos {p m : Int} (hp : 0 ≤ p) (hm : 0 ≤ m) (k : Nat) : 0 ≤ (potGrowth p m k).1 ∧ 0 ≤ (potGrowth p m k).2 := by
  induction k with
  | zero => exact ⟨hp, hm⟩
  | succ k ih => simp only [potGrowth]; omega

theorem potGrowth_four {p m : Int} (h0 : 0 ≤ m) (hm : m ≤ p) (k : Nat) :
    (potGrowth p m k).2 ≤ (potGrowth p m k).1 ∧ (potGrowth p m k).1 ≤ 4 ^ k * p := by
  induction k with
  | zero => exact ⟨hm, by simp [potGrowth]⟩
  | succ k ih =>
    have h1 := potGrowth_pos (show 0 ≤ p by omega) h0 k
    refine ⟨?_, ?_⟩
    · simp only [potGrowth]; omega
    · simp only [potGrowth]
      rw [pow_succ, mul_comm _ (4 : Int), mul_assoc]
      omega

theorem chipsPutIn_live (hl : Live S d) : chipsPutIn d = d.potCommits.sum := by
  rw [sum_eq_range d.potCommits, hl.seated.potCommits]; rfl

/-- the invariant -/
structure PotInv (B : Int) (S : List Int) (d : Dealer) : Prop where
  nn : NN d
  street : ∀ i < d.cfg.numPlayers, 0 ≤ streetBet d i ∨ stack d i ≤ 0
  pot : chipsPutIn d ≤ (potGrowth (forcedTotal d.cfg) B d.history.length).1
  top : pyMax d.streetCommits ≤ (potGrowth (forcedTotal d.cfg) B d.history.length).2

theorem streetCommits_ne (h : Seated d) : d.streetCommits ≠ [] := by
  intro h0
  have h1 := h.streetCommits
  rw [h0] at h1
  have h2 := h.two
  simp at h1
  omega

theorem pot_bet (hl : Live S d) (hg : PotLimit d.cfg) (h : PotInv B S d) (hst : d.street < d.cfg.numStreets)
    (hb : d.betSizes = .ok (c, lo, hi)) :
    let m := min (stack d d.seat) (betOf fold c (cleanBet b c lo hi))
    (0 ≤ stack d d.seat → 0 ≤ m) ∧ (stack d d.seat ≤ 0 → m = stack d d.seat) ∧ m ≤ d.pot + 2 * (pyMax d.streetCommits - streetBet d d.seat) := by
  intro m
  have hpot := nn_pot hl h.nn
  have ht0 : 0 ≤ pyMax d.streetCommits - streetBet d d.seat := call_nonneg hl.seated
  have hm0 : 0 ≤ betOf fold c (cleanBet b c lo hi) := betOf_nonneg hl.seated hpot hb fold
  obtain ⟨rs, nr, hrs, hnr, h1, h2, h3⟩ := betSizes_spec hb
  rw [hg _ hst] at hrs
  obtain rfl : RaiseSize.pot = rs := by simpa using hrs
  have hm : betOf fold c (cleanBet b c lo hi) ≤ 0 ∨ betOf fold c (cleanBet b c lo hi) = cleanBet b c lo hi := by
    show betOf fold c (cleanBet b c lo hi) ≤ 0 ∨ betOf fold c (cleanBet b c lo hi) = _
    unfold betOf; split
    · exact .inl (le_refl _)
    · exact .inr rfl
  have hx : cleanBet b c lo hi ≤ 0 ∨ cleanBet b c lo hi = c ∨ cleanBet b c lo hi ≤ hi := by
    rcases cleanBet_cases b c lo hi with ⟨-, -, -, e⟩ | ⟨-, -, -, e⟩ | ⟨-, -, -, e⟩ | ⟨-, -, -, e⟩
    · exact .inl (by omega)
    · exact .inr (.inl e)
    · exact .inr (.inr (by rw [e]; exact min_le_left _ _))
    · exact .inr (.inr (by rw [e]; exact min_le_left _ _))
  change (_ → 0 ≤ min _ _) ∧ (_ → min _ _ = _) ∧ min _ _ ≤ _
  clear_value m
  generalize betOf fold c (cleanBet b c lo hi) = y at *
  generalize cleanBet b c lo hi = x at hm hx
  generalize pyMax d.streetCommits - streetBet d d.seat = t at *
  have hhi : hi ≤ d.pot + t * 2 := by
    by_cases hcap : nr.reached d.streetRaises = true ∨ (d.streetRaises ≠ 0 ∧ t < d.largestRaise)
    · obtain ⟨-, h5⟩ := h2 hcap
      omega
    · obtain ⟨-, h5⟩ := h3 hcap
      omega
  clear h2 h3
  refine ⟨fun _ => by omega, fun _ => by omega, by omega⟩

theorem afterBet_pot (hl : Live S d) (hS : ∀ s ∈ S, 0 ≤ s) (hc2 : 2 ≤ countTrue d.active) (hg : PotLimit d.cfg) (h0 : 0 ≤ forcedTotal d.cfg)
    (hB0 : 0 ≤ B) (h : PotInv B S d) (hst : d.street < d.cfg.numStreets) (hb : d.betSizes = .ok (c, lo, hi)) : PotInv B S (d.afterBet fold c (cleanBet b c lo hi)) := by
  obtain ⟨b1, b2, b3⟩ := pot_bet (fold := fold) (b := b) hl hg h hst hb
  have hnn := afterBet_nn (fold := fold) (b := b) hl hS hc2 h.nn hb
  have hseat := seat_lt hl.seated
  have hnum := acted_nums hl.seated fold c (cleanBet b c lo hi)
  have hs1 : Seated (d.acted fold c (cleanBet b c lo hi)) := acted_seated hl.seated _ _ _
  obtain ⟨f1, -, -, f4, -, -, -, f8, f9⟩ := afterBet_fields d fold c (cleanBet b c lo hi)
  have hh : (d.acted fold c (cleanBet b c lo hi)).history.length = d.history.length + 1 := by
    show (d.history ++ [_]).length = _
    simp
  have hpc : (d.acted fold c (cleanBet b c lo hi)).potCommits.sum = d.potCommits.sum +
      min (stack d d.seat) (betOf fold c (cleanBet b c lo hi)) := by
    show (d.potCommits.modify d.seat (· + min (stack d d.seat) (betOf fold c (cleanBet b c lo hi)))).sum = _
    rw [sum_modify_add _ _ _ (by rw [hl.seated.potCommits]; exact hseat)]
  generalize min (stack d d.seat) (betOf fold c (cleanBet b c lo hi)) = m at *
  have hp0 := hl.pot
  have hq := chipsPutIn_live hl
  have hmax : ∀ i < d.cfg.numPlayers, streetBet d i ≤ pyMax d.streetCommits := fun i hi =>
    pyMax_getD (by rw [hl.seated.streetCommits]; exact hi)
  have hown := hmax _ hseat
  have hown0 := h.street _ hseat
  have hpot := nn_pot hl h.nn
  have hM : pyMax (d.acted fold c (cleanBet b c lo hi)).streetCommits ≤ max (pyMax d.streetCommits) (d.pot + 2 * pyMax d.streetCommits) := by
    refine pyMax_le_of (streetCommits_ne hs1) fun i hx => ?_
    rw [hs1.streetCommits] at hx
    have h1 := (hnum i hx).2.2.1
    have h2 := hmax i hx
    change (d.acted fold c (cleanBet b c lo hi)).streetCommits.getD i 0 = _ at h1
    rw [h1]
    split
    · next e => subst e; omega
    · omega
  have hp := h.pot
  have ht := h.top
  have hgrow : (potGrowth (forcedTotal d.cfg) B (d.history.length + 1)) = (2 * (potGrowth (forcedTotal d.cfg) B d.history.length).1 +
    2 * (potGrowth (forcedTotal d.cfg) B d.history.length).2, (potGrowth (forcedTotal d.cfg) B d.history.length).1 +
    2 * (potGrowth (forcedTotal d.cfg) B d.history.length).2) := rfl
  obtain ⟨gp1, gp2⟩ := potGrowth_pos h0 hB0 d.history.length
  have hst2 : ∀ i < d.cfg.numPlayers, 0 ≤ streetBet (d.acted fold c (cleanBet b c lo hi)) i ∨ stack (d.acted fold c (cleanBet b c lo hi)) i ≤ 0 := by
    intro i hx
    have := h.street i hx
    rw [(hnum i hx).2.2.1, (hnum i hx).1]
    split
    · next e => subst e; omega
    · omega
  have hcommits : ((d.afterBet fold c (cleanBet b c lo hi)).streetCommits = (d.acted fold c (cleanBet b c lo hi)).streetCommits) ∨
      ((d.afterBet fold c (cleanBet b c lo hi)).streetCommits = List.replicate d.cfg.numPlayers 0) := by
    rcases afterBet_cases d fold c (cleanBet b c lo hi) with ⟨-, e⟩ | ⟨-, e⟩
    · left; rw [e]; rfl
    · right
      obtain ⟨n1, -, -, n4, -⟩ := nextStreet_fields (d.acted fold c (cleanBet b c lo hi)).moveAction
      rw [e, n1, n4]; rfl
  refine ⟨hnn, ?_, ?_, ?_⟩
  · intro i hx
    rw [f1] at hx
    unfold streetBet stack
    rw [f9]
    rcases hcommits with e | e
    · rw [e]; exact hst2 i hx
    · rw [e, getD_replicate _ _ _ _ hx]; exact .inl (le_refl _)
  · rw [f1, f4, hh, hgrow]
    have : chipsPutIn (d.afterBet fold c (cleanBet b c lo hi)) = (d.acted fold c (cleanBet b c lo hi)).potCommits.sum := by
      unfold chipsPutIn contribution
      rw [f1, f8, sum_eq_range (d.acted fold c (cleanBet b c lo hi)).potCommits, hs1.potCommits]; rfl
    rw [this, hpc]
    simp only
    omega
  · rw [f1, f4, hh, hgrow]
    simp only
    rcases hcommits with e | e
    · rw [e]; omega
    · rw [e]
      refine le_trans (pyMax_le_of (x := 0) ?_ fun i hi => ?_) (by omega)
      · intro h0
        have := congrArg List.length h0
        have := hl.seated.two
        simp at *
        omega
      · rw [getD_replicate _ _ _ _ (by simpa using hi)]

theorem dealt_pot {rb rs : Bool} {shuf : Shuffle} {obs : Observation} (hd : Seated d) (hr : d.reset rb rs shuf = (d', .ok obs))
    (hn : NonNegative (startStacks d rs) d'.cfg)
    (hB : ∀ j, d'.cfg.blinds.getD j 0 ≤ B) : PotInv B (startStacks d rs) d' := by
  have hl := (dealt_live hd hr).1
  obtain ⟨hc, -, -, hh, hstr, hsr, hlr, -, f, -, -, -, hs⟩ := C41_clean hd hr
  have hB0 : 0 ≤ B := by have := hB d'.cfg.blinds.length; rwa [List.getD_eq_default _ _ (le_refl _)] at this
  rw [hc] at hB
  have hpot : d'.pot ≤ forcedTotal d'.cfg := by
    obtain ⟨-, -, rfl, -⟩ := reset_ok hr
    obtain ⟨c1, -, -, -, -, -, -, -, c8, -⟩ := blindStart_same d rb rs shuf
    have hb := blindStart_seated hd rb rs shuf
    have ha : d.cfg.antes.length = (d.blindStart rb rs shuf).cfg.numPlayers := by rw [c1]; exact hd.antes
    have hbl : d.cfg.blinds.length = ((d.blindStart rb rs shuf).collectMultipleBets d.cfg.antes false).cfg.numPlayers := by
      show _ = (d.blindStart rb rs shuf).cfg.numPlayers
      rw [c1]; exact hd.blinds
    have hb1 := collectMultipleBets_seated hb false ha
    rw [hc] at hn ⊢
    have s1 := Numpy.forced_sum_le hn.antes hb ha
    have s2 := Numpy.forced_sum_le hn.blinds hb1 hbl
    have e : ((d.posted rb rs shuf).moveAction.moveAction).pot = (d.blindStart rb rs shuf).pot +
      ((d.blindStart rb rs shuf).forcedBets d.cfg.antes).sum +
      (((d.blindStart rb rs shuf).collectMultipleBets d.cfg.antes false).forcedBets d.cfg.blinds).sum := rfl
    have e0 : (d.blindStart rb rs shuf).pot = 0 := c8
    rw [e, e0]; unfold forcedTotal; omega
  refine ⟨dealt_nn hd hr hn, ?_, ?_, ?_⟩
  · intro i hi
    rw [hc] at hi
    have hb0 : ∀ j, 0 ≤ d.cfg.blinds.getD j 0 := fun j => list_getD_nonneg (by rw [hc] at hn; exact hn.blinds) j
    left
    rw [(hs i hi).2.1]
    split_ifs <;> first | exact hb0 _ | exact le_refl _
  · rw [hh, chipsPutIn_live hl, ← hl.pot]
    exact hpot
  · rw [hh]
    show _ ≤ B
    refine pyMax_le_of (streetCommits_ne hl.seated) fun i hi => ?_
    rw [hl.seated.streetCommits, hc] at hi
    have := (hs i hi).2.1
    unfold streetBet at this
    rw [this]
    split_ifs <;> first | exact hB _ | exact hB0

theorem total_nonneg (hn : NonNegative S d.cfg) : 0 ≤ forcedTotal d.cfg := by
  have h1 := List.sum_nonneg hn.antes
  have h2 := List.sum_nonneg hn.blinds
  unfold forcedTotal; omega

theorem getD_bound {l : List Int} (h : ∀ j, l.getD j 0 ≤ B) : 0 ≤ B := by
  have := h l.length; rwa [List.getD_eq_default _ _ (le_refl _)] at this

theorem pot_inHand (h : InHand S d) (hn : NonNegative S d.cfg) (hg : PotLimit d.cfg)
    (hB : ∀ j, d.cfg.blinds.getD j 0 ≤ B) :
    ∃ e, e.cfg = d.cfg ∧ e.history = d.history ∧ e.potCommits = d.potCommits ∧ e.streetCommits = d.streetCommits ∧ Live S e ∧ PotInv B S e := by
  have key := inHand_induct (P := fun S d => NonNegative S d.cfg → PotLimit d.cfg → (∀ j, d.cfg.blinds.getD j 0 ≤ B) →
      PotInv B S d)
    (fun d d' rb rs shuf obs hd hs hr hn hg hB => dealt_pot hd hr hn hB)
    (fun S d fold b c lo hi _ hl hst h2 ih hb hn hg hB => by
      rw [afterBet_cfg] at hn hg hB
      exact afterBet_pot hl hn.start h2 hg (total_nonneg hn) (getD_bound hB) (ih hn hg hB) hst hb) h
  rcases key with ⟨h1, hl, -⟩ | ⟨e, p, rfl, h1, hl, -⟩
  · exact ⟨d, rfl, rfl, rfl, rfl, hl, h1 hn hg hB⟩
  · exact ⟨e, rfl, rfl, rfl, rfl, hl, h1 hn hg hB⟩

theorem chipsPutIn_congr {e : Dealer} (h1 : e.cfg = d.cfg) (h2 : e.potCommits = d.potCommits) : chipsPutIn e = chipsPutIn d := by
  unfold chipsPutIn contribution; rw [h1, h2]

theorem blinds_le_total (hn : NonNegative S d.cfg) (j : Nat) : d.cfg.blinds.getD j 0 ≤ forcedTotal d.cfg := by
  have h1 := List.sum_nonneg hn.antes
  unfold forcedTotal
  by_cases hj : j < d.cfg.blinds.length
  · have := List.single_le_sum hn.blinds _ (List.getElem_mem hj)
    rw [getD_eq _ _ _ hj]; omega
  · rw [List.getD_eq_default _ _ (by omega)]
    have := List.sum_nonneg hn.blinds
    omega

/-! ## the pure-Python engine -/

/-- **C108**: after `k` actions of a pot-limit hand there are at most as many chips in the pot as
after `k` largest raises on the forced bets, and nobody has bet more on the street than the last of them. -/
theorem C108_pot (h : InHand S d) (hn : NonNegative S d.cfg) (hg : PotLimit d.cfg)
    (hB : ∀ j, d.cfg.blinds.getD j 0 ≤ B) :
    chipsPutIn d ≤ (potGrowth (forcedTotal d.cfg) B d.history.length).1 ∧
    ∀ i < d.cfg.numPlayers, streetBet d i ≤ (potGrowth (forcedTotal d.cfg) B d.history.length).2 := by
  obtain ⟨e, e1, e2, e3, e4, hl, h1⟩ := pot_inHand h hn hg hB
  have h2 := h1.pot
  have h3 := h1.top
  rw [e1, e2, chipsPutIn_congr e1 e3] at h2
  rw [e1, e2, e4] at h3
  refine ⟨h2, fun i hi => le_trans (pyMax_getD ?_) h3⟩
  rw [← e4, hl.seated.streetCommits, e1]; exact hi

/-- **C108**: every action makes the pot at most four times as large. -/
theorem C108_four (h : InHand S d) (hn : NonNegative S d.cfg) (hg : PotLimit d.cfg) :
    chipsPutIn d ≤ 4 ^ d.history.length * forcedTotal d.cfg := by
  have h0 := blinds_le_total hn d.cfg.blinds.length
  rw [List.getD_eq_default _ _ (le_refl _)] at h0
  exact le_trans (C108_pot h hn hg (blinds_le_total hn)).1 (potGrowth_four h0 (le_refl _) _).2

/-- the bound is reached: one blind of 1, and two largest raises by players without a blind -/
example : ∃ S d, InHand S d ∧ Reachable d ∧ NonNegative S d.cfg ∧ PotLimit d.cfg ∧ (∀ j, d.cfg.blinds.getD j 0 ≤ 1) ∧ d.history.length = 2 ∧
    chipsPutIn d = 14 ∧ streetBet d 0 = 10 ∧ potGrowth (forcedTotal d.cfg) 1 2 = (14, 10) := by
  obtain ⟨S, d, h1, h2, h3, h4, h5, h6, h7⟩ := hand_exists (P := fun S d => NonNegative S d.cfg ∧ d.cfg.numStreets = 2 ∧
      d.cfg.raiseSizes = [.pot, .pot] ∧ d.cfg.blinds = [0, 1, 0, 0] ∧ d.history.length = 2 ∧
      chipsPutIn d = 14 ∧ streetBet d 0 = 10 ∧ potGrowth (forcedTotal d.cfg) 1 2 = (14, 10))
    (limit 4 [0, 1, 0, 0] 100 (.scalar .pot) (.scalar .inf)) [.bet 100, .bet 100] (by decide +kernel)
  refine ⟨S, d, h1, h2, h3, fun s hs => ?_, fun j => ?_, h7⟩
  · rw [h4] at hs
    rw [h5]
    rcases s with _ | _ | s
    · rfl
    · rfl
    · omega
  · rw [h6]
    exact getD_le (by decide) (by decide) j

/-! ## the array engine -/

namespace Numpy

theorem pot_sizesOk (h : ArrayInHand S d) (hg : PotLimit d.cfg) (hbb : 0 ≤ d.cfg.bigBlind) : SizesOk d.cfg := by
  have hlen : d.cfg.raiseSizes.length = d.cfg.numStreets := by
    rcases array_induct (P := fun _ _ => True) (fun _ _ _ _ _ _ _ _ _ => trivial) (fun _ _ _ _ _ _ _ _ _ _ _ _ _ => trivial) h with
      ⟨-, h1, -⟩ | ⟨e, p, rfl, -, h1, -⟩
    · exact h1.seated.raiseSizes
    · exact h1.seated.raiseSizes
  refine ⟨hbb, fun n hn => ?_⟩
  obtain ⟨s, hs, e⟩ := List.mem_iff_getElem.mp hn
  have h2 := hg s (by omega)
  rw [List.getElem?_eq_getElem hs, e] at h2
  simp at h2

theorem pot_inHand (h : ArrayInHand S d) (hn : NonNegative S d.cfg) (hbb : 0 ≤ d.cfg.bigBlind) (hg : PotLimit d.cfg)
    (hB : ∀ j, d.cfg.blinds.getD j 0 ≤ B) :
    ∃ e, e.cfg = d.cfg ∧ e.history = d.history ∧ e.potCommits = d.potCommits ∧ e.streetCommits = d.streetCommits ∧ Live S e ∧ PotInv B S e := by
  have hz := pot_sizesOk h hg hbb
  have key := array_induct (P := fun S d => NonNegative S d.cfg → SizesOk d.cfg → PotLimit d.cfg → (∀ j, d.cfg.blinds.getD j 0 ≤ B) →
      Sound S d ∧ PotInv B S d)
    (fun d d' rb rs shuf obs hd hs hr hn _ hg hB => ⟨dealt_sound hd hr hn, dealt_pot hd hr hn hB⟩)
    (fun S d fold b c lo hi hl hst h2 ih hb hf hn hz hg hB => by
      rw [Clubs.afterBet_cfg] at hn hz hg hB
      obtain ⟨i1, i2⟩ := ih hn hz hg hB
      rw [afterBet_clean hl.seated (nn_pot hl i1.nn) hz hb hf]
      exact ⟨afterBet_sound hl h2 hn i1 hb, afterBet_pot hl hn.start h2 hg (total_nonneg hn) (getD_bound hB) i2 hst hb⟩) h
  rcases key with ⟨h1, hl, -⟩ | ⟨e, p, rfl, h1, hl, -⟩
  · exact ⟨atSeat d, rfl, rfl, rfl, rfl, hl, (h1 hn hz hg hB).2⟩
  · exact ⟨atSeat e, rfl, rfl, rfl, rfl, hl, (h1 hn hz hg hB).2⟩

/-- **C108** for the array engine -/
theorem C108_pot (h : ArrayInHand S d) (hn : NonNegative S d.cfg) (hbb : 0 ≤ d.cfg.bigBlind) (hg : PotLimit d.cfg)
    (hB : ∀ j, d.cfg.blinds.getD j 0 ≤ B) :
    chipsPutIn d ≤ (potGrowth (forcedTotal d.cfg) B d.history.length).1 ∧
    ∀ i < d.cfg.numPlayers, streetBet d i ≤ (potGrowth (forcedTotal d.cfg) B d.history.length).2 := by
  obtain ⟨e, e1, e2, e3, e4, hl, h1⟩ := pot_inHand h hn hbb hg hB
  have h2 := h1.pot
  have h3 := h1.top
  rw [e1, e2, chipsPutIn_congr e1 e3] at h2
  rw [e1, e2, e4] at h3
  refine ⟨h2, fun i hi => le_trans (pyMax_getD ?_) h3⟩
  rw [← e4, hl.seated.streetCommits, e1]; exact hi

/-- **C108** for the array engine: every action makes the pot at most four times as large. -/
theorem C108_four (h : ArrayInHand S d) (hn : NonNegative S d.cfg) (hbb : 0 ≤ d.cfg.bigBlind) (hg : PotLimit d.cfg) :
    chipsPutIn d ≤ 4 ^ d.history.length * forcedTotal d.cfg := by
  have h0 := blinds_le_total hn d.cfg.blinds.length
  rw [List.getD_eq_default _ _ (le_refl _)] at h0
  exact le_trans (C108_pot h hn hbb hg (blinds_le_total hn)).1 (potGrowth_four h0 (le_refl _) _).2

/-- the bound is reached here too -/
example : ∃ S d, ArrayInHand S d ∧ ArrayReachable d ∧ NonNegative S d.cfg ∧ 0 ≤ d.cfg.bigBlind ∧ PotLimit d.cfg ∧
    (∀ j, d.cfg.blinds.getD j 0 ≤ 1) ∧ d.history.length = 2 ∧
    chipsPutIn d = 14 ∧ streetBet d 0 = 10 ∧ potGrowth (forcedTotal d.cfg) 1 2 = (14, 10) := by
  obtain ⟨S, d, h1, h2, h3, h0, h4, h5, h6, h7⟩ := hand_exists (P := fun S d => NonNegative S d.cfg ∧ 0 ≤ d.cfg.bigBlind ∧ d.cfg.numStreets = 2 ∧
      d.cfg.raiseSizes = [.pot, .pot] ∧ d.cfg.blinds = [0, 1, 0, 0] ∧ d.history.length = 2 ∧
      chipsPutIn d = 14 ∧ streetBet d 0 = 10 ∧ potGrowth (forcedTotal d.cfg) 1 2 = (14, 10))
    (limit 4 [0, 1, 0, 0] 100 (.scalar .pot) (.scalar .inf)) [.bet 100, .bet 100] (by decide +kernel)
  refine ⟨S, d, h1, h2, h3, h0, fun s hs => ?_, fun j => ?_, h7⟩
  · rw [h4] at hs
    rw [h5]
    rcases s with _ | _ | s
    · rfl
    · rfl
    · omega
  · rw [h6]
    exact getD_le (by decide) (by decide) j

end Numpy

end Clubs

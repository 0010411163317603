import Verif.Lemmas.Turn
import Verif.Lemmas.Showdown

/-!
# The division of a pot does not depend on the numbering of the players (for C82)
-/

namespace Clubs

open Spec Finset

/-! ## renumbered players -/

section
variable {n : Nat} {f g : Nat → Nat} {act act' : Nat → Bool} {c s c' s' : Nat → Int}

/-- `f` renumbers the players, and `act'`, `c'`, `s'` are the same things under the new numbers -/
structure Renumbered (n : Nat) (f : Nat → Nat) (act act' : Nat → Bool) (c c' s s' : Nat → Int) : Prop where
  lt : ∀ i < n, f i < n
  inj : ∀ i < n, ∀ j < n, f i = f j → i = j
  surj : ∀ j < n, ∃ i < n, f i = j
  act : ∀ i < n, act' (f i) = act i
  c : ∀ i < n, c' (f i) = c i
  s : ∀ i < n, s' (f i) = s i

variable (R : Renumbered n f act act' c c' s s')
include R

theorem renum_forall {P : Nat → Prop} : (∀ j < n, P j) ↔ ∀ i < n, P (f i) := by
  refine ⟨fun h i hi => h _ (R.lt i hi), fun h j hj => ?_⟩
  obtain ⟨i, hi, rfl⟩ := R.surj j hj
  exact h i hi

theorem renum_winners (t : Nat) : winners n act' c' s' t = (winners n act c s t).image f := by
  ext j
  unfold winners
  simp only [mem_filter, mem_range, mem_image]
  constructor
  · rintro ⟨hj, h1, h2, h3⟩
    obtain ⟨i, hi, rfl⟩ := R.surj j hj
    rw [R.act i hi] at h1
    rw [R.c i hi] at h2
    refine ⟨i, ⟨hi, h1, h2, fun r hr h4 h5 => ?_⟩, rfl⟩
    have := h3 (f r) (R.lt r hr) (by rw [R.act r hr]; exact h4) (by rw [R.c r hr]; exact h5)
    rwa [R.s i hi, R.s r hr] at this
  · rintro ⟨i, ⟨hi, h1, h2, h3⟩, rfl⟩
    refine ⟨R.lt i hi, by rw [R.act i hi]; exact h1, by rw [R.c i hi]; exact h2, ?_⟩
    rw [renum_forall R]
    intro r hr h4 h5
    rw [R.act r hr] at h4
    rw [R.c r hr] at h5
    rw [R.s i hi, R.s r hr]
    exact h3 r hr h4 h5

theorem renum_injOn {W : Finset Nat} (hW : W ⊆ range n) : Set.InjOn f W := fun a ha b hb e =>
  R.inj a (mem_range.1 (hW ha)) b (mem_range.1 (hW hb)) e

theorem renum_card {W : Finset Nat} (hW : W ⊆ range n) : (W.image f).card = W.card := card_image_of_injOn (renum_injOn R hW)

theorem renum_layer (t : Nat) : layer n c' t = layer n c t := by
  unfold layer
  rw [← renum_card R (filter_subset (fun i => (t : Int) < c i) (range n))]
  congr 2
  ext j
  simp only [mem_filter, mem_range, mem_image]
  constructor
  · rintro ⟨hj, h1⟩
    obtain ⟨i, hi, rfl⟩ := R.surj j hj
    exact ⟨i, ⟨hi, by rwa [R.c i hi] at h1⟩, rfl⟩
  · rintro ⟨i, ⟨hi, h1⟩, rfl⟩
    exact ⟨R.lt i hi, by rwa [R.c i hi]⟩

theorem renum_numLayers : numLayers n c' = numLayers n c := by
  unfold numLayers
  congr 1
  symm
  refine sum_nbij f (fun i hi => by simpa using R.lt i (by simpa using hi)) (renum_injOn R (Subset.refl _)) ?_
    (fun i hi => (R.c i (by simpa using hi)).symm)
  intro j hj
  obtain ⟨i, hi, rfl⟩ := R.surj j (by simpa using hj)
  exact ⟨i, by simpa using hi, rfl⟩

theorem renum_image_inj {V W : Finset Nat} (hV : V ⊆ range n) (hW : W ⊆ range n) (h : V.image f = W.image f) : V = W := by
  have key : ∀ {V W : Finset Nat}, V ⊆ range n → W ⊆ range n → V.image f = W.image f → V ⊆ W := by
    intro V W hV hW h a ha
    have : f a ∈ W.image f := by rw [← h]; exact mem_image_of_mem f ha
    obtain ⟨b, hb, e⟩ := mem_image.1 this
    rwa [← R.inj b (mem_range.1 (hW hb)) a (mem_range.1 (hV ha)) e]
  exact Subset.antisymm (key hV hW h) (key hW hV h.symm)

theorem renum_potOf {W : Finset Nat} (hW : W ⊆ range n) : potOf n act' c' s' (W.image f) = potOf n act c s W := by
  unfold potOf
  rw [renum_numLayers R]
  refine sum_congr rfl fun t _ => ?_
  rw [renum_winners R t, renum_layer R t]
  refine if_congr ⟨renum_image_inj R (filter_subset _ _) hW, fun e => by rw [e]⟩ rfl rfl

/-- a sum over all sets of players -/
theorem renum_powerset {F F' : Finset Nat → Int} (h : ∀ W ⊆ range n, F' (W.image f) = F W) :
    ∑ W ∈ (range n).powerset, F' W = ∑ W ∈ (range n).powerset, F W := by
  symm
  refine sum_nbij (fun W => W.image f) ?_ ?_ ?_ (fun W hW => (h W (mem_powerset.1 hW)).symm)
  · intro W hW
    rw [mem_powerset] at hW ⊢
    intro j hj
    obtain ⟨i, hi, rfl⟩ := mem_image.1 hj
    exact mem_range.2 (R.lt i (mem_range.1 (hW hi)))
  · intro V hV W hW e
    exact renum_image_inj R (mem_powerset.1 (mem_coe.1 hV)) (mem_powerset.1 (mem_coe.1 hW)) e
  · intro V hV
    have hV : V ⊆ range n := mem_powerset.1 (mem_coe.1 hV)
    refine ⟨(range n).filter fun i => f i ∈ V, mem_coe.2 (mem_powerset.2 (filter_subset _ _)), ?_⟩
    ext j
    simp only [mem_image, mem_filter, mem_range]
    constructor
    · rintro ⟨i, ⟨-, h1⟩, rfl⟩; exact h1
    · intro hj
      obtain ⟨i, hi, rfl⟩ := R.surj j (mem_range.1 (hV hj))
      exact ⟨i, ⟨hi, hj⟩, rfl⟩

theorem renum_due {j : Nat} (hj : j < n) : due n act' c' s' (f j) = due n act c s j := by
  unfold due
  refine renum_powerset R fun W hW => ?_
  rw [renum_potOf R hW, renum_card R hW]
  refine if_congr ⟨fun h => ?_, fun h => mem_image_of_mem f h⟩ rfl rfl
  obtain ⟨i, hi, e⟩ := mem_image.1 h
  rwa [← R.inj i (mem_range.1 (hW hi)) j hj e]

theorem renum_odd : odd n act' c' s' = odd n act c s := by
  unfold odd
  refine renum_powerset R fun W hW => ?_
  rw [renum_potOf R hW, renum_card R hW]

theorem renum_folds (h : FoldsCovered n act c) : FoldsCovered n act' c' := by
  unfold FoldsCovered
  rw [renum_forall R]
  intro i hi ha
  rw [R.act i hi] at ha
  obtain ⟨j, hj, h1, h2⟩ := h i hi ha
  exact ⟨f j, R.lt j hj, by rw [R.act j hj]; exact h1, by rw [R.c i hi, R.c j hj]; exact h2⟩

theorem renum_ties (h : NoDrainedTie n act c s) : NoDrainedTie n act' c' s' := by
  unfold NoDrainedTie
  rw [renum_forall R]
  intro p hp
  rw [renum_forall R]
  intro q hq
  rw [R.act p hp, R.act q hq, R.s p hp, R.s q hq, R.c p hp, R.c q hq]
  intro h1 h2 h3 h4 h5
  obtain ⟨k1, k2⟩ := h p hp q hq h1 h2 h3 h4 fun r hr h6 h7 => by
    have := h5 (f r) (R.lt r hr)
    rw [R.act r hr, R.s r hr, R.c r hr] at this
    exact this h6 h7
  refine ⟨k1, ?_⟩
  rw [renum_forall R]
  intro r hr
  rw [R.act r hr, R.s r hr, R.c r hr]
  exact fun h6 h7 => k2 r hr h6 fun e => h7 (by rw [e])

end

/-! ## the turned table -/

variable {d : Dealer} {s : Nat → Int}

/-- the strengths of the turned table -/
def turnStrength (n k : Nat) (s : Nat → Int) (i : Nat) : Int := s ((i + k) % n)

theorem renumbered_turn (hd : Seated d) (k : Nat) (s : Nat → Int) :
    Renumbered d.cfg.numPlayers (turnSeat d.cfg.numPlayers k) (inB d) (inB (turnTable k d)) (contribution d) (contribution (turnTable k d))
      s (turnStrength d.cfg.numPlayers k s) where
  lt i hi := turnSeat_lt _ _ (by omega)
  inj i hi j hj e := turnSeat_inj hi hj e
  surj j hj := ⟨(j + k) % d.cfg.numPlayers, Nat.mod_lt _ (by omega), turnSeat_surj hj⟩
  act i hi := getD_turn hd.active k hi false
  c i hi := getD_turn hd.potCommits k hi 0
  s i hi := by unfold turnStrength; rw [turnSeat_back k hi]

theorem turn_seated (hd : Seated d) (k : Nat) : Seated (turnTable k d) :=
  { hd with
    active := by simpa [turnTable] using hd.active
    potCommits := by simpa [turnTable] using hd.potCommits
    «stacks» := by simpa [turnTable] using hd.stacks
    streetCommits := by simpa [turnTable] using hd.streetCommits
    streetOption := by simpa [turnTable] using hd.streetOption
    button := turnSeat_lt _ _ (by have := hd.two; omega)
    action := by
      intro a ha
      obtain ⟨b, -, rfl⟩ := Option.map_eq_some_iff.1 ha
      exact turnSeat_lt _ _ (by have := hd.two; omega) }

theorem turn_ranks (hd : Seated d) (hh : d.holeCards.length = d.cfg.numPlayers) (k : Nat) (hr : Ranks d s) :
    Ranks (turnTable k d) (turnStrength d.cfg.numPlayers k s) := by
  have R := renumbered_turn hd k s
  show ∀ i < d.cfg.numPlayers, _
  rw [renum_forall R]
  intro i hi ha
  rw [R.s i hi]
  have h1 : (turnTable k d).holeCards.getD (turnSeat d.cfg.numPlayers k i) [] = d.holeCards.getD i [] := getD_turn hh k hi []
  rw [h1]
  exact hr i hi (by show inB d i = true; rw [← R.act i hi]; exact ha)

theorem turn_clear (hd : Seated d) (k : Nat) (hc : ClearPot d s) : ClearPot (turnTable k d) (turnStrength d.cfg.numPlayers k s) :=
  ⟨renum_folds (renumbered_turn hd k s) hc.folds, renum_ties (renumbered_turn hd k s) hc.ties⟩

/-- payouts at a showdown without odd chips -/
theorem payouts_turn_showdown (hd : Seated d) (hh : d.holeCards.length = d.cfg.numPlayers) (hpot : d.pot = d.potCommits.sum)
    (hpos : ∀ i < d.cfg.numPlayers, 0 ≤ contribution d i) (hr : Ranks d s) (hc : ClearPot d s) (h0 : oddAt d s = 0)
    (hone : countTrue d.active ≠ 1) (hst : d.cfg.numStreets ≤ d.street) (k : Nat) :
    ∃ p, d.payouts = .ok p ∧ p.length = d.cfg.numPlayers ∧ (turnTable k d).payouts = .ok (p.rotate k) := by
  have R := renumbered_turn hd k s
  have h0' : oddAt (turnTable k d) (turnStrength d.cfg.numPlayers k s) = 0 := by
    rw [← h0]; exact renum_odd R
  have P := showdown_paid hd hh hpot hpos hr hc hone hst
  have P' := showdown_paid (turn_seated hd k) (by simpa [turnTable] using hh)
    (by show d.pot = (d.potCommits.rotate k).sum; rw [hpot]; exact ((List.rotate_perm _ k).sum_eq).symm)
    (by
      show ∀ i < d.cfg.numPlayers, _
      rw [renum_forall R]; intro i hi; rw [R.c i hi]; exact hpos i hi)
    (turn_ranks hd hh k hr) (turn_clear hd k hc)
    (by show countTrue (d.active.rotate k) ≠ 1; rw [countTrue_rotate]; exact hone) hst
  have len : ∀ e : Dealer, Seated e → ∀ p, e.payouts = .ok p → p.length = e.cfg.numPlayers := by
    intro e he p hp
    exact payouts_length he hp
  cases P with
  | odd p k h h1 => exact absurd h0 h1
  | raises h h1 => exact absurd h0 h1
  | even p hp _ hrec =>
  cases P' with
  | odd p k h h1 => exact absurd h0' h1
  | raises h h1 => exact absurd h0' h1
  | even p' hp' _ hrec' =>
    have l1 := len d hd p hp
    have l2 : p'.length = d.cfg.numPlayers := len _ (turn_seated hd k) p' hp'
    refine ⟨p, hp, l1, ?_⟩
    rw [hp']
    congr 1
    refine eq_rotate l1 l2 fun a ha => ?_
    have e1 := hrec a ha
    have e2 := hrec' (turnSeat d.cfg.numPlayers k a) (R.lt a ha)
    have e3 : dueAt (turnTable k d) (turnStrength d.cfg.numPlayers k s) (turnSeat d.cfg.numPlayers k a) = dueAt d s a := renum_due R ha
    unfold received at e1 e2
    rw [e3, R.c a ha, ← e1] at e2
    have e4 : p'.getD (turnSeat d.cfg.numPlayers k a) 0 = p.getD a 0 := by omega
    have h1 : turnSeat d.cfg.numPlayers k a < p'.length := by rw [l2]; exact R.lt a ha
    rw [getD_eq _ _ _ h1, getD_eq _ _ _ (by omega)] at e4
    rw [List.getElem?_eq_getElem h1, List.getElem?_eq_getElem (by omega), e4]

end Clubs

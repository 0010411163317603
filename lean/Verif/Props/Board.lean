import Verif.Props.Division
import Verif.Props.Mandatory

/-!
# C117: playing the board
-/

namespace Clubs

open Spec Finset

variable {S : List Int} {d d' : Dealer} {bet : PyNum} {s : Nat → Int} {obs : Observation} {pays : List Int} {done : List Bool} {b : Int}

/-- **C117**: where no hole cards are mandatory nobody who is in has a worse hand than the community cards alone. (The states of both
engines.) -/
theorem C117_least (hm : d.cfg.evaluator.mandatoryHoleCards = 0) (hc : 0 ≤ d.cfg.evaluator.cardsForHand) (hr : Ranks d s)
    (hb : d.cfg.evaluator.evaluate [] d.communityCards = .ok b) {i : Nat} (hi : i < d.cfg.numPlayers) (ha : isIn d i) : s i ≤ b :=
  C14_monotone d.cfg.evaluator (by omega) (by omega) [] (d.holeCards.getD i []) d.communityCards d.communityCards (.refl _)
    (.inr ⟨hm, List.nil_sublist _⟩) b (s i) hb (hr i hi ha)

/-- if nobody beats the board and those who are in put in as much as anybody, everybody who is in can win the whole pot -/
theorem winnable_all {i : Nat} (hle : ∀ k < d.cfg.numPlayers, contribution d k ≤ contribution d i) :
    winnableAt d i = ∑ k ∈ range d.cfg.numPlayers, contribution d k := by
  unfold winnableAt winnable
  exact sum_congr rfl fun k hk => min_eq_left (hle k (mem_range.1 hk))

/-- **C117**: when at a showdown nobody's hand is better than the community cards alone, and those who are in put in the same and
nobody more, each of them gets an equal part of the pot, rounded down. -/
theorem C117_split (h : InHand S d) (hn : NonNegative S d.cfg) (hrun : Running d) (hs : d.step bet = (d', .ok (obs, pays, done)))
    (hsh : AtShowdown d') (hr : Ranks d' s) (hm : d'.cfg.evaluator.mandatoryHoleCards = 0) (hcf : 0 ≤ d'.cfg.evaluator.cardsForHand)
    (hb : d'.cfg.evaluator.evaluate [] d'.communityCards = .ok b) (hbest : ∀ k < d'.cfg.numPlayers, isIn d' k → b ≤ s k)
    {i : Nat} (hi : i < d'.cfg.numPlayers) (ha : isIn d' i) (hle : ∀ k < d'.cfg.numPlayers, contribution d' k ≤ contribution d' i)
    (heq : ∀ k < d'.cfg.numPlayers, isIn d' k → contribution d' k = contribution d' i) :
    (∑ k ∈ range d'.cfg.numPlayers, contribution d' k) / (((range d'.cfg.numPlayers).filter fun k => isIn d' k).card : Int) ≤
      received d' pays i := by
  have hall : ∀ k < d'.cfg.numPlayers, isIn d' k → s k = b := fun k hk hk' =>
    le_antisymm (C117_least hm hcf hr hb hk hk') (hbest k hk hk')
  have h1 := (C96_best h hn hrun hs hsh hr hi ha (fun k hk hk' => by rw [hall k hk hk', hall i hi ha])
    (fun k hk hk' _ => heq k hk hk')).1
  rw [winnable_all hle] at h1
  have : (range d'.cfg.numPlayers).filter (fun k => inB d' k = true ∧ s k = s i) = (range d'.cfg.numPlayers).filter fun k => isIn d' k := by
    ext k
    simp only [mem_filter, mem_range]
    constructor
    · rintro ⟨h1, h2, -⟩
      exact ⟨h1, h2⟩
    · rintro ⟨h1, h2⟩
      exact ⟨h1, h2, by rw [hall k h1 h2, hall i hi ha]⟩
  rw [this] at h1
  exact h1

/-- everybody has an ace, and there is one on the table -/
def aceBoard : DealerArgs := { ties 2 [1, 2] 10 with numCommunityCards := .list [0, 1] }

set_option synthInstance.maxSize 1024 in
/-- the hypotheses of `C117_split` -/
example : ∃ S d d' out, InHand S d ∧ Reachable d ∧ d.step (.fin 0) = (d', .ok out) ∧ NonNegative S d.cfg ∧ Running d ∧
    AtShowdown d' ∧ Ranks d' (fun _ => 1) ∧ d'.cfg.evaluator.mandatoryHoleCards = 0 ∧ 0 ≤ d'.cfg.evaluator.cardsForHand ∧
    d'.communityCards ≠ [] ∧ d'.cfg.evaluator.evaluate [] d'.communityCards = .ok 1 ∧ (∀ k < 2, isIn d' k) ∧
    (∀ k < 2, contribution d' k = 2) ∧ out.2.1 = [0, 0] :=
  step_exists aceBoard [.bet 1, .bet 0, .bet 0] (.fin 0) (by decide +kernel)

end Clubs

namespace Clubs.Numpy

open Spec Finset

variable {S : List Int} {d d' : Dealer} {bet : PyNum} {s : Nat → Int} {res : Except Err StepOut} {b : Int}

/-- **C117** for the array engine, where the showdown cannot fail -/
theorem C117_split (h : ArrayInHand S d) (hn : NonNegative S d.cfg) (hz : SizesOk d.cfg) (hrun : Running d) (hs : step d bet = (d', res))
    (hsh : AtShowdown d') (hr : Ranks d' s) (hm : d'.cfg.evaluator.mandatoryHoleCards = 0) (hcf : 0 ≤ d'.cfg.evaluator.cardsForHand)
    (hb : d'.cfg.evaluator.evaluate [] d'.communityCards = .ok b) (hbest : ∀ k < d'.cfg.numPlayers, isIn d' k → b ≤ s k)
    {i : Nat} (hi : i < d'.cfg.numPlayers) (ha : isIn d' i) (hle : ∀ k < d'.cfg.numPlayers, contribution d' k ≤ contribution d' i)
    (heq : ∀ k < d'.cfg.numPlayers, isIn d' k → contribution d' k = contribution d' i) :
    ∃ obs pays done, res = .ok (obs, pays, done) ∧
      (∑ k ∈ range d'.cfg.numPlayers, contribution d' k) / (((range d'.cfg.numPlayers).filter fun k => isIn d' k).card : Int) ≤
        received d' pays i := by
  have hall : ∀ k < d'.cfg.numPlayers, isIn d' k → s k = b := fun k hk hk' =>
    le_antisymm (C117_least hm hcf hr hb hk hk') (hbest k hk hk')
  obtain ⟨obs, pays, done, h0, h1, -⟩ := C96_best h hn hz hrun hs hsh hr (fun k hk _ => ⟨i, hi, ha, hle k hk⟩) hi ha
    (fun k hk hk' => by rw [hall k hk hk', hall i hi ha]) (fun k hk hk' _ => heq k hk hk')
  refine ⟨obs, pays, done, h0, ?_⟩
  rw [winnable_all hle] at h1
  have : (range d'.cfg.numPlayers).filter (fun k => inB d' k = true ∧ s k = s i) = (range d'.cfg.numPlayers).filter fun k => isIn d' k := by
    ext k
    simp only [mem_filter, mem_range]
    constructor
    · rintro ⟨h1, h2, -⟩
      exact ⟨h1, h2⟩
    · rintro ⟨h1, h2⟩
      exact ⟨h1, h2, by rw [hall k h1 h2, hall i hi ha]⟩
  rw [this] at h1
  exact h1

set_option synthInstance.maxSize 1024 in
/-- the hypotheses of `C117_split` -/
example : ∃ S d d' out, ArrayInHand S d ∧ ArrayReachable d ∧ step d (.fin 0) = (d', .ok out) ∧ NonNegative S d.cfg ∧ SizesOk d.cfg ∧
    Running d ∧ AtShowdown d' ∧ Ranks d' (fun _ => 1) ∧ d'.cfg.evaluator.mandatoryHoleCards = 0 ∧
    0 ≤ d'.cfg.evaluator.cardsForHand ∧ d'.communityCards ≠ [] ∧ d'.cfg.evaluator.evaluate [] d'.communityCards = .ok 1 ∧
    (∀ k < 2, isIn d' k) ∧ (∀ k < 2, contribution d' k = 2) ∧ out.2.1 = [0, 0] :=
  step_exists aceBoard [.bet 1, .bet 0, .bet 0] (.fin 0) (by decide +kernel)

end Clubs.Numpy

import Verif.Lemmas.NumpyRun
import Verif.Lemmas.Play

/-! # Concrete hands at the array engine, for examples and counterexamples -/

namespace Clubs.Numpy

open Spec

def playCmds : Played → List Cmd → Except Err Played
  | r, [] => .ok r
  | r, .bet b :: cs =>
    match step r.2.1 (.fin b) with
    | (d, .ok out) => playCmds (r.1, d, out.1) cs
    | (_, .error e) => .error e
  | r, .deal :: cs =>
    match reset r.2.1 false false id with
    | (d, .ok obs) => playCmds (r.2.1.stacks, d, obs) cs
    | (_, .error e) => .error e

/-- a new table with the button at seat 0, and a session -/
def playTable (a : DealerArgs) (cs : List Cmd) : Except Err Played :=
  (new a id).bind fun d =>
    match reset d true false id with
    | (d', .ok obs) => playCmds (d.stacks, d', obs) cs
    | (_, .error e) => .error e

theorem atSeat_of_seated {d : Dealer} (h : Seated d) : atSeat d = d := by
  unfold atSeat; rw [Nat.mod_eq_of_lt h.button]

theorem new_atSeat {a : DealerArgs} {shuf : Shuffle} {d : Dealer} (h : new a shuf = .ok d) : Seated (atSeat d) := by
  have hs : Seated d := new_seated h
  rwa [atSeat_of_seated hs]

theorem settle_atSeat (d : Dealer) (p : List Int) : atSeat (d.settle p) = (atSeat d).settle p := rfl

/-- the shape of the table does not depend on the number of the button -/
theorem step_seated {d : Dealer} (h : Seated (atSeat d)) (bet : PyNum) : Seated (atSeat (step d bet).1) := by
  have htwo : 2 ≤ d.cfg.numPlayers := h.two
  cases ha : d.action with
  | none => rw [step_none ha]; exact h
  | some a =>
    rcases step_some ha bet with ⟨e, -, he⟩ | ⟨b, e, -, -, he⟩ | ⟨b, c, lo, hi, -, hs, he⟩
    · rw [he]; exact h
    · rw [he]; exact h
    · rw [he]
      have h2 := afterBet_seated h bet.isNeg c (cleanBet b c lo hi)
      rw [← afterBet_atSeat (by omega)] at h2
      rcases finish_cases (afterBet d bet.isNeg c (cleanBet b c lo hi)) with ⟨x, hx, hf⟩ | ⟨p, hp, hd, hf, -⟩ | ⟨p, hp, hd, hf, -⟩
      · rw [hf]; exact h2
      · rw [hf, settle_atSeat]
        exact settle_seated h2 (payouts_length h2 hp)
      · rw [hf]; exact h2

theorem reset_seated {d : Dealer} (h : Seated (atSeat d)) (rb rs : Bool) (shuf : Shuffle) :
    Seated (atSeat (reset d rb rs shuf).1) := by
  rw [(reset_atSeat h rb rs shuf).1]
  exact Clubs.reset_seated h rb rs shuf

/-- every table of the array engine -/
theorem array_seated {d : Dealer} (h : ArrayReachable d) : Seated (atSeat d) := by
  induction h with
  | new hs h => exact new_atSeat h
  | reset rb rs hs h ih => exact reset_seated ih rb rs _
  | step bet h ih => exact step_seated ih bet
  | trick h hp ht ih => exact ⟨ih.1, ih.2, ih.3, ih.4, ih.5, ih.6, ih.7, ih.8, ih.9, ih.10, ih.11, ih.12, ih.13⟩
  | untrick h ih => exact ⟨ih.1, ih.2, ih.3, ih.4, ih.5, ih.6, ih.7, ih.8, ih.9, ih.10, ih.11, ih.12, ih.13⟩

def PlayedOk (r : Played) : Prop := ArrayInHand r.1 r.2.1 ∧ ArrayReachable r.2.1

theorem playCmds_ok {r r' : Played} {cs : List Cmd} (h : PlayedOk r) (hf : playCmds r cs = .ok r') : PlayedOk r' := by
  induction cs generalizing r with
  | nil =>
    simp only [playCmds, Except.ok.injEq] at hf
    rwa [← hf]
  | cons c cs ih =>
    cases c with
    | bet b =>
      rw [playCmds] at hf
      split at hf
      · next d1 out hs =>
        have h1 := ArrayInHand.step (PyNum.fin b) h.1
        have h2 := ArrayReachable.step (PyNum.fin b) h.2
        rw [hs] at h1 h2
        exact ih ⟨h1, h2⟩ hf
      · simp at hf
    | deal =>
      rw [playCmds] at hf
      split at hf
      · next d1 obs hs =>
        have h1 := ArrayInHand.dealt (rs := false) (array_seated h.2) isShuffle_id hs
        have h2 := ArrayReachable.reset false false isShuffle_id h.2
        rw [hs] at h2
        exact ih ⟨h1, h2⟩ hf
      · simp at hf

theorem playTable_ok {a : DealerArgs} {cs : List Cmd} {r : Played} (ht : playTable a cs = .ok r) : PlayedOk r := by
  unfold playTable at ht
  cases hn : new a id with
  | error e => rw [hn] at ht; simp [Except.bind] at ht
  | ok d0 =>
    rw [hn] at ht
    simp only [Except.bind] at ht
    split at ht
    · next d1 obs1 hr =>
      have h1 := ArrayInHand.dealt (rs := false) (new_atSeat hn) isShuffle_id hr
      have h2 := ArrayReachable.reset true false isShuffle_id (ArrayReachable.new isShuffle_id hn)
      rw [hr] at h2
      exact playCmds_ok ⟨h1, h2⟩ ht
    · simp at ht

/-- A state of a hand, from a computation. -/
theorem hand_exists (a : DealerArgs) (cs : List Cmd) {P : List Int → Dealer → Prop} [∀ S d, Decidable (P S d)]
    (h : (playTable a cs).bind (fun r => .ok (decide (P r.1 r.2.1))) = .ok true) :
    ∃ S d, ArrayInHand S d ∧ ArrayReachable d ∧ P S d := by
  cases ht : playTable a cs with
  | error e => rw [ht] at h; simp [Except.bind] at h
  | ok r =>
    rw [ht] at h
    simp only [Except.bind, Except.ok.injEq, decide_eq_true_eq] at h
    exact ⟨_, _, (playTable_ok ht).1, (playTable_ok ht).2, h⟩

/-- A step of a hand, from a computation. -/
theorem step_exists (a : DealerArgs) (cs : List Cmd) (bet : PyNum) {P : List Int → Dealer → Dealer → StepOut → Prop}
    [∀ S d d' out, Decidable (P S d d' out)]
    (h : (playTable a cs).bind (fun r => match step r.2.1 bet with
      | (d', .ok out) => .ok (decide (P r.1 r.2.1 d' out))
      | (_, .error e) => .error e) = .ok true) :
    ∃ S d d' out, ArrayInHand S d ∧ ArrayReachable d ∧ step d bet = (d', .ok out) ∧ P S d d' out := by
  cases ht : playTable a cs with
  | error e => rw [ht] at h; simp [Except.bind] at h
  | ok r =>
    rw [ht] at h
    simp only [Except.bind] at h
    have hr := playTable_ok ht
    split at h
    · next d' out hs =>
      simp only [Except.ok.injEq, decide_eq_true_eq] at h
      exact ⟨_, _, d', out, hr.1, hr.2, hs, h⟩
    · simp at h

/-- the sizes of the raises, as a computation -/
def sizesOkB (c : Config) : Bool :=
  decide (0 ≤ c.bigBlind) && c.raiseSizes.all fun r => match r with | .int n => decide (0 ≤ n) | _ => true

theorem sizesOkB_iff (c : Config) : sizesOkB c = true ↔ SizesOk c := by
  unfold sizesOkB SizesOk RaisesOk
  rw [Bool.and_eq_true, decide_eq_true_eq, List.all_eq_true]
  refine and_congr_right fun _ => ⟨fun h n hn => by simpa using h _ hn, fun h r hr => ?_⟩
  cases r with
  | int n => simpa using h n hr
  | pot => rfl
  | inf => rfl

instance (c : Config) : Decidable (SizesOk c) := decidable_of_iff _ (sizesOkB_iff c)

end Clubs.Numpy

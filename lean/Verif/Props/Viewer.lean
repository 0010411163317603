import Verif.Spec.Viewer
import Mathlib.Tactic.Linarith
import Mathlib.Tactic.NormNum

/-!
# C90: starting and closing the browser viewer
-/

namespace Clubs

open Spec

variable {α : Type} {attempt : Nat → Attempt α} {clock : Nat → ℚ} {start : ℚ} {fuel k n : Nat}

/-! ## the waiting loops -/

theorem waitLoop_found {a : Attempt α} (h : FirstAnswer attempt n a) (ht : InTime clock start n) :
    ∀ {fuel k : Nat}, k ≤ n → n - k < fuel → waitLoop attempt clock start fuel k =
      some (match a with | .ok a => .ok a | _ => .error .other) := by
  intro fuel
  induction fuel with
  | zero => intro k _ hf; omega
  | succ f ih =>
    intro k hk hf
    unfold waitLoop
    by_cases hkn : k = n
    · subst hkn
      rw [h.1]
      cases a with
      | ok a => rfl
      | refused => exact absurd rfl h.2.1
      | raised => rfl
    · rw [h.2.2 k (by omega)]
      simp only []
      rw [if_neg (by have := ht k (by omega); linarith), ih (by omega) (by omega)]

theorem waitLoop_timeout (h : TimedOut attempt clock start n) :
    ∀ {fuel k : Nat}, k ≤ n → n - k < fuel → waitLoop attempt clock start fuel k = some (.error .renderInitialization) := by
  intro fuel
  induction fuel with
  | zero => intro k _ hf; omega
  | succ f ih =>
    intro k hk hf
    unfold waitLoop
    rw [h.2.2 k hk]
    simp only []
    by_cases hkn : k = n
    · subst hkn
      rw [if_pos h.2.1]
    · rw [if_neg (by have := h.1 k (by omega); linarith), ih (by omega) (by omega)]

/-- the outcome of a loop determines what happened -/
theorem waitLoop_result {r : Except ViewerErr α} (hk : ∀ i < k, attempt i = .refused) (ht : InTime clock start k)
    (h : waitLoop attempt clock start fuel k = some r) :
    ∃ n, (∃ a, r = .ok a ∧ FirstAnswer attempt n (.ok a) ∧ InTime clock start n) ∨
      (r = .error .other ∧ FirstAnswer attempt n .raised ∧ InTime clock start n) ∨
      (r = .error .renderInitialization ∧ TimedOut attempt clock start n) := by
  induction fuel generalizing k with
  | zero => cases h
  | succ f ih =>
    unfold waitLoop at h
    split at h
    · next a ha =>
      cases h
      exact ⟨k, .inl ⟨a, rfl, ⟨ha, by simp, hk⟩, ht⟩⟩
    · next ha =>
      cases h
      exact ⟨k, .inr (.inl ⟨rfl, ⟨ha, by simp, hk⟩, ht⟩)⟩
    · next ha =>
      have hk' : ∀ i < k + 1, attempt i = .refused := fun i hi => by
        by_cases hik : i = k
        · rw [hik]; exact ha
        · exact hk i (by omega)
      split_ifs at h with hc
      · cases h
        exact ⟨k, .inr (.inr ⟨rfl, ht, hc, fun i hi => hk' i (by omega)⟩)⟩
      · refine ih hk' (fun i hi => ?_) h
        by_cases hik : i = k
        · rw [hik]; linarith
        · exact ht i (by omega)

/-- **C90**: a loop returns a connection exactly if the first attempt that is not refused succeeds before the ten seconds have passed. -/
theorem C90_connects {a : α} : (∃ fuel, waitLoop attempt clock start fuel 0 = some (.ok a)) ↔
    ∃ n, FirstAnswer attempt n (.ok a) ∧ InTime clock start n := by
  constructor
  · rintro ⟨fuel, h⟩
    obtain ⟨n, ⟨b, h1, h2⟩ | ⟨h1, -⟩ | ⟨h1, -⟩⟩ := waitLoop_result (fun i hi => absurd hi (by omega)) (fun i hi => absurd hi (by omega)) h
    · cases h1; exact ⟨n, h2⟩
    · cases h1
    · cases h1
  · rintro ⟨n, h1, h2⟩
    exact ⟨n + 1, waitLoop_found h1 h2 (Nat.zero_le _) (by omega)⟩

/-- **C90**: a loop gives up exactly if everything is refused until more than ten seconds have passed. -/
theorem C90_gives_up : (∃ fuel, waitLoop attempt clock start fuel 0 = some (.error .renderInitialization)) ↔
    ∃ n, TimedOut attempt clock start n := by
  constructor
  · rintro ⟨fuel, h⟩
    obtain ⟨n, ⟨b, h1, h2⟩ | ⟨h1, -⟩ | ⟨h1, h2⟩⟩ := waitLoop_result (fun i hi => absurd hi (by omega)) (fun i hi => absurd hi (by omega)) h
    · cases h1
    · cases h1
    · exact ⟨n, h2⟩
  · rintro ⟨n, h⟩
    exact ⟨n + 1, waitLoop_timeout h (Nat.zero_le _) (by omega)⟩

theorem sleeps_le (h : Sleeps clock start) (k : Nat) : start + (k + 1 : ℚ) / 100 ≤ clock k := by
  induction k with
  | zero => have := h.1; push_cast; linarith
  | succ k ih => have := h.2 k; push_cast; linarith

/-- **C90**: the loops end: sleeping a hundredth of a second after every attempt, after 1001 attempts at the latest. -/
theorem C90_ends (h : Sleeps clock start) : ∃ r, waitLoop attempt clock start 1001 0 = some r := by
  have key : ∀ fuel k, fuel + k = 1001 → 1 ≤ fuel → ∃ r, waitLoop attempt clock start fuel k = some r := by
    intro fuel
    induction fuel with
    | zero => intro k _ h0; omega
    | succ f ih =>
      intro k hk _
      unfold waitLoop
      split
      · exact ⟨_, rfl⟩
      · exact ⟨_, rfl⟩
      · split_ifs with hc
        · exact ⟨_, rfl⟩
        · refine ih (k + 1) (by omega) ?_
          by_contra hf
          have hk : k = 1000 := by omega
          have := sleeps_le h k
          rw [hk] at this hc
          norm_num at this hc
          linarith
  exact key 1001 0 rfl (by omega)

theorem waitLoop_more {r : Except ViewerErr α} {fuel' : Nat} (h : waitLoop attempt clock start fuel k = some r) (hf : fuel ≤ fuel') :
    waitLoop attempt clock start fuel' k = some r := by
  induction fuel generalizing k fuel' with
  | zero => cases h
  | succ f ih =>
    obtain ⟨f', rfl⟩ : ∃ f', fuel' = f' + 1 := ⟨fuel' - 1, by omega⟩
    unfold waitLoop at h ⊢
    split at h
    · exact h
    · exact h
    · split_ifs at h ⊢ with hc
      · exact h
      · exact ih h (by omega)

/-! ## starting -/

variable {w : Surroundings} {v : ViewerState} {sends : Bool}

/-- **C90**: a start ends, with a viewer or with an exception. -/
theorem C90_start_ends (h1 : Sleeps w.socketClock w.socketStart) (h2 : Sleeps w.flaskClock w.flaskStart) :
    ∃ v r, startViewer w 1001 = some (v, r) := by
  obtain ⟨r1, e1⟩ := C90_ends (attempt := w.socketTry) h1
  obtain ⟨r2, e2⟩ := C90_ends (attempt := w.flaskTry) h2
  unfold startViewer
  rw [e1, e2]
  split_ifs
  · exact ⟨_, _, rfl⟩
  · cases r1 with
    | error e => exact ⟨_, _, rfl⟩
    | ok u => cases r2 with
      | error e => exact ⟨_, _, rfl⟩
      | ok s =>
        simp only []
        split_ifs
        · exact ⟨_, _, rfl⟩
        · exact ⟨_, _, rfl⟩

/-- **C90**: a viewer is started exactly if the packages are installed and both connections are made in time, the second one with status 200. -/
theorem C90_starts : (∃ fuel v, startViewer w fuel = some (v, .ok ())) ↔ w.installed = true ∧
    (∃ n, FirstAnswer w.socketTry n (.ok ()) ∧ InTime w.socketClock w.socketStart n) ∧
    ∃ n, FirstAnswer w.flaskTry n (.ok 200) ∧ InTime w.flaskClock w.flaskStart n := by
  constructor
  · rintro ⟨fuel, v, h⟩
    unfold startViewer at h
    split_ifs at h with hi
    · cases h
    · split at h
      · cases h
      · cases h
      · next e1 =>
        split at h
        · cases h
        · cases h
        · next status e2 =>
          split_ifs at h with h200
          · subst h200
            exact ⟨by simpa using hi, C90_connects.1 ⟨_, e1⟩, C90_connects.1 ⟨_, e2⟩⟩
          · cases h
  · rintro ⟨hi, h1, h2⟩
    obtain ⟨f1, e1⟩ := C90_connects.2 h1
    obtain ⟨f2, e2⟩ := C90_connects.2 h2
    refine ⟨f1 + f2, ⟨some true, true⟩, ?_⟩
    unfold startViewer
    rw [waitLoop_more e1 (by omega), waitLoop_more e2 (by omega)]
    simp [hi]

/-- **C90**: a viewer that was started has a running process and a connection. -/
theorem C90_started (h : startViewer w fuel = some (v, .ok ())) : ViewerRuns v ∧ v.socket = true := by
  unfold startViewer at h
  split_ifs at h with hi
  · cases h
  · split at h
    · cases h
    · cases h
    · split at h
      · cases h
      · cases h
      · split_ifs at h <;> cases h
        exact ⟨rfl, rfl⟩

/-- **C90**: closing a viewer that was started ends its process (if the connection still works); closing it again does nothing. -/
theorem C90_close (h : startViewer w fuel = some (v, .ok ())) (sends' : Bool) : ∃ v', v.close true = (v', .ok ()) ∧ ¬ ViewerRuns v' ∧
    v'.close sends' = (v', .ok ()) := by
  obtain ⟨h1, h2⟩ := C90_started h
  obtain ⟨p, s⟩ := v
  unfold ViewerRuns at h1
  simp only at h1 h2
  subst h1 h2
  exact ⟨⟨some false, true⟩, rfl, by simp [ViewerRuns], rfl⟩

/-- **C90** (what failed starts leave behind): the process ends with the viewer exactly if the start failed after the first connection was
made. -/
theorem C90_failed {e : ViewerErr} (hw : w.installed = true) (h : startViewer w fuel = some (v, .error e)) :
    ViewerRuns v ∧ ((v.socket = true ∧ ¬ ViewerRuns (v.del true) ∧ ∃ n, FirstAnswer w.socketTry n (.ok ()) ∧ InTime w.socketClock w.socketStart n) ∨
      (v.socket = false ∧ ¬ ∃ n, FirstAnswer w.socketTry n (.ok ()) ∧ InTime w.socketClock w.socketStart n)) := by
  unfold startViewer at h
  rw [hw] at h
  simp only [Bool.not_true, Bool.false_eq_true, if_false] at h
  split at h
  · cases h
  · next e' e1 =>
    cases h
    refine ⟨rfl, .inr ⟨rfl, fun hx => ?_⟩⟩
    obtain ⟨f, hf⟩ := C90_connects.2 hx
    have := waitLoop_more hf (Nat.le_add_left f fuel)
    rw [waitLoop_more e1 (Nat.le_add_right fuel f)] at this
    cases this
  · next e1 =>
    have key : ∃ n, FirstAnswer w.socketTry n (.ok ()) ∧ InTime w.socketClock w.socketStart n := C90_connects.1 ⟨_, e1⟩
    split at h
    · cases h
    · cases h
      exact ⟨rfl, .inl ⟨rfl, by simp [ViewerRuns, ViewerState.del, ViewerState.close], key⟩⟩
    · split_ifs at h
      · cases h
      · cases h
        exact ⟨rfl, .inl ⟨rfl, by simp [ViewerRuns, ViewerState.del, ViewerState.close], key⟩⟩

/-- **C90 is false of a start that failed without a connection**: it leaves a process running that no call of `close` (or `__del__`) ends; every
call raises `AttributeError`. -/
theorem C90_leak {e : ViewerErr} (hw : w.installed = true) (h : startViewer w fuel = some (v, .error e))
    (hn : ¬ ∃ n, FirstAnswer w.socketTry n (.ok ()) ∧ InTime w.socketClock w.socketStart n) (l : List Bool) :
    ViewerRuns (closeAll v l) ∧ ∀ b, ((closeAll v l).close b).2 = .error .attribute := by
  obtain ⟨h1, ⟨-, -, h2⟩ | ⟨h2, -⟩⟩ := C90_failed hw h
  · exact absurd h2 hn
  · obtain ⟨p, s⟩ := v
    unfold ViewerRuns at h1
    simp only at h1 h2
    subst h1 h2
    have key : closeAll ⟨some true, false⟩ l = ⟨some true, false⟩ := by
      induction l with
      | nil => rfl
      | cons b l ih => exact ih
    rw [key]
    exact ⟨rfl, fun b => rfl⟩

/-- the surroundings in which nothing answers -/
def silent : Surroundings where
  installed := true
  socketStart := 0
  socketClock := fun k => (k + 1 : ℚ) / 100
  socketTry := fun _ => .refused
  flaskStart := 0
  flaskClock := fun k => (k + 1 : ℚ) / 100
  flaskTry := fun _ => .refused

theorem silent_timeout : TimedOut silent.socketTry silent.socketClock silent.socketStart 1000 := by
  refine ⟨fun i hi => ?_, ?_, fun _ _ => rfl⟩
  · show ((i : ℚ) + 1) / 100 - 0 ≤ 10
    have : (i : ℚ) + 1 ≤ 1000 := by exact_mod_cast hi
    linarith
  · show 10 < ((1000 : Nat) + 1 : ℚ) / 100 - 0
    norm_num

/-- **C90 is false in general**: a concrete start that fails and leaves its process running. -/
theorem C90_false : ∃ v, startViewer silent 1001 = some (v, .error .renderInitialization) ∧ ViewerRuns (v.del true) := by
  refine ⟨⟨some true, false⟩, ?_, rfl⟩
  unfold startViewer
  rw [show silent.installed = true from rfl, waitLoop_timeout silent_timeout (Nat.zero_le _) (by omega)]
  rfl

/-- **C90**: rendering again after a failed start starts another process: after `n` renderings without an answer `n` processes run, and there is no
viewer. -/
theorem C90_accumulate (l : List Bool) : ∃ vs, startAll (l.map fun b => (silent, 1001, b)) = some (vs, none) ∧ vs.length = l.length ∧
    ∀ v ∈ vs, ViewerRuns v := by
  have h : startViewer silent 1001 = some (⟨some true, false⟩, .error .renderInitialization) := by
    unfold startViewer
    rw [show silent.installed = true from rfl, waitLoop_timeout silent_timeout (Nat.zero_le _) (by omega)]
    rfl
  induction l with
  | nil => exact ⟨[], rfl, rfl, by simp⟩
  | cons b l ih =>
    obtain ⟨vs, h1, h2, h3⟩ := ih
    refine ⟨ViewerState.del ⟨some true, false⟩ b :: vs, ?_, ?_, ?_⟩
    · rw [List.map_cons, startAll, h, h1]
    · simp [h2]
    · intro v hv
      rcases List.mem_cons.1 hv with rfl | hv
      · rfl
      · exact h3 v hv

/-- **C90**: without the packages there is no process, and `__del__` runs into an `AttributeError` (which Python ignores). -/
theorem C90_not_installed (h : w.installed = false) (hv : startViewer w fuel = some (v, .error .missingImports)) :
    ¬ ViewerRuns v ∧ (v.close sends).2 = .error .attribute := by
  unfold startViewer at hv
  rw [h] at hv
  cases hv
  exact ⟨by simp [ViewerRuns], rfl⟩

/-- a start that succeeds at the third attempt of the first and the second of the other loop -/
def helpful : Surroundings where
  installed := true
  socketStart := 5
  socketClock := fun k => 6 + k
  socketTry := fun k => if k = 2 then .ok () else .refused
  flaskStart := 9
  flaskClock := fun k => 10 + k
  flaskTry := fun k => if k = 1 then .ok 200 else .refused

/-- the hypotheses of `C90_started` and `C90_close` -/
example : startViewer helpful 5 = some (⟨some true, true⟩, .ok ()) := by decide +kernel

/-- the hypothesis of `C90_ends` and `C90_start_ends` -/
example : Sleeps silent.socketClock silent.socketStart := by
  refine ⟨?_, fun k => ?_⟩
  · show (0 : ℚ) + 1 / 100 ≤ ((0 : Nat) + 1 : ℚ) / 100
    norm_num
  · show ((k : ℚ) + 1) / 100 + 1 / 100 ≤ (((k + 1 : Nat) : ℚ) + 1) / 100
    push_cast
    linarith

/-- the hypotheses of `C90_failed`, first case: the web server does not answer -/
example : startViewer { helpful with flaskTry := fun _ => .refused, flaskClock := fun k => 10 + 4 * k } 9 =
    some (⟨some true, true⟩, .error .renderInitialization) := by decide +kernel

/-- the hypotheses of `C90_leak`: the first connection cannot be made -/
example : startViewer { helpful with socketTry := fun _ => .refused, socketClock := fun k => 6 + 4 * k } 9 =
    some (⟨some true, false⟩, .error .renderInitialization) := by decide +kernel

end Clubs

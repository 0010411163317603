import Verif.Spec.NumpyAlias
import Verif.Lemmas.Alias
import Verif.Lemmas.NumpyPlay

/-!
# C76: what a kept observation of the array engine shows later
-/

namespace Clubs.Numpy

open Spec

variable {l l' : ArrayLive} {o : ArrayObs}

theorem live_lt (h : ArrayLiveReachable l) : l.communityCards < l.mem.length := by
  induction h with
  | @new a shuf l hs h =>
    unfold ArrayLive.new at h
    cases hd : Numpy.new a shuf with
    | error e => rw [hd] at h; simp [Except.map] at h
    | ok d =>
      rw [hd] at h
      simp only [Except.map, Except.ok.injEq] at h
      subst h
      exact Nat.one_pos
  | @reset l rb rs shuf hs h ih =>
    unfold ArrayLive.reset
    simp only []
    split
    · exact ih
    · split
      · exact ih
      · simp
  | @step l bet h ih =>
    show l.communityCards < (l.mem.set l.communityCards _).length
    rwa [List.length_set]

/-- an observation contains the community cards -/
theorem obs_community {d : Dealer} {b : Bool} {obs : Observation} (h : d.observation b = .ok obs) :
    obs.communityCards = d.communityCards := by
  unfold Dealer.observation at h
  split at h
  · simp at h
  · split at h
    · simp at h
    · simp only [Except.ok.injEq] at h
      subst h
      rfl

theorem reset_obs {d d' : Dealer} {rb rs : Bool} {shuf : Shuffle} {obs : Observation}
    (h : Numpy.reset d rb rs shuf = (d', .ok obs)) : obs.communityCards = d'.communityCards := by
  rcases reset_eq d rb rs shuf with ⟨-, -, e⟩ | ⟨-, ⟨-, e⟩ | ⟨-, e⟩⟩ <;> rw [e] at h
  · simp at h
  · simp at h
  · obtain ⟨h1, h2⟩ := Prod.mk.inj h
    rw [h1] at h2
    exact obs_community h2

theorem finish_obs {d d' : Dealer} {out : StepOut} (h : finish d = (d', .ok out)) :
    out.1.communityCards = d'.communityCards := by
  have key : ∀ {x : Dealer} {b : Bool} {p : List Int} {q : List Bool},
      ((observation x b).map fun o => (o, p, q)) = .ok out → out.1.communityCards = x.communityCards := by
    intro x b p q h
    cases ho : observation x b with
    | error e => rw [ho] at h; simp [Except.map] at h
    | ok o =>
      rw [ho] at h
      simp only [Except.map, Except.ok.injEq] at h
      subst h
      exact obs_community ho
  rcases finish_cases d with ⟨e, -, he⟩ | ⟨p, -, -, h1, h2⟩ | ⟨p, -, -, h1, h2⟩
  · rw [he] at h; simp at h
  · rw [h] at h1 h2
    rw [show d' = d.settle p from h1]
    exact key h2.symm
  · rw [h] at h1 h2
    rw [show d' = d from h1]
    exact key h2.symm

theorem step_obs {d d' : Dealer} {bet : PyNum} {out : StepOut} (h : Numpy.step d bet = (d', .ok out)) :
    out.1.communityCards = d'.communityCards := by
  cases ha : d.action with
  | none =>
    have h1 := step_none ha bet
    rw [h] at h1
    subst h1
    unfold Numpy.step at h
    rw [ha] at h
    simp only [] at h
    split at h
    · have h2 := (Prod.mk.inj h).2
      split at h2
      · simp at h2
      · split at h2
        · simp at h2
        · rename_i ho
          simp only [Except.ok.injEq] at h2
          subst h2
          exact obs_community ho
    · simp at h
  | some a =>
    rcases step_some ha bet with ⟨e, -, he⟩ | ⟨b, e, -, -, he⟩ | ⟨b, c, lo, hi, -, -, he⟩ <;> rw [he] at h
    · simp at h
    · simp at h
    · exact finish_obs h

/-- what a program sees that looks at once -/
theorem step_live (h : l.communityCards < l.mem.length) (bet : PyNum) :
    (l.step bet).1.read = (Numpy.step l.read bet).1 ∧
    (l.step bet).2.map (fun r => (r.1.look (l.step bet).1.mem, r.2)) = (Numpy.step l.read bet).2 := by
  refine ⟨?_, ?_⟩
  · show ({ (Numpy.step l.read bet).1 with communityCards :=
        (l.mem.set l.communityCards (Numpy.step l.read bet).1.communityCards).getD l.communityCards [] } : Dealer) = _
    rw [getD_set_self h]
  · cases hr : Numpy.step l.read bet with
    | mk d r =>
      unfold ArrayLive.step
      simp only [hr]
      cases r with
      | error e => rfl
      | ok out =>
        simp only [Except.map, ArrayLive.share, ArrayObs.look]
        rw [getD_set_self h, ← step_obs hr]

theorem reset_live (l : ArrayLive) (rb rs : Bool) (shuf : Shuffle) :
    (l.reset rb rs shuf).1.read = (Numpy.reset l.read rb rs shuf).1 ∧
    (l.reset rb rs shuf).2.map (ArrayObs.look (l.reset rb rs shuf).1.mem) = (Numpy.reset l.read rb rs shuf).2 ∧
    (∀ o, (l.reset rb rs shuf).2 = .ok o → o.communityCards = l.mem.length ∧
      (l.reset rb rs shuf).1.communityCards = l.mem.length ∧ ∃ cs, (l.reset rb rs shuf).1.mem = l.mem ++ [cs]) := by
  unfold ArrayLive.reset
  simp only []
  rcases reset_eq l.read rb rs shuf with ⟨e1, e2, e3⟩ | ⟨e1, ⟨e2, e3⟩ | ⟨e2, e3⟩⟩
  · rw [if_pos (by rw [e3]; exact ⟨by simp [e1], e2⟩), e3]
    exact ⟨rfl, rfl, fun o ho => by simp [Except.map] at ho⟩
  · have hnone : l.rest.cfg.numCommunityCards[0]? = none := by
      rw [List.getElem?_eq_none_iff]
      exact Nat.le_of_eq e2
    rw [hnone, e3]
    simp only []
    split
    · exact ⟨rfl, rfl, fun o ho => by simp [Except.map] at ho⟩
    · exact ⟨rfl, rfl, fun o ho => by simp [Except.map] at ho⟩
  · have hcount : ¬ ((!rs) = true ∧ countTrue (Numpy.reset l.read rb rs shuf).1.active ≤ 1) := by
      rw [e3]
      rintro ⟨h2, h3⟩
      have h5 : (posted l.read rb rs shuf).active = (l.read.fresh rb rs shuf).active := by
        unfold posted collectMultipleBets blindStart
        split <;> rfl
      rw [show ((posted l.read rb rs shuf).moveAction.moveAction,
        observation (posted l.read rb rs shuf).moveAction.moveAction false).1.active = (l.read.fresh rb rs shuf).active
        from h5] at h3
      rcases e1 with rfl | h4
      · simp at h2
      · cases rs with
        | true => simp at h2
        | false => exact absurd (show countTrue (l.read.stacks.map fun s => decide (s > 0)) ≤ 1 from h3) (by omega)
    rw [if_neg hcount]
    obtain ⟨x, hx⟩ : ∃ x, l.rest.cfg.numCommunityCards[0]? = some x := ⟨_, List.getElem?_eq_getElem e2⟩
    rw [hx]
    simp only []
    refine ⟨?_, ?_, ?_⟩
    · show ({ (Numpy.reset l.read rb rs shuf).1 with communityCards :=
          (l.mem ++ [(Numpy.reset l.read rb rs shuf).1.communityCards]).getD l.mem.length [] } : Dealer) = _
      rw [getD_append_last]
    · cases hr : Numpy.reset l.read rb rs shuf with
      | mk d r =>
        cases r with
        | error e => rfl
        | ok obs =>
          simp only [Except.map, ArrayLive.share, ArrayObs.look]
          rw [getD_append_last, ← reset_obs hr]
    · intro o ho
      cases hr : (Numpy.reset l.read rb rs shuf).2 with
      | error e => rw [hr] at ho; simp [Except.map] at ho
      | ok obs =>
        rw [hr] at ho
        simp only [Except.map, Except.ok.injEq] at ho
        subst ho
        exact ⟨rfl, trivial, _, rfl⟩

/-- **C76**: the dealer whose community cards are an object does what the dealer of `Model/Numpy` does, and a program that looks
into a dictionary when it gets it sees the observation of that model. -/
theorem C76_refines (h : ArrayLiveReachable l) :
    (∀ bet, (l.step bet).1.read = (Numpy.step l.read bet).1 ∧
      (l.step bet).2.map (fun r => (r.1.look (l.step bet).1.mem, r.2)) = (Numpy.step l.read bet).2) ∧
    (∀ rb rs shuf, (l.reset rb rs shuf).1.read = (Numpy.reset l.read rb rs shuf).1 ∧
      (l.reset rb rs shuf).2.map (ArrayObs.look (l.reset rb rs shuf).1.mem) = (Numpy.reset l.read rb rs shuf).2) :=
  ⟨fun bet => step_live (live_lt h) bet, fun rb rs shuf =>
    ⟨(reset_live l rb rs shuf).1, (reset_live l rb rs shuf).2.1⟩⟩

theorem returned_ref (h : ArrayReturned o l) : o.communityCards = l.communityCards ∧ l.communityCards < l.mem.length := by
  cases h with
  | @reset k _ rb rs shuf _ h hs hr =>
    have h1 := reset_live k rb rs shuf
    have h2 := live_lt (.reset rb rs hs h)
    rw [hr] at h1 h2
    obtain ⟨h3, h4, -⟩ := h1.2.2 o rfl
    exact ⟨h3.trans h4.symm, h2⟩
  | @step k _ bet _ pays done h hr =>
    have h2 := live_lt (.step bet h)
    rw [hr] at h2
    refine ⟨?_, h2⟩
    unfold ArrayLive.step at hr
    simp only [] at hr
    obtain ⟨h3, h4⟩ := Prod.mk.inj hr
    subst h3
    cases hx : (Numpy.step k.read bet).2 with
    | error e => rw [hx] at h4; simp [Except.map] at h4
    | ok out =>
      rw [hx] at h4
      simp only [Except.map, Except.ok.injEq, Prod.mk.injEq] at h4
      rw [← h4.1]
      rfl

theorem stepsTo_ref (h : ArrayStepsTo l l') : l'.communityCards = l.communityCards := by
  induction h with
  | refl => rfl
  | step bet _ ih => exact ih

/-- **C76**: a dictionary of the array engine that is kept while the hand goes on says what it said, except that it shows the
community cards as they are now. -/
theorem C76_follows (h : ArrayReturned o l) (hs : ArrayStepsTo l l') :
    o.look l'.mem = { o.look l.mem with communityCards := l'.read.communityCards } := by
  unfold ArrayObs.look ArrayLive.read
  rw [(returned_ref h).1, stepsTo_ref hs]

theorem step_length (l : ArrayLive) (bet : PyNum) : (l.step bet).1.mem.length = l.mem.length := List.length_set

theorem reset_mem (l : ArrayLive) (rb rs : Bool) (shuf : Shuffle) :
    (l.reset rb rs shuf).1.communityCards = l.communityCards ∧ (l.reset rb rs shuf).1.mem = l.mem ∨
    (l.reset rb rs shuf).1.communityCards = l.mem.length ∧
      ∃ cs, (l.reset rb rs shuf).1.mem = l.mem ++ [cs] := by
  unfold ArrayLive.reset
  simp only []
  split
  · exact .inl ⟨rfl, rfl⟩
  · split
    · exact .inl ⟨rfl, rfl⟩
    · exact .inr ⟨rfl, _, rfl⟩

/-- what is written later: only the current list, or new ones -/
theorem later_mem (h : ArrayLater l l') : l.mem.length ≤ l'.mem.length ∧
    (l'.communityCards = l.communityCards ∨ l.mem.length ≤ l'.communityCards) ∧
    ∀ r, r < l.mem.length → r ≠ l.communityCards → l'.mem.getD r [] = l.mem.getD r [] := by
  induction h with
  | refl => exact ⟨le_rfl, .inl rfl, fun _ _ _ => rfl⟩
  | @step l' bet _ ih =>
    obtain ⟨h1, h2, h3⟩ := ih
    refine ⟨by rw [step_length]; exact h1, h2, fun r hr hn => ?_⟩
    rw [← h3 r hr hn]
    exact getD_set_ne (by omega)
  | @reset l' rb rs shuf _ ih =>
    obtain ⟨h1, h2, h3⟩ := ih
    rcases reset_mem l' rb rs shuf with ⟨e1, e2⟩ | ⟨e1, cs, e2⟩
    · rw [e1, e2]
      exact ⟨h1, h2, h3⟩
    · rw [e1, e2]
      refine ⟨by simp only [List.length_append, List.length_singleton]; omega, .inr h1, fun r hr hn => ?_⟩
      rw [getD_append_left' (by omega), h3 r hr hn]

/-- **C76**: once a new hand has been dealt, the dictionaries of earlier hands do not change any more. -/
theorem C76_frozen {l₁ l₂ l₃ : ArrayLive} {rb rs : Bool} {shuf : Shuffle} {o' : ArrayObs} (h : ArrayReturned o l)
    (h1 : ArrayLater l l₁) (hr : l₁.reset rb rs shuf = (l₂, .ok o')) (h2 : ArrayLater l₂ l₃) :
    o.look l₃.mem = o.look l₁.mem := by
  obtain ⟨e1, e2⟩ := returned_ref h
  obtain ⟨a1, -, -⟩ := later_mem h1
  obtain ⟨-, -, b3⟩ := later_mem h2
  have key : l₂.communityCards = l₁.mem.length ∧ ∃ cs, l₂.mem = l₁.mem ++ [cs] := by
    have := (reset_live l₁ rb rs shuf).2.2 o'
    rw [hr] at this
    exact (this rfl).2
  obtain ⟨k1, cs, k2⟩ := key
  unfold ArrayObs.look
  rw [e1, b3 _ (by rw [k2]; simp; omega) (by omega), k2, getD_append_left' (by omega)]

/-- the dealer after some more steps -/
def arraySteps (l : ArrayLive) : List PyNum → ArrayLive
  | [] => l
  | b :: bs => arraySteps (l.step b).1 bs

theorem arraySteps_to (l : ArrayLive) (bs : List PyNum) : ∀ {k : ArrayLive}, ArrayStepsTo k l → ArrayStepsTo k (arraySteps l bs) := by
  induction bs generalizing l with
  | nil => exact fun h => h
  | cons b bs ih => exact fun h => ih _ (.step b h)

theorem arraySteps_later (l : ArrayLive) (bs : List PyNum) : ∀ {k : ArrayLive}, ArrayLater k l → ArrayLater k (arraySteps l bs) := by
  induction bs generalizing l with
  | nil => exact fun h => h
  | cons b bs ih => exact fun h => ih _ (.step b h)

/-- the first dictionary of a table, from a computation -/
theorem array_returned_exists (a : DealerArgs) {P : ArrayObs → ArrayLive → Prop} [∀ o l, Decidable (P o l)]
    (h : (ArrayLive.new a id).bind (fun l => match l.reset true true id with
      | (l', .ok o) => .ok (decide (P o l'))
      | (_, .error e) => .error e) = .ok true) : ∃ o l, ArrayReturned o l ∧ P o l := by
  cases hn : ArrayLive.new a id with
  | error e => rw [hn] at h; simp [Except.bind] at h
  | ok l =>
    rw [hn] at h
    simp only [Except.bind] at h
    split at h
    · next l' o hr =>
      simp only [Except.ok.injEq, decide_eq_true_eq] at h
      exact ⟨o, l', .reset (.new isShuffle_id hn) isShuffle_id hr, h⟩
    · simp at h

/-- **C76**: so the first dictionary of a hand shows the community cards that are dealt later, next to the stacks of the beginning. -/
theorem C76_changes : ∃ o l l', ArrayReturned o l ∧ ArrayStepsTo l l' ∧ (o.look l.mem).communityCards = [] ∧
    (o.look l'.mem).communityCards.length = 1 ∧ (o.look l'.mem).stacks = [10, 9, 8] ∧ l'.read.stacks = [8, 8, 8] := by
  obtain ⟨o, l, h, h1⟩ := array_returned_exists { small 3 [1, 2, 0] 10 with numCommunityCards := .list [0, 1] }
    (P := fun o l =>
    (o.look l.mem).communityCards = [] ∧
    (o.look (arraySteps l [.fin 2, .fin 1, .fin 0]).mem).communityCards.length = 1 ∧
    (o.look (arraySteps l [.fin 2, .fin 1, .fin 0]).mem).stacks = [10, 9, 8] ∧
    (arraySteps l [.fin 2, .fin 1, .fin 0]).read.stacks = [8, 8, 8]) (by decide +kernel)
  exact ⟨o, l, _, h, arraySteps_to l _ (.refl l), h1⟩

/-- the hypotheses of `C76_frozen` are met -/
example : ∃ o l l₁ l₂ l₃ o', ArrayReturned o l ∧ ArrayLater l l₁ ∧ l₁.reset false false id = (l₂, .ok o') ∧ ArrayLater l₂ l₃ ∧
    o.look l₁.mem ≠ o.look l.mem ∧ o'.look l₃.mem ≠ o'.look l₂.mem := by
  obtain ⟨o, l, h, h1⟩ := array_returned_exists { small 3 [1, 2, 0] 10 with numCommunityCards := .list [0, 1] }
    (P := fun o l =>
    (match (arraySteps l [.fin 2, .fin 1, .fin 0, .fin 0, .fin 0, .fin 0]).reset false false id with
      | (l₂, .ok o') => decide (
          o.look (arraySteps l [.fin 2, .fin 1, .fin 0, .fin 0, .fin 0, .fin 0]).mem ≠ o.look l.mem ∧
          o'.look (arraySteps l₂ [.fin 2, .fin 1, .fin 0]).mem ≠ o'.look l₂.mem)
      | _ => false) = true) (by decide +kernel)
  split at h1
  · next l₂ o' hr =>
    simp only [decide_eq_true_eq] at h1
    exact ⟨o, l, _, l₂, _, o', h, arraySteps_later l _ (.refl l), hr, arraySteps_later l₂ _ (.refl l₂), h1⟩
  · simp at h1

end Clubs.Numpy

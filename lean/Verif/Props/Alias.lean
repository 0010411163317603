import Verif.Lemmas.Alias
import Verif.Lemmas.Play

/-!
# C75: what a kept observation shows later
-/

namespace Clubs

open Spec

variable {l l' l'' : LiveDealer} {o : LiveObs}

/-- **C75**: the dealer whose lists are objects does what the dealer of `Model/Engine` does, and a program that looks into a
dictionary when it gets it sees the observation of that model. So everything proved about observations holds at that time. -/
theorem C75_refines (h : LiveReachable l) :
    (∀ bet, (l.step bet).1.read = (l.read.step bet).1 ∧
      (l.step bet).2.map (fun r => (r.1.look (l.step bet).1.mem, r.2)) = (l.read.step bet).2) ∧
    (∀ rb rs shuf, (l.reset rb rs shuf).1.read = (l.read.reset rb rs shuf).1 ∧
      (l.reset rb rs shuf).2.map (LiveObs.look (l.reset rb rs shuf).1.mem) = (l.read.reset rb rs shuf).2) :=
  ⟨fun bet => (step_refines (live_sep h) bet).2, fun rb rs shuf => (reset_refines (live_sep h) rb rs shuf).2⟩

/-- **C75**: the objects are those of a dealer that a program can have. -/
theorem C75_reachable (h : LiveReachable l) : Reachable l.read := by
  induction h with
  | new hs h => exact .new hs (new_sep h).2
  | @reset l rb rs shuf hs h ih =>
    rw [(reset_refines (live_sep h) rb rs shuf).2.1]
    exact .reset _ _ hs ih
  | @step l bet h ih =>
    rw [(step_refines (live_sep h) bet).2.1]
    exact .step _ ih

/-- **C75**: a dictionary that is kept while the hand goes on shows who is in and the community cards as they are now; it shows
the stacks as they are now until the hand ends, and the bets of the street as they are now until the street ends. -/
theorem C75_follows (h : Returned o l) (hs : StepsTo l l') :
    (o.look l'.mem).active = l'.read.active ∧
    (o.look l'.mem).communityCards = l'.read.communityCards ∧
    (l'.read.action ≠ none → (o.look l'.mem).stacks = l'.read.stacks) ∧
    (l'.read.street = l.read.street → (o.look l'.mem).streetCommits = l'.read.streetCommits) := by
  obtain ⟨-, b, hb⟩ := returned_observes h
  obtain ⟨h1, h2, h3, h4, -⟩ := observation_refs hb
  have hk := stepsTo_stays hs
  refine ⟨?_, ?_, ?_, ?_⟩
  · show l'.mem.bools.getD o.active [] = l'.mem.bools.getD l'.active []
    rw [h1, hk.active]
  · show l'.mem.cards.getD o.communityCards [] = l'.mem.cards.getD l'.communityCards []
    rw [h4, hk.community]
  · intro ha
    show l'.mem.ints.getD o.stacks [] = l'.mem.ints.getD l'.stacks []
    rw [h2, hk.stacks' ha]
  · intro ha
    show l'.mem.ints.getD o.streetCommits [] = l'.mem.ints.getD l'.streetCommits []
    rw [h3, hk.streetCommits ha]

/-- **C75**: the other entries never change, whatever is called later. -/
theorem C75_fixed (h : Returned o l) (hs : Later l l') :
    (o.look l'.mem).holeCards = (o.look l.mem).holeCards ∧ (o.look l'.mem).action = (o.look l.mem).action ∧
    (o.look l'.mem).button = (o.look l.mem).button ∧ (o.look l'.mem).call = (o.look l.mem).call ∧
    (o.look l'.mem).minRaise = (o.look l.mem).minRaise ∧ (o.look l'.mem).maxRaise = (o.look l.mem).maxRaise ∧
    (o.look l'.mem).pot = (o.look l.mem).pot := by
  obtain ⟨h0, b, hb⟩ := returned_observes h
  obtain ⟨-, -, -, -, -, -, h7⟩ := observation_refs hb
  have hmem : o.holeCards ∈ l.holeCards := pyGet_mem h7
  obtain ⟨h8, h9⟩ := (live_sep h0).hole _ hmem
  exact ⟨(later_moves hs).cards _ h8 h9, rfl, rfl, rfl, rfl, rfl, rfl⟩

/-- **C75**: once a new hand has been dealt, the dictionaries of earlier hands do not change any more. -/
theorem C75_frozen {l₁ l₂ l₃ : LiveDealer} {rb rs : Bool} {shuf : Shuffle} {o' : LiveObs} (h : Returned o l) (h1 : Later l l₁)
    (hr : l₁.reset rb rs shuf = (l₂, .ok o')) (h2 : Later l₂ l₃) : o.look l₃.mem = o.look l₁.mem := by
  obtain ⟨h0, b, hb⟩ := returned_observes h
  obtain ⟨e1, e2, e3, e4, -, -, h7⟩ := observation_refs hb
  have hsep := live_sep h0
  obtain ⟨h8, h9⟩ := hsep.hole _ (pyGet_mem h7)
  have m1 := later_moves h1
  obtain ⟨r1, r2, r3, r4, -⟩ := reset_renews hr
  have m3 : Moves l₂ l₃ := later_moves h2
  obtain ⟨k1, k2, k3⟩ := reset_keeps l₁ rb rs shuf
  rw [hr] at k1 k2 k3
  have m2 := reset_moves l₁ rb rs shuf
  rw [hr] at m2
  have i1 := hsep.active.trans_le m1.boolsLen
  have i2 := hsep.stacks'.trans_le m1.intsLen
  have i3 := hsep.streetCommits.trans_le m1.intsLen
  have i4 := hsep.community.trans_le m1.cardsLen
  have i5 := h8.trans_le m1.cardsLen
  unfold LiveObs.look
  rw [e1, e2, e3, e4, m3.bools _ (i1.trans_le m2.boolsLen) (by omega), k1 _ i1,
    m3.ints _ (i2.trans_le m2.intsLen) (by omega) (by omega), k2 _ i2,
    m3.ints _ (i3.trans_le m2.intsLen) (by omega) (by omega), k2 _ i3,
    m3.cards _ (i4.trans_le m2.cardsLen) (by omega), k3 _ i4, m3.cards _ (i5.trans_le m2.cardsLen) (by omega), k3 _ i5]

/-- **C75**: the other way round, a program that writes into the list `o["stacks"]` of the latest dictionary changes the stacks of
the dealer, and nothing else. -/
theorem C75_writeStacks (h : Returned o l) (v : List Int) : (writeStacks l o v).read = { l.read with «stacks» := v } := by
  obtain ⟨h0, b, hb⟩ := returned_observes h
  obtain ⟨-, e2, -⟩ := observation_refs hb
  have hsep := live_sep h0
  unfold writeStacks LiveDealer.read
  simp only []
  rw [e2, getD_set_self hsep.stacks', getD_set_ne hsep.ne]

/-- **C75**: a program that writes into the list `o["hole_cards"]` changes the hole cards of the player to act (of the last seat,
when the hand is over), and nothing else. -/
theorem C75_writeHole (h : Returned o l) (v : List Card) : (writeHole l o v).read = { l.read with
    holeCards := l.read.holeCards.set ((l.read.action).getD (l.read.holeCards.length - 1)) v } := by
  obtain ⟨h0, b, hb⟩ := returned_observes h
  obtain ⟨-, -, -, -, -, -, e7⟩ := observation_refs hb
  have hsep := live_sep h0
  obtain ⟨h8, h9⟩ := hsep.hole _ (pyGet_mem e7)
  obtain ⟨k, hk, hk', hk2⟩ : ∃ k, ∃ hk : k < l.holeCards.length, l.holeCards[k] = o.holeCards ∧
      l.rest.action.getD (l.holeCards.length - 1) = k := by
    have hlen := List.length_pos_of_mem (pyGet_mem e7)
    cases ha : l.rest.action with
    | none =>
      rw [ha] at e7
      have h1 : pyGet l.holeCards (-1) = .ok (l.holeCards[l.holeCards.length - 1]'(by omega)) := by
        unfold pyGet
        rw [if_pos (by omega : (-1 : Int) < 0), if_neg (by omega),
          show ((-1 : Int) + (l.holeCards.length : Int)).toNat = l.holeCards.length - 1 by omega,
          List.getElem?_eq_getElem (by omega)]
      have h2 := e7.symm.trans h1
      simp only [Except.ok.injEq] at h2
      exact ⟨_, by omega, h2.symm, rfl⟩
    | some a =>
      rw [ha] at e7
      simp only [] at e7
      have hlt : a < l.holeCards.length := by
        by_contra hc
        unfold pyGet at e7
        rw [if_neg (by omega : ¬ (a : Int) < 0), if_neg (by omega), Int.toNat_natCast,
          List.getElem?_eq_none (by omega)] at e7
        simp at e7
      rw [pyGet_nat hlt, Except.ok.injEq] at e7
      exact ⟨a, hlt, e7, rfl⟩
  unfold writeHole LiveDealer.read
  simp only [List.length_map]
  rw [hk2, getD_set_ne h9]
  congr 1
  apply ext_getD [] (by simp)
  intro i hi
  rw [List.length_map] at hi
  rw [getD_map _ _ _ 0 _ hi, getD_eq _ _ _ hi]
  by_cases hik : k = i
  · subst hik
    rw [hk', getD_set_self h8, getD_set_self (by simpa using hk)]
  · rw [getD_set_ne hik, getD_map _ _ _ 0 _ hi, getD_eq _ _ _ hi, getD_set_ne]
    intro he
    rw [← hk'] at he
    exact hik ((hsep.holeNodup.getElem_inj_iff).1 he)

/-- the dealer after some more steps -/
def liveSteps (l : LiveDealer) : List PyNum → LiveDealer
  | [] => l
  | b :: bs => liveSteps (l.step b).1 bs

theorem liveSteps_to (l : LiveDealer) (bs : List PyNum) : ∀ {k : LiveDealer}, StepsTo k l → StepsTo k (liveSteps l bs) := by
  induction bs generalizing l with
  | nil => exact fun h => h
  | cons b bs ih => exact fun h => ih _ (.step b h)

theorem liveSteps_later (l : LiveDealer) (bs : List PyNum) : ∀ {k : LiveDealer}, Later k l → Later k (liveSteps l bs) := by
  induction bs generalizing l with
  | nil => exact fun h => h
  | cons b bs ih => exact fun h => ih _ (.step b h)

/-- the first dictionary of a table, from a computation -/
theorem returned_exists (a : DealerArgs) {P : LiveObs → LiveDealer → Prop} [∀ o l, Decidable (P o l)]
    (h : (LiveDealer.new a id).bind (fun l => match l.reset true true id with
      | (l', .ok o) => .ok (decide (P o l'))
      | (_, .error e) => .error e) = .ok true) : ∃ o l, Returned o l ∧ P o l := by
  cases hn : LiveDealer.new a id with
  | error e => rw [hn] at h; simp [Except.bind] at h
  | ok l =>
    rw [hn] at h
    simp only [Except.bind] at h
    split at h
    · next l' o hr =>
      simp only [Except.ok.injEq, decide_eq_true_eq] at h
      exact ⟨o, l', .reset (.new isShuffle_id hn) isShuffle_id hr, h⟩
    · simp at h

/-- **C75**: so an observation is not a record of the moment: after `reset` on a table of three, a call of the player on the button
changes the stacks and the bets of the street in the dictionary that `reset` has returned, while the pot in it stays. -/
theorem C75_changes : ∃ o l l', Returned o l ∧ StepsTo l l' ∧ (o.look l.mem).stacks = [10, 9, 8] ∧
    (o.look l'.mem).stacks = [8, 9, 8] ∧ (o.look l.mem).streetCommits = [0, 1, 2] ∧
    (o.look l'.mem).streetCommits = [2, 1, 2] ∧ (o.look l.mem).pot = 3 ∧ (o.look l'.mem).pot = 3 := by
  obtain ⟨o, l, h, h1⟩ := returned_exists (small 3 [1, 2, 0] 10) (P := fun o l =>
    (o.look l.mem).stacks = [10, 9, 8] ∧
    (o.look (liveSteps l [.fin 2]).mem).stacks = [8, 9, 8] ∧ (o.look l.mem).streetCommits = [0, 1, 2] ∧
    (o.look (liveSteps l [.fin 2]).mem).streetCommits = [2, 1, 2] ∧ (o.look l.mem).pot = 3 ∧
    (o.look (liveSteps l [.fin 2]).mem).pot = 3) (by decide +kernel)
  exact ⟨o, l, _, h, liveSteps_to l [.fin 2] (.refl l), h1⟩

/-- **C75** as one would like it, that a dictionary says what it said when it was returned, is false. -/
theorem C75_false : ¬ ∀ o l l', Returned o l → StepsTo l l' → o.look l'.mem = o.look l.mem := by
  intro hall
  obtain ⟨o, l, l', h, hs, h1, h2, -⟩ := C75_changes
  rw [hall o l l' h hs, h1] at h2
  exact absurd h2 (by decide)

/-- the hypotheses of `C75_follows` are met on the first street, on the second, and at the end -/
example : ∃ o l l₁ l₂ l₃, Returned o l ∧ StepsTo l l₁ ∧ StepsTo l l₂ ∧ StepsTo l l₃ ∧ l₁.read.street = l.read.street ∧
    l₁.read.action ≠ none ∧ l₂.read.street ≠ l.read.street ∧ l₂.read.action ≠ none ∧ l₃.read.action = none ∧
    (o.look l₂.mem).streetCommits ≠ l₂.read.streetCommits ∧ (o.look l₃.mem).stacks ≠ l₃.read.stacks := by
  obtain ⟨o, l, h, h1⟩ := returned_exists (small 3 [1, 2, 0] 10) (P := fun o l =>
    (liveSteps l [.fin 2]).read.street = l.read.street ∧ (liveSteps l [.fin 2]).read.action ≠ none ∧
    (liveSteps l [.fin 2, .fin 1, .fin 0]).read.street ≠ l.read.street ∧
    (liveSteps l [.fin 2, .fin 1, .fin 0]).read.action ≠ none ∧
    (liveSteps l [.fin (-1), .fin (-1)]).read.action = none ∧
    (o.look (liveSteps l [.fin 2, .fin 1, .fin 0]).mem).streetCommits ≠
      (liveSteps l [.fin 2, .fin 1, .fin 0]).read.streetCommits ∧
    (o.look (liveSteps l [.fin (-1), .fin (-1)]).mem).stacks ≠ (liveSteps l [.fin (-1), .fin (-1)]).read.stacks)
    (by decide +kernel)
  exact ⟨o, l, _, _, _, h, liveSteps_to l _ (.refl l), liveSteps_to l _ (.refl l), liveSteps_to l _ (.refl l), h1⟩

/-- the hypotheses of `C75_frozen` are met -/
example : ∃ o l l₁ l₂ l₃ o', Returned o l ∧ Later l l₁ ∧ l₁.reset false false id = (l₂, .ok o') ∧ Later l₂ l₃ ∧
    o.look l₁.mem ≠ o.look l.mem ∧ o'.look l₃.mem ≠ o'.look l₂.mem := by
  obtain ⟨o, l, h, h1⟩ := returned_exists (small 3 [1, 2, 0] 10) (P := fun o l =>
    (match (liveSteps l [.fin 2, .fin (-1), .fin (-1)]).reset false false id with
      | (l₂, .ok o') => decide (o.look (liveSteps l [.fin 2, .fin (-1), .fin (-1)]).mem ≠ o.look l.mem ∧
          o'.look (liveSteps l₂ [.fin 2]).mem ≠ o'.look l₂.mem)
      | _ => false) = true) (by decide +kernel)
  split at h1
  · next l₂ o' hr =>
    simp only [decide_eq_true_eq] at h1
    exact ⟨o, l, _, l₂, _, o', h, liveSteps_later l _ (.refl l), hr, liveSteps_later l₂ [.fin 2] (.refl l₂), h1⟩
  · simp at h1

end Clubs

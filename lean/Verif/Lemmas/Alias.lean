import Verif.Spec.Alias
import Verif.Lemmas.Steps

/-!
# Helper lemmas: lists as objects
-/

namespace Clubs

open Spec

/-- the references of a dealer point to lists, different ones to different lists -/
structure Sep (l : LiveDealer) : Prop where
  active : l.active < l.mem.bools.length
  stacks' : l.stacks < l.mem.ints.length
  streetCommits : l.streetCommits < l.mem.ints.length
  ne : l.stacks ≠ l.streetCommits
  community : l.communityCards < l.mem.cards.length
  hole : ∀ r ∈ l.holeCards, r < l.mem.cards.length ∧ r ≠ l.communityCards
  holeNodup : l.holeCards.Nodup

theorem getD_set_self {α : Type} {l : List α} {i : Nat} {x y : α} (h : i < l.length) : (l.set i x).getD i y = x := by
  rw [getD_eq _ _ _ (by simpa using h)]; simp

theorem getD_set_ne {α : Type} {l : List α} {i j : Nat} {x y : α} (h : i ≠ j) : (l.set i x).getD j y = l.getD j y := by
  simp [List.getD, List.getElem?_set_ne h]

theorem getD_append_left' {α : Type} {l l' : List α} {i : Nat} {y : α} (h : i < l.length) :
    (l ++ l').getD i y = l.getD i y := by
  simp [List.getD, List.getElem?_append_left h]

theorem getD_append_last {α : Type} {l : List α} {x y : α} : (l ++ [x]).getD l.length y = x := by
  simp [List.getD]

variable {l : LiveDealer}

theorem read_inPlace (h : Sep l) (d : Dealer) : (l.inPlace d).read = { d with holeCards := l.read.holeCards } := by
  unfold LiveDealer.read LiveDealer.inPlace
  simp only []
  rw [getD_set_self h.active, getD_set_self h.community, getD_set_self (by simpa using h.streetCommits),
    getD_set_ne h.ne.symm, getD_set_self h.stacks']
  congr 1
  apply List.map_congr_left
  intro r hr
  rw [getD_set_ne (h.hole r hr).2.symm]

theorem inPlace_sep (h : Sep l) (d : Dealer) : Sep (l.inPlace d) := by
  unfold LiveDealer.inPlace
  exact ⟨by simpa using h.active, by simpa using h.stacks', by simpa using h.streetCommits, h.ne, by simpa using h.community,
    by simpa using h.hole, h.holeNodup⟩

theorem read_newStacks (h : Sep l) (v : List Int) : (l.newStacks v).read = { l.read with «stacks» := v } := by
  unfold LiveDealer.read LiveDealer.newStacks
  simp only []
  rw [getD_append_last, getD_append_left' h.streetCommits]

theorem newStacks_sep (h : Sep l) (v : List Int) : Sep (l.newStacks v) := by
  unfold LiveDealer.newStacks
  refine ⟨h.active, by simp, ?_, ?_, h.community, h.hole, h.holeNodup⟩
  · have := h.streetCommits
    simp only [List.length_append, List.length_singleton]
    omega
  · have := h.streetCommits
    simp only []
    omega

theorem read_newStreetCommits (h : Sep l) (v : List Int) : (l.newStreetCommits v).read = { l.read with streetCommits := v } := by
  unfold LiveDealer.read LiveDealer.newStreetCommits
  simp only []
  rw [getD_append_last, getD_append_left' h.stacks']

theorem newStreetCommits_sep (h : Sep l) (v : List Int) : Sep (l.newStreetCommits v) := by
  unfold LiveDealer.newStreetCommits
  refine ⟨h.active, ?_, by simp, ?_, h.community, h.hole, h.holeNodup⟩
  · have := h.stacks'
    simp only [List.length_append, List.length_singleton]
    omega
  · have := h.stacks'
    simp only []
    omega

theorem read_newActive (v : List Bool) : (l.newActive v).read = { l.read with active := v } := by
  unfold LiveDealer.read LiveDealer.newActive
  simp only []
  rw [getD_append_last]

theorem newActive_sep (h : Sep l) (v : List Bool) : Sep (l.newActive v) := by
  unfold LiveDealer.newActive
  exact ⟨by simp, h.stacks', h.streetCommits, h.ne, h.community, h.hole, h.holeNodup⟩

theorem read_newCards (comm : List Card) (hole : List (List Card)) :
    (l.newCards comm hole).read = { l.read with communityCards := comm, holeCards := hole } := by
  unfold LiveDealer.read LiveDealer.newCards
  simp only []
  have h1 : (l.mem.cards ++ comm :: hole).getD l.mem.cards.length [] = comm := by simp [List.getD]
  rw [h1]
  congr 1
  rw [List.map_map]
  apply ext_getD [] (by simp)
  intro i hi
  rw [List.length_map, List.length_range] at hi
  rw [getD_map _ _ _ 0 _ (by simpa using hi), getD_eq (List.range hole.length) _ _ (by simpa using hi), List.getElem_range]
  show (l.mem.cards ++ comm :: hole).getD (l.mem.cards.length + 1 + i) [] = _
  simp only [List.getD]
  rw [List.getElem?_append_right (by omega), show l.mem.cards.length + 1 + i - l.mem.cards.length = i + 1 by omega,
    List.getElem?_cons_succ]

theorem newCards_sep (h : Sep l) (comm : List Card) (hole : List (List Card)) : Sep (l.newCards comm hole) := by
  unfold LiveDealer.newCards
  refine ⟨h.active, h.stacks', h.streetCommits, h.ne, by simp, ?_, ?_⟩
  · intro r hr
    obtain ⟨i, hi, rfl⟩ := List.mem_map.1 hr
    rw [List.mem_range] at hi
    simp only [List.length_append, List.length_cons]
    omega
  · refine List.Nodup.map ?_ List.nodup_range
    intro a b hab
    simp only [] at hab
    omega

theorem withRest_sep (h : Sep l) (d : Dealer) : Sep (l.withRest d) :=
  ⟨h.active, h.stacks', h.streetCommits, h.ne, h.community, h.hole, h.holeNodup⟩

/-- what the lists say does not depend on the rest -/
theorem read_withRest (d : Dealer) : (l.withRest d).read = { d with
    active := l.read.active, «stacks» := l.read.stacks, streetCommits := l.read.streetCommits
    communityCards := l.read.communityCards, holeCards := l.read.holeCards } := rfl

theorem pyGet_map {α β : Type} (f : α → β) (xs : List α) (i : Int) : pyGet (xs.map f) i = (pyGet xs i).map f := by
  unfold pyGet
  rw [List.length_map]
  generalize (if i < 0 then i + (xs.length : Int) else i) = j
  simp only [List.getElem?_map]
  by_cases h : j < 0
  · rw [if_pos h, if_pos h]; rfl
  · rw [if_neg h, if_neg h]
    cases xs[j.toNat]? <;> rfl

theorem look_observation (done : Bool) :
    (l.observation done).map (LiveObs.look l.mem) = l.read.observation done := by
  unfold LiveDealer.observation Dealer.observation
  cases (if done then .ok (0, 0, 0) else l.read.betSizes : Except Err (Int × Int × Int)) with
  | error e => rfl
  | ok x =>
    obtain ⟨c, lo, hi⟩ := x
    simp only []
    rw [show l.read.holeCards = l.holeCards.map fun r => l.mem.cards.getD r [] from rfl, pyGet_map,
      show l.read.action = l.rest.action from rfl]
    cases pyGet l.holeCards (match l.rest.action with | some a => (a : Int) | none => -1) with
    | error e => rfl
    | ok r => rfl

/-- `nextStreet` leaves the chips and the seats alone -/
theorem nextStreet_kept (d : Dealer) : d.nextStreet.holeCards = d.holeCards ∧ d.nextStreet.active = d.active ∧
    d.nextStreet.stacks = d.stacks := by
  obtain ⟨-, -, -, -, h1, h2, -, -, -, -, -, h3⟩ := nextStreet_fields d
  exact ⟨h3, h1, h2⟩

theorem act_refines (h : Sep l) (fold : Bool) (call bet : Int) :
    Sep (l.act fold call bet) ∧ (l.act fold call bet).read = l.read.act fold call bet := by
  refine ⟨inPlace_sep h _, ?_⟩
  unfold LiveDealer.act
  rw [read_inPlace h]
  have : (l.read.act fold call bet).holeCards = l.read.holeCards := by
    rw [act_eq]; rfl
  rw [← this]

theorem nextStreet_refines (h : Sep l) : Sep l.nextStreet ∧ l.nextStreet.read = l.read.nextStreet := by
  unfold LiveDealer.nextStreet
  refine ⟨newStreetCommits_sep (inPlace_sep h _) _, ?_⟩
  rw [read_newStreetCommits (inPlace_sep h _), read_inPlace h]
  have := (nextStreet_kept l.read).1
  rw [← this]

theorem finish_refines (h : Sep l) : Sep l.finish.1 ∧ l.finish.1.read = l.read.finish.1 ∧
    l.finish.2.map (fun o => (o.1.look l.finish.1.mem, o.2)) = l.read.finish.2 := by
  unfold LiveDealer.finish Dealer.finish
  simp only []
  cases l.read.payouts with
  | error e => exact ⟨h, rfl, rfl⟩
  | ok p =>
    have key : ∀ (k : LiveDealer) (b : Bool), ((match k.observation b with
        | .error e => .error e
        | .ok obs => .ok (obs, p, l.read.done) : Except Err LiveOut).map fun o => (o.1.look k.mem, o.2)) =
        (match k.read.observation b with
        | .error e => .error e
        | .ok obs => .ok (obs, p, l.read.done) : Except Err StepOut) := by
      intro k b
      rw [← look_observation]
      cases k.observation b <;> rfl
    simp only []
    by_cases hd : l.read.done.all id = true
    · rw [if_pos hd, if_pos hd]
      have hs := withRest_sep h { l.read with action := none, pot := 0 }
      refine ⟨newStacks_sep hs _, ?_, ?_⟩
      · rw [read_newStacks hs, read_withRest]
      · refine (key ((l.withRest { l.read with action := none, pot := 0 }).newStacks (List.zipWith (· + ·)
          (List.zipWith (· + ·) l.read.stacks p) l.read.potCommits)) (l.read.done.all id)).trans ?_
        rw [read_newStacks hs, read_withRest]
        rfl
    · rw [if_neg hd, if_neg hd]
      exact ⟨h, rfl, key _ _⟩

theorem step_refines (h : Sep l) (bet : PyNum) : Sep (l.step bet).1 ∧ (l.step bet).1.read = (l.read.step bet).1 ∧
    (l.step bet).2.map (fun o => (o.1.look (l.step bet).1.mem, o.2)) = (l.read.step bet).2 := by
  unfold LiveDealer.step Dealer.step
  simp only []
  cases ha : l.read.action with
  | none =>
    simp only []
    by_cases hany : l.read.active.any id = true
    · rw [if_pos hany, if_pos hany]
      refine ⟨h, rfl, ?_⟩
      cases l.read.payouts with
      | error e => rfl
      | ok p =>
        simp only []
        rw [← look_observation]
        cases l.observation (l.read.done.all id) <;> rfl
    · rw [if_neg hany, if_neg hany]
      exact ⟨h, rfl, rfl⟩
  | some a =>
    simp only []
    cases pyRound bet with
    | error e => exact ⟨h, rfl, rfl⟩
    | ok b =>
      simp only []
      cases l.read.betSizes with
      | error e => exact ⟨h, rfl, rfl⟩
      | ok x =>
        obtain ⟨c, lo, hi⟩ := x
        simp only []
        obtain ⟨h1, e1⟩ := act_refines h bet.isNeg c (cleanBet b c lo hi)
        rw [e1]
        by_cases hall : (l.read.act bet.isNeg c (cleanBet b c lo hi)).allAgreed = true
        · rw [if_pos hall, if_pos hall]
          obtain ⟨h2, e2⟩ := nextStreet_refines h1
          rw [e1] at e2
          have := finish_refines h2
          rwa [e2] at this
        · rw [if_neg hall, if_neg hall]
          have := finish_refines h1
          rwa [e1] at this

theorem reset_refines (h : Sep l) (rb rs : Bool) (shuf : Shuffle) : Sep (l.reset rb rs shuf).1 ∧
    (l.reset rb rs shuf).1.read = (l.read.reset rb rs shuf).1 ∧
    (l.reset rb rs shuf).2.map (LiveObs.look (l.reset rb rs shuf).1.mem) = (l.read.reset rb rs shuf).2 := by
  unfold LiveDealer.reset
  simp only []
  have h0 : Sep (l.newActive (l.read.reset rb rs shuf).1.active) := newActive_sep h _
  have h1 := withRest_sep h0 (l.read.reset rb rs shuf).1
  rcases reset_eq l.read rb rs shuf with ⟨e1, e2, e3⟩ | ⟨e1, ⟨e2, e3⟩ | ⟨e2, e3⟩⟩
  · rw [if_pos (by rw [e3]; exact ⟨by simp [e1], e2⟩)]
    refine ⟨h1, ?_, by rw [e3]; rfl⟩
    rw [read_withRest, read_newActive, e3]
  · have hcount : ¬ ((!rs) = true ∧ countTrue (l.read.reset rb rs shuf).1.active ≤ 1) := by
      rw [e3]
      rintro ⟨h2, h3⟩
      rcases e1 with rfl | h4
      · simp at h2
      · cases rs with
        | true => simp at h2
        | false => exact absurd (show countTrue (l.read.stacks.map fun s => decide (s > 0)) ≤ 1 from h3) (by omega)
    rw [if_neg hcount]
    have hnone : l.read.cfg.numCommunityCards[0]? = none := by
      rw [List.getElem?_eq_none_iff]; omega
    rw [hnone]
    simp only []
    cases rs with
    | true =>
      refine ⟨newStacks_sep h1 _, ?_, by rw [e3]; rfl⟩
      rw [if_pos rfl, read_newStacks h1, read_withRest, read_newActive, e3]
    | false =>
      refine ⟨h1, ?_, by rw [e3]; rfl⟩
      rw [if_neg (by simp), read_withRest, read_newActive, e3]
      rfl
  · have hcount : ¬ ((!rs) = true ∧ countTrue (l.read.reset rb rs shuf).1.active ≤ 1) := by
      rw [e3]
      rintro ⟨h2, h3⟩
      have h5 : (l.read.posted rb rs shuf).moveAction.moveAction.active = (l.read.fresh rb rs shuf).active :=
        (blindStart_same l.read rb rs shuf).2.1
      rw [show (((l.read.posted rb rs shuf).moveAction.moveAction,
            (l.read.posted rb rs shuf).moveAction.moveAction.observation false) : Dealer × Except Err Observation).1.active =
          (l.read.fresh rb rs shuf).active from h5] at h3
      rcases e1 with rfl | h4
      · simp at h2
      · cases rs with
        | true => simp at h2
        | false => exact absurd (show countTrue (l.read.stacks.map fun s => decide (s > 0)) ≤ 1 from h3) (by omega)
    rw [if_neg hcount]
    have hsome : ∃ x, l.read.cfg.numCommunityCards[0]? = some x := ⟨_, List.getElem?_eq_getElem (by omega)⟩
    obtain ⟨x, hx⟩ := hsome
    rw [hx]
    simp only []
    have h2 := newCards_sep h1 (l.read.reset rb rs shuf).1.communityCards (l.read.reset rb rs shuf).1.holeCards
    have h3 := newStreetCommits_sep h2 (l.read.reset rb rs shuf).1.streetCommits
    have hread : (((((l.newActive (l.read.reset rb rs shuf).1.active).withRest (l.read.reset rb rs shuf).1).newCards
        (l.read.reset rb rs shuf).1.communityCards (l.read.reset rb rs shuf).1.holeCards).newStreetCommits
        (l.read.reset rb rs shuf).1.streetCommits).newStacks (l.read.reset rb rs shuf).1.stacks).read =
        (l.read.reset rb rs shuf).1 := by
      rw [read_newStacks h3, read_newStreetCommits h2, read_newCards, read_withRest, read_newActive]
    refine ⟨newStacks_sep h3 _, hread, ?_⟩
    rw [look_observation, hread, e3]

/-! ## which lists are written -/

/-- From `l` to `l'` only the lists of the dealer are written, and others are made; the references of `l'` are those of `l` or
refer to lists made since. -/
structure Moves (l l' : LiveDealer) : Prop where
  boolsLen : l.mem.bools.length ≤ l'.mem.bools.length
  intsLen : l.mem.ints.length ≤ l'.mem.ints.length
  cardsLen : l.mem.cards.length ≤ l'.mem.cards.length
  bools : ∀ r, r < l.mem.bools.length → r ≠ l.active → l'.mem.bools.getD r [] = l.mem.bools.getD r []
  ints : ∀ r, r < l.mem.ints.length → r ≠ l.stacks → r ≠ l.streetCommits → l'.mem.ints.getD r [] = l.mem.ints.getD r []
  cards : ∀ r, r < l.mem.cards.length → r ≠ l.communityCards → l'.mem.cards.getD r [] = l.mem.cards.getD r []
  active : l'.active = l.active ∨ l.mem.bools.length ≤ l'.active
  stacks' : l'.stacks = l.stacks ∨ l.mem.ints.length ≤ l'.stacks
  streetCommits : l'.streetCommits = l.streetCommits ∨ l.mem.ints.length ≤ l'.streetCommits
  community : l'.communityCards = l.communityCards ∨ l.mem.cards.length ≤ l'.communityCards

variable {l' l'' : LiveDealer}

theorem Moves.refl (l : LiveDealer) : Moves l l :=
  ⟨le_rfl, le_rfl, le_rfl, fun _ _ _ => rfl, fun _ _ _ _ => rfl, fun _ _ _ => rfl, .inl rfl, .inl rfl, .inl rfl, .inl rfl⟩

theorem Moves.trans (h : Moves l l') (h' : Moves l' l'') : Moves l l'' := by
  have key : ∀ {a b c n m : Nat}, (b = a ∨ n ≤ b) → n ≤ m → (c = b ∨ m ≤ c) → (c = a ∨ n ≤ c) := by
    intro a b c n m h1 h2 h3; omega
  refine ⟨h.boolsLen.trans h'.boolsLen, h.intsLen.trans h'.intsLen, h.cardsLen.trans h'.cardsLen, ?_, ?_, ?_,
    key h.active h.boolsLen h'.active, key h.stacks' h.intsLen h'.stacks', key h.streetCommits h.intsLen h'.streetCommits,
    key h.community h.cardsLen h'.community⟩
  · intro r hr ha
    rw [h'.bools r (hr.trans_le h.boolsLen) (by have := h.active; omega), h.bools r hr ha]
  · intro r hr ha hb
    rw [h'.ints r (hr.trans_le h.intsLen) (by have := h.stacks'; omega) (by have := h.streetCommits; omega), h.ints r hr ha hb]
  · intro r hr ha
    rw [h'.cards r (hr.trans_le h.cardsLen) (by have := h.community; omega), h.cards r hr ha]

theorem inPlace_moves (l : LiveDealer) (d : Dealer) : Moves l (l.inPlace d) := by
  unfold LiveDealer.inPlace
  refine ⟨by simp, by simp, by simp, ?_, ?_, ?_, .inl rfl, .inl rfl, .inl rfl, .inl rfl⟩
  · intro r _ h
    exact getD_set_ne h.symm
  · intro r _ h1 h2
    exact (getD_set_ne h2.symm).trans (getD_set_ne h1.symm)
  · intro r _ h
    exact getD_set_ne h.symm

theorem newActive_moves (l : LiveDealer) (v : List Bool) : Moves l (l.newActive v) :=
  ⟨by simp [LiveDealer.newActive], le_rfl, le_rfl, fun _ h _ => getD_append_left' h, fun _ _ _ _ => rfl, fun _ _ _ => rfl,
    .inr le_rfl, .inl rfl, .inl rfl, .inl rfl⟩

theorem newStacks_moves (l : LiveDealer) (v : List Int) : Moves l (l.newStacks v) :=
  ⟨le_rfl, by simp [LiveDealer.newStacks], le_rfl, fun _ _ _ => rfl, fun _ h _ _ => getD_append_left' h, fun _ _ _ => rfl,
    .inl rfl, .inr le_rfl, .inl rfl, .inl rfl⟩

theorem newStreetCommits_moves (l : LiveDealer) (v : List Int) : Moves l (l.newStreetCommits v) :=
  ⟨le_rfl, by simp [LiveDealer.newStreetCommits], le_rfl, fun _ _ _ => rfl, fun _ h _ _ => getD_append_left' h,
    fun _ _ _ => rfl, .inl rfl, .inl rfl, .inr le_rfl, .inl rfl⟩

theorem newCards_moves (l : LiveDealer) (comm : List Card) (hole : List (List Card)) : Moves l (l.newCards comm hole) :=
  ⟨le_rfl, le_rfl, by simp [LiveDealer.newCards], fun _ _ _ => rfl, fun _ _ _ _ => rfl, fun _ h _ => getD_append_left' h,
    .inl rfl, .inl rfl, .inl rfl, .inr le_rfl⟩

theorem withRest_moves (l : LiveDealer) (d : Dealer) : Moves l (l.withRest d) :=
  ⟨le_rfl, le_rfl, le_rfl, fun _ _ _ => rfl, fun _ _ _ _ => rfl, fun _ _ _ => rfl, .inl rfl, .inl rfl, .inl rfl, .inl rfl⟩

theorem nextStreet_moves (l : LiveDealer) : Moves l l.nextStreet :=
  (inPlace_moves l _).trans (newStreetCommits_moves _ _)

/-- The only references that a step changes: that of the stacks when the hand ends, that of the bets of the street when a street
ends. -/
structure Stays (l l' : LiveDealer) : Prop where
  active : l'.active = l.active
  community : l'.communityCards = l.communityCards
  hole : l'.holeCards = l.holeCards
  stacks' : l'.rest.action ≠ none → l'.stacks = l.stacks
  street : l.rest.street ≤ l'.rest.street
  streetCommits : l'.rest.street = l.rest.street → l'.streetCommits = l.streetCommits

theorem Stays.refl (l : LiveDealer) : Stays l l := ⟨rfl, rfl, rfl, fun _ => rfl, le_rfl, fun _ => rfl⟩

theorem finish_moves (l : LiveDealer) : Moves l l.finish.1 := by
  unfold LiveDealer.finish
  simp only []
  cases l.read.payouts with
  | error e => exact .refl l
  | ok p =>
    simp only []
    split
    · exact (withRest_moves l _).trans (newStacks_moves _ _)
    · exact .refl l

theorem finish_stays (l : LiveDealer) : Stays l l.finish.1 := by
  unfold LiveDealer.finish
  simp only []
  cases l.read.payouts with
  | error e => exact .refl l
  | ok p =>
    simp only []
    split
    · exact ⟨rfl, rfl, rfl, fun h => absurd rfl h, le_rfl, fun _ => rfl⟩
    · exact .refl l

theorem dealStreets_grows : ∀ (n : Nat) (d : Dealer), d.street ≤ (dealStreets n d).street
  | 0, d => le_rfl
  | n + 1, d => by
    unfold dealStreets
    simp only []
    split
    · exact Nat.le_succ _
    · split
      · exact Nat.le_succ _
      · have := dealStreets_grows n { d with
          communityCards := d.communityCards ++ (d.deck.draw (d.cfg.numCommunityCards.getD (d.street + 1) 0)).1
          deck := (d.deck.draw (d.cfg.numCommunityCards.getD (d.street + 1) 0)).2, street := d.street + 1 }
        exact (Nat.le_succ _).trans this

theorem nextStreet_grows (d : Dealer) : d.street < d.nextStreet.street := by
  unfold Dealer.nextStreet
  simp only []
  generalize hg : Dealer.moveAction { d with action := some d.button } = g
  have g2 : g.street = d.street := by rw [← hg]; rfl
  rw [← g2]
  unfold dealStreets
  simp only []
  split
  · exact Nat.lt_succ_self _
  · split
    · exact Nat.lt_succ_self _
    · have := dealStreets_grows g.cfg.numStreets { g with
        communityCards := g.communityCards ++ (g.deck.draw (g.cfg.numCommunityCards.getD (g.street + 1) 0)).1
        deck := (g.deck.draw (g.cfg.numCommunityCards.getD (g.street + 1) 0)).2, street := g.street + 1 }
      exact Nat.lt_of_lt_of_le (Nat.lt_succ_self _) this

theorem act_street (d : Dealer) (fold : Bool) (call bet : Int) : (d.act fold call bet).street = d.street := by
  rw [act_eq]; rfl

/-- what `step` does, except that it may return without effect -/
theorem liveStep_cases (l : LiveDealer) (bet : PyNum) : (l.step bet).1 = l ∨ l.rest.action ≠ none ∧ ∃ fold call b,
    (l.step bet).1 = (l.act fold call b).finish.1 ∨ (l.step bet).1 = (l.act fold call b).nextStreet.finish.1 := by
  unfold LiveDealer.step
  simp only []
  cases ha : l.read.action with
  | none =>
    simp only []
    split <;> exact .inl rfl
  | some a =>
    simp only []
    cases pyRound bet with
    | error e => exact .inl rfl
    | ok b =>
      simp only []
      cases l.read.betSizes with
      | error e => exact .inl rfl
      | ok x =>
        obtain ⟨c, lo, hi⟩ := x
        simp only []
        refine .inr ⟨?_, bet.isNeg, c, cleanBet b c lo hi, ?_⟩
        · rw [show l.rest.action = some a from ha]; simp
        · split
          · exact .inr rfl
          · exact .inl rfl

theorem step_moves (l : LiveDealer) (bet : PyNum) : Moves l (l.step bet).1 := by
  rcases liveStep_cases l bet with h | ⟨-, f, c, b, h | h⟩ <;> rw [h]
  · exact .refl l
  · exact (inPlace_moves l _).trans (finish_moves _)
  · exact ((inPlace_moves l _).trans (nextStreet_moves _)).trans (finish_moves _)

theorem step_stays (l : LiveDealer) (bet : PyNum) : Stays l (l.step bet).1 ∧
    ((l.step bet).1.rest.action ≠ none → l.rest.action ≠ none) := by
  rcases liveStep_cases l bet with h | ⟨ha, f, c, b, h | h⟩ <;> rw [h]
  · exact ⟨.refl l, id⟩
  · refine ⟨?_, fun _ => ha⟩
    have hf := finish_stays (l.act f c b)
    have hs : (l.act f c b).rest.street = l.rest.street := act_street l.read f c b
    exact ⟨hf.active, hf.community, hf.hole, hf.stacks', hs ▸ hf.street, fun hst => hf.streetCommits (hst.trans hs.symm)⟩
  · refine ⟨?_, fun _ => ha⟩
    have hf := finish_stays (l.act f c b).nextStreet
    have hs : l.rest.street < (l.act f c b).nextStreet.rest.street := by
      have h1 := nextStreet_grows (l.act f c b).read
      rwa [show (l.act f c b).read.street = l.rest.street from act_street l.read f c b] at h1
    have := hf.street
    exact ⟨hf.active, hf.community, hf.hole, hf.stacks', by omega, fun hst => by omega⟩

theorem reset_moves (l : LiveDealer) (rb rs : Bool) (shuf : Shuffle) : Moves l (l.reset rb rs shuf).1 := by
  unfold LiveDealer.reset
  simp only []
  have h1 := (newActive_moves l (l.read.reset rb rs shuf).1.active).trans (withRest_moves _ (l.read.reset rb rs shuf).1)
  split
  · exact h1
  · split
    · simp only []
      split
      · exact h1.trans (newStacks_moves _ _)
      · exact h1
    · exact ((h1.trans (newCards_moves _ _ _)).trans (newStreetCommits_moves _ _)).trans (newStacks_moves _ _)

/-- A reset does not write into lists. -/
theorem reset_keeps (l : LiveDealer) (rb rs : Bool) (shuf : Shuffle) :
    (∀ r, r < l.mem.bools.length → (l.reset rb rs shuf).1.mem.bools.getD r [] = l.mem.bools.getD r []) ∧
    (∀ r, r < l.mem.ints.length → (l.reset rb rs shuf).1.mem.ints.getD r [] = l.mem.ints.getD r []) ∧
    (∀ r, r < l.mem.cards.length → (l.reset rb rs shuf).1.mem.cards.getD r [] = l.mem.cards.getD r []) := by
  have ha : ∀ {α : Type} {k : List α} {x y z : α} {r : Nat}, r < k.length → (k ++ [x] ++ [y]).getD r z = k.getD r z := by
    intro α k x y z r h
    rw [List.append_assoc, getD_append_left' h]
  unfold LiveDealer.reset
  simp only []
  split
  · exact ⟨fun _ h => getD_append_left' h, fun _ _ => rfl, fun _ _ => rfl⟩
  · split
    · split
      · exact ⟨fun _ h => getD_append_left' h, fun _ h => getD_append_left' h, fun _ _ => rfl⟩
      · exact ⟨fun _ h => getD_append_left' h, fun _ _ => rfl, fun _ _ => rfl⟩
    · exact ⟨fun _ h => getD_append_left' h, fun _ h => ha h, fun _ h => getD_append_left' h⟩

theorem pyGet_mem {α : Type} {xs : List α} {i : Int} {x : α} (h : pyGet xs i = .ok x) : x ∈ xs := by
  unfold pyGet at h
  generalize (if i < 0 then i + (xs.length : Int) else i) = j at h
  simp only [] at h
  split at h
  · simp at h
  · split at h
    · rename_i h1
      simp only [Except.ok.injEq] at h
      subst h
      exact List.mem_of_getElem? h1
    · simp at h

/-- A reset that returns makes all lists anew. -/
theorem reset_renews {rb rs : Bool} {shuf : Shuffle} {o : LiveObs} (h : l.reset rb rs shuf = (l', .ok o)) :
    l.mem.bools.length ≤ l'.active ∧ l.mem.ints.length ≤ l'.stacks ∧ l.mem.ints.length ≤ l'.streetCommits ∧
      l.mem.cards.length ≤ l'.communityCards ∧ l'.observation false = .ok o := by
  unfold LiveDealer.reset at h
  simp only [] at h
  split at h
  · simp at h
  · split at h
    · simp at h
    · obtain ⟨h1, h2⟩ := Prod.mk.inj h
      subst h1
      refine ⟨le_rfl, ?_, le_rfl, le_rfl, h2⟩
      simp [LiveDealer.newStacks, LiveDealer.newStreetCommits, LiveDealer.newCards, LiveDealer.withRest, LiveDealer.newActive]

theorem observation_refs {done : Bool} {o : LiveObs} (h : l.observation done = .ok o) : o.active = l.active ∧
    o.stacks = l.stacks ∧ o.streetCommits = l.streetCommits ∧ o.communityCards = l.communityCards ∧
    o.button = l.rest.button ∧ o.pot = l.rest.pot ∧
    pyGet l.holeCards (match l.rest.action with | some a => (a : Int) | none => -1) = .ok o.holeCards := by
  unfold LiveDealer.observation at h
  split at h
  · simp at h
  · split at h
    · simp at h
    · rename_i hole hh
      simp only [Except.ok.injEq] at h
      subst h
      exact ⟨rfl, rfl, rfl, rfl, rfl, rfl, hh⟩

theorem finish_observes {o : LiveObs} {pays : List Int} {done : List Bool} (h : l.finish = (l', .ok (o, pays, done))) :
    ∃ b, l'.observation b = .ok o := by
  unfold LiveDealer.finish at h
  simp only [] at h
  cases hp : l.read.payouts with
  | error e => rw [hp] at h; simp at h
  | ok p =>
    rw [hp] at h
    simp only [] at h
    obtain ⟨h1, h2⟩ := Prod.mk.inj h
    rw [h1] at h2
    refine ⟨l.read.done.all id, ?_⟩
    cases ho : l'.observation (l.read.done.all id) with
    | error e => rw [ho] at h2; simp at h2
    | ok o' =>
      rw [ho] at h2
      simp only [Except.ok.injEq, Prod.mk.injEq] at h2
      rw [h2.1]

theorem step_observes {bet : PyNum} {o : LiveObs} {pays : List Int} {done : List Bool}
    (h : l.step bet = (l', .ok (o, pays, done))) : ∃ b, l'.observation b = .ok o := by
  unfold LiveDealer.step at h
  simp only [] at h
  split at h
  · split at h
    · obtain ⟨h1, h2⟩ := Prod.mk.inj h
      subst h1
      cases hp : l.read.payouts with
      | error e => rw [hp] at h2; simp at h2
      | ok p =>
        rw [hp] at h2
        simp only [] at h2
        cases ho : l.observation (l.read.done.all id) with
        | error e => rw [ho] at h2; simp at h2
        | ok o' =>
          rw [ho] at h2
          simp only [Except.ok.injEq, Prod.mk.injEq] at h2
          exact ⟨_, by rw [ho, h2.1]⟩
    · simp at h
  · split at h
    · simp at h
    · split at h
      · simp at h
      · exact finish_observes h

theorem new_sep {a : DealerArgs} {shuf : Shuffle} (h : LiveDealer.new a shuf = .ok l) :
    Sep l ∧ Dealer.new a shuf = .ok l.read := by
  unfold LiveDealer.new at h
  cases hd : Dealer.new a shuf with
  | error e => rw [hd] at h; simp at h
  | ok d =>
    rw [hd] at h
    simp only [Except.ok.injEq] at h
    subst h
    refine ⟨⟨by simp, by simp, by simp, by simp, by simp, by simp, by simp⟩, ?_⟩
    congr 1
    unfold LiveDealer.read
    simp only []
    have : d.holeCards = [] := by
      unfold Dealer.new at hd
      simp only [bind, Except.bind, pure, Except.pure] at hd
      repeat' (split at hd; · simp at hd)
      simp only [Except.ok.injEq] at hd
      subst hd
      rfl
    simp [← this]

theorem live_sep (h : LiveReachable l) : Sep l := by
  induction h with
  | new _ h => exact (new_sep h).1
  | reset rb rs hs _ ih => exact (reset_refines ih rb rs _).1
  | step bet _ ih => exact (step_refines ih bet).1

theorem later_moves (h : Later l l') : Moves l l' := by
  induction h with
  | refl => exact .refl _
  | step bet _ ih => exact ih.trans (step_moves _ bet)
  | reset rb rs shuf _ ih => exact ih.trans (reset_moves _ rb rs shuf)

theorem stepsTo_stays (h : StepsTo l l') : Stays l l' := by
  induction h with
  | refl => exact .refl _
  | @step l' bet _ ih =>
    obtain ⟨h1, h2⟩ := step_stays l' bet
    have := ih.street
    have := h1.street
    refine ⟨h1.active.trans ih.active, h1.community.trans ih.community, h1.hole.trans ih.hole, ?_, by omega, ?_⟩
    · intro h
      exact (h1.stacks' h).trans (ih.stacks' (h2 h))
    · intro h
      exact (h1.streetCommits (by omega)).trans (ih.streetCommits (by omega))

theorem returned_observes {o : LiveObs} (h : Returned o l) : LiveReachable l ∧ ∃ b, l.observation b = .ok o := by
  cases h with
  | @reset k _ rb rs shuf _ h hs hr =>
    have := LiveReachable.reset rb rs hs h
    rw [hr] at this
    exact ⟨this, false, (reset_renews hr).2.2.2.2⟩
  | @step k _ bet _ pays done h hr =>
    have := LiveReachable.step bet h
    rw [hr] at this
    exact ⟨this, step_observes hr⟩

end Clubs

import Verif.Lemmas.Option
import Verif.Model.Configs

/-! # Concrete hands, for examples and counterexamples -/

namespace Clubs

open Spec

/-- a new table with the button at seat 0 and an unshuffled deck, the first hand dealt -/
def table (a : DealerArgs) : Except Err Dealer :=
  (Dealer.new a id).bind fun d =>
    match d.reset true false id with
    | (d', .ok _) => .ok d'
    | (_, .error e) => .error e

/-- play some bets -/
def playFrom (d : Dealer) : List Int → Dealer
  | [] => d
  | b :: bs => playFrom (d.step (.fin b)).1 bs

theorem isShuffle_id : IsShuffle id := fun l => List.Perm.refl l

theorem new_stacks {a : DealerArgs} {shuf : Shuffle} {d : Dealer} (h : Dealer.new a shuf = .ok d) :
    d.stacks = List.replicate a.numPlayers.toNat a.startStack ∧ d.action = none ∧
    d.active = List.replicate a.numPlayers.toNat false ∧ d.cfg.numPlayers = a.numPlayers.toNat ∧ d.button = 0 ∧
    d.street = 0 ∧ d.cfg.numStreets = a.numStreets.toNat := by
  unfold Dealer.new at h
  simp only [bind, Except.bind, pure, Except.pure] at h
  repeat' (split at h; · simp at h)
  simp only [Except.ok.injEq] at h
  subst h
  exact ⟨rfl, rfl, rfl, rfl, rfl, rfl, rfl⟩

theorem table_inHand {a : DealerArgs} {d : Dealer} (h : table a = .ok d) :
    InHand (List.replicate a.numPlayers.toNat a.startStack) d := by
  unfold table at h
  cases hn : Dealer.new a id with
  | error e => rw [hn] at h; simp [Except.bind] at h
  | ok d0 =>
    rw [hn] at h
    simp only [Except.bind] at h
    split at h
    · next d' obs hr =>
      simp only [Except.ok.injEq] at h
      subst h
      have := InHand.dealt (rs := false) (new_seated hn) isShuffle_id hr
      rwa [show startStacks d0 false = d0.stacks from rfl, (new_stacks hn).1] at this
    · simp at h

theorem table_reachable {a : DealerArgs} {d : Dealer} (h : table a = .ok d) : Reachable d := by
  unfold table at h
  cases hn : Dealer.new a id with
  | error e => rw [hn] at h; simp [Except.bind] at h
  | ok d0 =>
    rw [hn] at h
    simp only [Except.bind] at h
    split at h
    · next d' obs hr =>
      simp only [Except.ok.injEq] at h
      subst h
      have := Reachable.reset true false isShuffle_id (Reachable.new isShuffle_id hn)
      rwa [hr] at this
    · simp at h

theorem playFrom_inHand {S : List Int} {d : Dealer} (h : InHand S d) (bs : List Int) : InHand S (playFrom d bs) := by
  induction bs generalizing d with
  | nil => exact h
  | cons b bs ih => exact ih (InHand.step _ h)

theorem playFrom_reachable {d : Dealer} (h : Reachable d) (bs : List Int) : Reachable (playFrom d bs) := by
  induction bs generalizing d with
  | nil => exact h
  | cons b bs ih => exact ih (Reachable.step _ h)

/-- From a computation to a state of a hand. -/
theorem play_exists {a : DealerArgs} {bs : List Int} {f : Dealer → Bool}
    (h : (table a).bind (fun d => .ok (f (playFrom d bs))) = .ok true) :
    ∃ d, InHand (List.replicate a.numPlayers.toNat a.startStack) d ∧ Reachable d ∧ f d = true := by
  cases ht : table a with
  | error e => rw [ht] at h; simp [Except.bind] at h
  | ok d =>
    rw [ht] at h
    simp only [Except.bind, Except.ok.injEq] at h
    exact ⟨_, playFrom_inHand (table_inHand ht) bs, playFrom_reachable (table_reachable ht) bs, h⟩

/-- play some bets, keeping what was returned last -/
def showFrom (d : Dealer) (obs : Observation) : List Int → Except Err (Dealer × Observation)
  | [] => .ok (d, obs)
  | b :: bs =>
    match d.step (.fin b) with
    | (d', .ok out) => showFrom d' out.1 bs
    | (_, .error e) => .error e

/-- a new table (as in `table`), the first hand, some bets -/
def showTable (a : DealerArgs) (bs : List Int) : Except Err (Dealer × Observation) :=
  (Dealer.new a id).bind fun d =>
    match d.reset true false id with
    | (d', .ok obs) => showFrom d' obs bs
    | (_, .error e) => .error e

theorem showFrom_ok {S : List Int} {d d' : Dealer} {obs obs' : Observation} {bs : List Int} (h : InHand S d) (hr : Reachable d)
    (hsh : Shows d obs) (hf : showFrom d obs bs = .ok (d', obs')) : InHand S d' ∧ Reachable d' ∧ Shows d' obs' := by
  induction bs generalizing d obs with
  | nil =>
    simp only [showFrom, Except.ok.injEq, Prod.mk.injEq] at hf
    obtain ⟨rfl, rfl⟩ := hf
    exact ⟨h, hr, hsh⟩
  | cons b bs ih =>
    rw [showFrom] at hf
    split at hf
    · next d1 out hs =>
      have h1 := InHand.step (PyNum.fin b) h
      have h2 := Reachable.step (PyNum.fin b) hr
      rw [hs] at h1 h2
      exact ih h1 h2 (.inr ⟨d, _, out.2.1, out.2.2, hs⟩) hf
    · simp at hf

/-- From a computation to a state of a hand and what was returned last. -/
theorem show_exists {a : DealerArgs} {bs : List Int} {f : Dealer → Observation → Bool}
    (h : (showTable a bs).bind (fun r => .ok (f r.1 r.2)) = .ok true) :
    ∃ d obs, InHand (List.replicate a.numPlayers.toNat a.startStack) d ∧ Reachable d ∧ Shows d obs ∧ f d obs = true := by
  cases ht : showTable a bs with
  | error e => rw [ht] at h; simp [Except.bind] at h
  | ok r =>
    obtain ⟨d, obs⟩ := r
    rw [ht] at h
    simp only [Except.bind, Except.ok.injEq] at h
    unfold showTable at ht
    cases hn : Dealer.new a id with
    | error e => rw [hn] at ht; simp [Except.bind] at ht
    | ok d0 =>
      rw [hn] at ht
      simp only [Except.bind] at ht
      split at ht
      · next d1 obs1 hr =>
        have h1 := InHand.dealt (rs := false) (new_seated hn) isShuffle_id hr
        rw [show startStacks d0 false = d0.stacks from rfl, (new_stacks hn).1] at h1
        have h2 := Reachable.reset true false isShuffle_id (Reachable.new isShuffle_id hn)
        rw [hr] at h2
        obtain ⟨g1, g2, g3⟩ := showFrom_ok h1 h2 (.inl ⟨d0, _, _, _, hr⟩) ht
        exact ⟨d, obs, g1, g2, g3, h⟩
      · simp at ht

/-- a session: bets, and new hands -/
inductive Cmd
  | bet (b : Int)
  | deal

/-- chips at the start of the hand, table, what was returned last -/
abbrev Played := List Int × Dealer × Observation

def playCmds : Played → List Cmd → Except Err Played
  | r, [] => .ok r
  | r, .bet b :: cs =>
    match r.2.1.step (.fin b) with
    | (d, .ok out) => playCmds (r.1, d, out.1) cs
    | (_, .error e) => .error e
  | r, .deal :: cs =>
    match r.2.1.reset false false id with
    | (d, .ok obs) => playCmds (r.2.1.stacks, d, obs) cs
    | (_, .error e) => .error e

/-- a new table with the button at seat 0, and a session -/
def playTable (a : DealerArgs) (cs : List Cmd) : Except Err Played :=
  (Dealer.new a id).bind fun d =>
    match d.reset true false id with
    | (d', .ok obs) => playCmds (d.stacks, d', obs) cs
    | (_, .error e) => .error e

def PlayedOk (r : Played) : Prop := InHand r.1 r.2.1 ∧ Reachable r.2.1 ∧ Shows r.2.1 r.2.2

theorem playCmds_ok {r r' : Played} {cs : List Cmd} (h : PlayedOk r) (hf : playCmds r cs = .ok r') : PlayedOk r' := by
  induction cs generalizing r with
  | nil =>
    simp only [playCmds, Except.ok.injEq] at hf
    rwa [← hf]
  | cons c cs ih =>
    cases c with
    | bet b =>
      rw [playCmds] at hf
      split at hf
      · next d1 out hs =>
        have h1 := InHand.step (PyNum.fin b) h.1
        have h2 := Reachable.step (PyNum.fin b) h.2.1
        rw [hs] at h1 h2
        exact ih ⟨h1, h2, .inr ⟨_, _, out.2.1, out.2.2, hs⟩⟩ hf
      · simp at hf
    | deal =>
      rw [playCmds] at hf
      split at hf
      · next d1 obs hs =>
        have h1 := InHand.dealt (rs := false) (reachable_seated h.2.1) isShuffle_id hs
        have h2 := Reachable.reset false false isShuffle_id h.2.1
        rw [hs] at h2
        exact ih ⟨h1, h2, .inl ⟨_, _, _, _, hs⟩⟩ hf
      · simp at hf

theorem playTable_ok {a : DealerArgs} {cs : List Cmd} {r : Played} (ht : playTable a cs = .ok r) : PlayedOk r := by
  unfold playTable at ht
  cases hn : Dealer.new a id with
  | error e => rw [hn] at ht; simp [Except.bind] at ht
  | ok d0 =>
    rw [hn] at ht
    simp only [Except.bind] at ht
    split at ht
    · next d1 obs1 hr =>
      have h1 := InHand.dealt (rs := false) (new_seated hn) isShuffle_id hr
      have h2 := Reachable.reset true false isShuffle_id (Reachable.new isShuffle_id hn)
      rw [hr] at h2
      exact playCmds_ok ⟨h1, h2, .inl ⟨d0, _, _, _, hr⟩⟩ ht
    · simp at ht

theorem played_exists {a : DealerArgs} {cs : List Cmd} {f : List Int → Dealer → Observation → Bool}
    (h : (playTable a cs).bind (fun r => .ok (f r.1 r.2.1 r.2.2)) = .ok true) :
    ∃ S d obs, InHand S d ∧ Reachable d ∧ Shows d obs ∧ f S d obs = true := by
  cases ht : playTable a cs with
  | error e => rw [ht] at h; simp [Except.bind] at h
  | ok r =>
    rw [ht] at h
    simp only [Except.bind, Except.ok.injEq] at h
    have := playTable_ok ht
    exact ⟨_, _, _, this.1, this.2.1, this.2.2, h⟩

/-- three players at a small table: one card each, no community cards, two streets, no limit -/
def small (n : Int) (blinds : List Int) (stack : Int) : DealerArgs where
  numPlayers := n
  numStreets := 2
  blinds := .list blinds
  antes := .scalar 0
  raiseSizes := .scalar .inf
  numRaises := .scalar .inf
  numSuits := 1
  numRanks := 6
  numHoleCards := 1
  numCommunityCards := .list [0, 0]
  numCardsForHand := 1
  mandatoryNumHoleCards := 0
  startStack := stack

/-- a small table with other raise rules -/
def limit (n : Int) (blinds : List Int) (stack : Int) (raises : ListOr RawRaise) (num : ListOr RawNumRaises) : DealerArgs :=
  { small n blinds stack with raiseSizes := raises, numRaises := num }

/-- Boolean version of `NonNegative`, for the examples -/
def nonNegB (S : List Int) (d : Dealer) : Bool :=
  S.all (fun s => decide (0 ≤ s)) && d.cfg.blinds.all (fun s => decide (0 ≤ s)) && d.cfg.antes.all (fun s => decide (0 ≤ s))

theorem nonNegB_iff {S : List Int} {d : Dealer} (h : nonNegB S d = true) : NonNegative S d.cfg := by
  unfold nonNegB at h
  simp only [Bool.and_eq_true, List.all_eq_true, decide_eq_true_eq] at h
  exact ⟨h.1.1, h.1.2, h.2⟩

/-- tables with ties: four suits, two ranks -/
def ties (n : Int) (blinds : List Int) (stack : Int) : DealerArgs :=
  { small n blinds stack with numSuits := 4, numRanks := 2 }

instance (S : List Int) (c : Config) : Decidable (NonNegative S c) :=
  decidable_of_iff ((∀ s ∈ S, 0 ≤ s) ∧ (∀ b ∈ c.blinds, 0 ≤ b) ∧ ∀ b ∈ c.antes, 0 ≤ b)
    ⟨fun h => ⟨h.1, h.2.1, h.2.2⟩, fun h => ⟨h.start, h.blinds, h.antes⟩⟩

/-- A state of a hand, from a computation. -/
theorem hand_exists (a : DealerArgs) (cs : List Cmd) {P : List Int → Dealer → Prop} [∀ S d, Decidable (P S d)]
    (h : (playTable a cs).bind (fun r => .ok (decide (P r.1 r.2.1))) = .ok true) :
    ∃ S d, InHand S d ∧ Reachable d ∧ P S d := by
  obtain ⟨S, d, -, h1, h2, -, h3⟩ := played_exists (f := fun S d _ => decide (P S d)) h
  exact ⟨S, d, h1, h2, by simpa using h3⟩

/-- A step of a hand, from a computation. -/
theorem step_exists (a : DealerArgs) (cs : List Cmd) (bet : PyNum) {P : List Int → Dealer → Dealer → StepOut → Prop}
    [∀ S d d' out, Decidable (P S d d' out)]
    (h : (playTable a cs).bind (fun r => match r.2.1.step bet with
      | (d', .ok out) => .ok (decide (P r.1 r.2.1 d' out))
      | (_, .error e) => .error e) = .ok true) :
    ∃ S d d' out, InHand S d ∧ Reachable d ∧ d.step bet = (d', .ok out) ∧ P S d d' out := by
  cases ht : playTable a cs with
  | error e => rw [ht] at h; simp [Except.bind] at h
  | ok r =>
    rw [ht] at h
    simp only [Except.bind] at h
    have hr := playTable_ok ht
    split at h
    · next d' out hs =>
      simp only [Except.ok.injEq, decide_eq_true_eq] at h
      exact ⟨_, _, d', out, hr.1, hr.2.1, hs, h⟩
    · simp at h

end Clubs

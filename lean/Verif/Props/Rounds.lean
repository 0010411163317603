import Mathlib.Data.List.Perm.Basic
import Mathlib.Data.List.Range
import Mathlib.Data.Int.ModEq
import Verif.Props.Level
import Verif.Props.NumpyFlow
import Verif.Props.NumpyReplay

/-!
# C106: everybody has the button and pays the blinds equally often

In as many consecutive hands as there are players, everybody has the button once and pays every blind and every ante once, however the hands
are played, as long as nobody runs out of chips.
-/

namespace Clubs

open Spec

/-! ## statement -/

/-- Consecutive hands: each is dealt with the button moving on, with or without `reset_stacks`, and any bets follow. The list has the tables as
they were dealt. -/
inductive Spec.Hands : Dealer → List Dealer → Dealer → Prop
  | nil (d : Dealer) : Spec.Hands d [] d
  | cons {d t e : Dealer} {ts : List Dealer} {rs : Bool} {shuf : Shuffle} {obs : Observation} (bets : List PyNum) (hs : IsShuffle shuf)
      (h : d.reset false rs shuf = (t, .ok obs)) (more : Spec.Hands (Spec.afterBets t bets) ts e) : Spec.Hands d (t :: ts) e

/-- the same for the array engine -/
inductive Spec.ArrayHands : Dealer → List Dealer → Dealer → Prop
  | nil (d : Dealer) : Spec.ArrayHands d [] d
  | cons {d t e : Dealer} {ts : List Dealer} {rs : Bool} {shuf : Shuffle} {obs : Observation} (bets : List PyNum) (hs : IsShuffle shuf)
      (h : Numpy.reset d false rs shuf = (t, .ok obs)) (more : Spec.ArrayHands (Numpy.arrayAfter t bets) ts e) : Spec.ArrayHands d (t :: ts) e

/-- when the hand was dealt, everybody had more chips than every ante -/
def Spec.AllRich (t : Dealer) : Prop :=
  ∀ i < t.cfg.numPlayers, ∀ j ≤ t.cfg.numPlayers, t.cfg.antes.getD j 0 < stack t i + contribution t i

instance (t : Dealer) : Decidable (AllRich t) := by unfold AllRich; infer_instance

/-! ## helpers -/

/-- what is known of one of these hands: the button is at seat `b`, counted without end -/
structure PostedAt (c : Config) (b : Nat) (t : Dealer) : Prop where
  cfg : t.cfg = c
  button : t.button % c.numPlayers = b % c.numPlayers
  posts : AllRich t → ∀ i < c.numPlayers,
    streetBet t i = c.blinds.getD (distance c.numPlayers ((b + if c.numPlayers = 2 then 0 else 1) % c.numPlayers) i) 0 ∧
    contribution t i - streetBet t i =
      c.antes.getD (distance c.numPlayers ((b + if c.numPlayers = 2 then 0 else 1) % c.numPlayers) i) 0

theorem postedAt_dealt {d t : Dealer} {rs : Bool} {shuf : Shuffle} {obs : Observation} (hd : Seated d)
    (h : d.reset false rs shuf = (t, .ok obs)) : PostedAt d.cfg (d.button + 1) t := by
  obtain ⟨hc, hb, hin, -, -, -, -, -, f, f1, f2, -, hs⟩ := C41_clean hd h
  have h2 := hd.two
  simp only [Bool.false_eq_true, if_false] at hb
  refine ⟨hc, by rw [hb, Nat.mod_mod], fun hr i hi => ?_⟩
  have chips : ∀ i < d.cfg.numPlayers, stack t i + contribution t i = (startStacks d rs).getD i 0 := by
    intro i hi
    obtain ⟨s1, -, s3⟩ := hs i hi
    rw [s1, s3]; omega
  have rich : ∀ i < d.cfg.numPlayers, ∀ j ≤ d.cfg.numPlayers, d.cfg.antes.getD j 0 < (startStacks d rs).getD i 0 := by
    intro i hi j hj
    have := hr i (by rw [hc]; exact hi) j (by rw [hc]; exact hj)
    rwa [chips i hi, hc] at this
  have pos : ∀ i < d.cfg.numPlayers, 0 < (startStacks d rs).getD i 0 := by
    intro i hi
    have := rich i hi _ (le_refl _)
    rwa [List.getD_eq_default _ _ (by rw [hd.antes])] at this
  have all : ∀ i < d.cfg.numPlayers, isIn t i := by
    intro i hi
    rw [hin i hi]
    cases rs with
    | true => exact .inl rfl
    | false => exact .inr (pos i hi)
  have hf : f = (d.button + 1 + if d.cfg.numPlayers = 2 then 0 else 1) % d.cfg.numPlayers := by
    split
    · next h3 => rw [f1 h3, hb, Nat.add_zero]
    · next h3 =>
      obtain ⟨k, k1, k2, k3, k4, k5⟩ := f2 (by omega)
      rcases Nat.lt_or_ge 1 k with h4 | h4
      · exact absurd (all _ (Nat.mod_lt _ (by omega))) (k5 1 (le_refl _) h4)
      · rw [k3, hb, show k = 1 by omega, Nat.mod_add_mod]
  have hdist : distance d.cfg.numPlayers f i < d.cfg.numPlayers := Nat.mod_lt _ (by omega)
  obtain ⟨s1, s2, -⟩ := hs i hi
  have h5 := rich i hi _ (le_of_lt hdist)
  have e1 : (if isIn t i ∧ 0 < (startStacks d rs).getD i 0 then d.cfg.antes.getD (distance d.cfg.numPlayers f i) 0 else 0) =
      d.cfg.antes.getD (distance d.cfg.numPlayers f i) 0 := if_pos ⟨all i hi, pos i hi⟩
  rw [e1, if_pos ⟨all i hi, by omega⟩] at s1 s2
  rw [← hf, s1, s2]
  exact ⟨rfl, by omega⟩

theorem bets_seated {d : Dealer} (hd : Seated d) (bets : List PyNum) : Seated (Spec.afterBets d bets) := by
  induction bets generalizing d with
  | nil => exact hd
  | cons b bets ih => exact ih (step_seated hd b)

theorem bets_fixed (d : Dealer) (bets : List PyNum) :
    (Spec.afterBets d bets).cfg = d.cfg ∧ (Spec.afterBets d bets).button = d.button := by
  induction bets generalizing d with
  | nil => exact ⟨rfl, rfl⟩
  | cons b bets ih =>
    obtain ⟨h1, h2⟩ := ih (d.step b).1
    exact ⟨h1.trans (step_cfg d b), h2.trans (step_button d b)⟩

/-- the hands, with the button counted without end -/
def AllPosted (c : Config) (b : Nat) (ts : List Dealer) : Prop := ∀ k (hk : k < ts.length), PostedAt c (b + 1 + k) ts[k]

theorem postedAt_mod {c : Config} {b b' : Nat} {t : Dealer} (hm : b % c.numPlayers = b' % c.numPlayers) (h : PostedAt c b t) :
    PostedAt c b' t := by
  have e : ∀ x, (b + x) % c.numPlayers = (b' + x) % c.numPlayers := fun x => Nat.ModEq.add_right x hm
  obtain ⟨h1, h2, h3⟩ := h
  refine ⟨h1, h2.trans hm, ?_⟩
  rw [← e]
  exact h3

theorem allPosted_cons {c : Config} {b b' : Nat} {t : Dealer} {ts : List Dealer} (h : PostedAt c (b + 1) t)
    (hb : b' % c.numPlayers = (b + 1) % c.numPlayers) (hs : AllPosted c b' ts) : AllPosted c b (t :: ts) := by
  intro k hk
  cases k with
  | zero => exact h
  | succ k =>
    refine postedAt_mod ?_ (hs k (by simpa using hk))
    have := Nat.ModEq.add_right (1 + k) hb
    rw [show b + 1 + (k + 1) = b + 1 + (1 + k) by omega, show b' + 1 + k = b' + (1 + k) by omega]
    exact this

theorem hands_posted {d e : Dealer} {ts : List Dealer} (hd : Seated d) (h : Hands d ts e) : AllPosted d.cfg d.button ts := by
  induction h with
  | nil d => intro k hk; simp at hk
  | @cons d t e ts rs shuf obs bets hs h more ih =>
    have ht : Seated t := by have := reset_seated hd false rs shuf; rwa [h] at this
    have hp := postedAt_dealt hd h
    obtain ⟨c1, c2⟩ := bets_fixed t bets
    refine allPosted_cons hp (b' := t.button) hp.button ?_
    have := ih (bets_seated ht bets)
    rwa [c1, c2, hp.cfg] at this

theorem perm_range {n : Nat} {g : Nat → Nat} (hlt : ∀ k < n, g k < n) (hinj : ∀ k < n, ∀ l < n, g k = g l → k = l) :
    ((List.range n).map g).Perm (List.range n) := by
  refine (List.subperm_of_subset ?_ ?_).perm_of_length_le (by simp)
  · refine List.Nodup.map_on ?_ List.nodup_range
    intro x hx y hy
    exact hinj x (List.mem_range.mp hx) y (List.mem_range.mp hy)
  · intro x hx
    obtain ⟨k, hk, rfl⟩ := List.mem_map.mp hx
    exact List.mem_range.mpr (hlt k (List.mem_range.mp hk))

theorem seats_perm {n : Nat} (hn : 0 < n) (b : Nat) : ((List.range n).map fun k => (b + k) % n).Perm (List.range n) := by
  refine perm_range (fun k _ => Nat.mod_lt _ hn) fun k hk l hl h => ?_
  have : k % n = l % n := Nat.ModEq.add_left_cancel' b h
  rwa [Nat.mod_eq_of_lt hk, Nat.mod_eq_of_lt hl] at this

theorem distances_perm {n i : Nat} (hi : i < n) (b : Nat) :
    ((List.range n).map fun k => distance n ((b + k) % n) i).Perm (List.range n) := by
  refine perm_range (fun k _ => Nat.mod_lt _ (by omega)) fun k hk l hl h => ?_
  have h1 : (b + k) % n < n := Nat.mod_lt _ (by omega)
  have h2 : (b + l) % n < n := Nat.mod_lt _ (by omega)
  have h3 : (b + k) % n = (b + l) % n := by
    unfold distance at h
    generalize (b + k) % n = x at *
    generalize (b + l) % n = y at *
    have e : ∀ z < n, (i + n - z) % n = if z ≤ i then i - z else i + n - z := by
      intro z hz
      split
      · rw [show i + n - z = i - z + n by omega, Nat.add_mod_right, Nat.mod_eq_of_lt (by omega)]
      · rw [Nat.mod_eq_of_lt (by omega)]
    rw [e x h1, e y h2] at h
    split at h <;> split at h <;> omega
  have : k % n = l % n := Nat.ModEq.add_left_cancel' b h3
  rwa [Nat.mod_eq_of_lt hk, Nat.mod_eq_of_lt hl] at this

theorem map_getD_range (l : List Int) : (List.range l.length).map (fun j => l.getD j 0) = l := by
  apply List.ext_getElem
  · simp
  · intro k h1 h2
    rw [List.getElem_map, List.getElem_range, List.getD_eq_getElem _ _ h2]

theorem map_eq_range {α β : Type} {ts : List α} {n : Nat} (f : α → β) (g : Nat → β) (hl : ts.length = n)
    (h : ∀ k (hk : k < ts.length), f ts[k] = g k) : ts.map f = (List.range n).map g := by
  apply List.ext_getElem
  · simp [hl]
  · intro k h1 h2
    rw [List.getElem_map, List.getElem_map, List.getElem_range]
    exact h k (by simpa using h1)

theorem posted_buttons {c : Config} {b : Nat} {ts : List Dealer} (h2 : 2 ≤ c.numPlayers) (h : AllPosted c b ts)
    (hl : ts.length = c.numPlayers) : (ts.map fun t => t.button % c.numPlayers).Perm (List.range c.numPlayers) := by
  rw [map_eq_range _ (fun k => (b + 1 + k) % c.numPlayers) hl fun k hk => (h k hk).button]
  exact seats_perm (by omega) _

theorem posted_bets {c : Config} {b i : Nat} {ts : List Dealer} (hb : c.blinds.length = c.numPlayers)
    (ha : c.antes.length = c.numPlayers) (h : AllPosted c b ts) (hl : ts.length = c.numPlayers) (hr : ∀ t ∈ ts, AllRich t)
    (hi : i < c.numPlayers) :
    (ts.map fun t => streetBet t i).Perm c.blinds ∧ (ts.map fun t => contribution t i - streetBet t i).Perm c.antes ∧
    (ts.map fun t => contribution t i).sum = c.antes.sum + c.blinds.sum := by
  have hx := distances_perm hi (b + 1 + if c.numPlayers = 2 then 0 else 1)
  have e : ∀ k, b + 1 + (if c.numPlayers = 2 then 0 else 1) + k = b + 1 + k + if c.numPlayers = 2 then 0 else 1 := fun k => by omega
  simp only [e] at hx
  have p1 : (ts.map fun t => streetBet t i).Perm c.blinds := by
    rw [map_eq_range _ (fun k => c.blinds.getD (distance c.numPlayers ((b + 1 + k + if c.numPlayers = 2 then 0 else 1) % c.numPlayers) i) 0) hl
      fun k hk => ((h k hk).posts (hr _ (List.getElem_mem _)) i hi).1]
    have := hx.map fun j => c.blinds.getD j 0
    rw [List.map_map] at this
    conv_rhs => rw [← map_getD_range c.blinds, hb]
    exact this
  have p2 : (ts.map fun t => contribution t i - streetBet t i).Perm c.antes := by
    rw [map_eq_range _ (fun k => c.antes.getD (distance c.numPlayers ((b + 1 + k + if c.numPlayers = 2 then 0 else 1) % c.numPlayers) i) 0) hl
      fun k hk => ((h k hk).posts (hr _ (List.getElem_mem _)) i hi).2]
    have := hx.map fun j => c.antes.getD j 0
    rw [List.map_map] at this
    conv_rhs => rw [← map_getD_range c.antes, ha]
    exact this
  refine ⟨p1, p2, ?_⟩
  rw [← p1.sum_eq, ← p2.sum_eq]
  clear p1 p2 hx e h hl hr
  induction ts with
  | nil => rfl
  | cons t ts ih => simp only [List.map_cons, List.sum_cons, ih]; omega

/-! ## the pure-Python engine -/

variable {d e : Dealer} {ts : List Dealer}

/-- **C106**: in as many consecutive hands as there are players everybody has the button once, whatever happens in them. -/
theorem C106_button (hd : Seated d) (h : Hands d ts e) (hl : ts.length = d.cfg.numPlayers) :
    (ts.map (·.button)).Perm (List.range d.cfg.numPlayers) := by
  have hp := posted_buttons hd.two (hands_posted hd h) hl
  have : ∀ t ∈ ts, t.button % d.cfg.numPlayers = t.button := by
    clear hp hl
    induction h with
    | nil d => simp
    | @cons d t e ts rs shuf obs bets hs h more ih =>
      have ht : Seated t := by have := reset_seated hd false rs shuf; rwa [h] at this
      have hc : t.cfg = d.cfg := (C41_clean hd h).1
      obtain ⟨c1, -⟩ := bets_fixed t bets
      have := ih (bets_seated ht bets)
      rw [c1, hc] at this
      intro x hx
      rcases List.mem_cons.mp hx with rfl | hx
      · rw [← hc]; exact Nat.mod_eq_of_lt ht.button
      · exact this x hx
  rwa [List.map_congr_left this] at hp

/-- **C106** (partial: if everybody has more chips than every ante whenever a hand is dealt, see `C106_false`): in as many consecutive hands as
there are players everybody pays every blind once and every ante once, so all pay the same. -/
theorem C106_pays_partial (hd : Seated d) (h : Hands d ts e) (hl : ts.length = d.cfg.numPlayers) (hr : ∀ t ∈ ts, AllRich t) {i : Nat}
    (hi : i < d.cfg.numPlayers) :
    (ts.map fun t => streetBet t i).Perm d.cfg.blinds ∧ (ts.map fun t => contribution t i - streetBet t i).Perm d.cfg.antes ∧
    (ts.map fun t => contribution t i).sum = d.cfg.antes.sum + d.cfg.blinds.sum :=
  posted_bets hd.blinds hd.antes (hands_posted hd h) hl hr hi

/-- to find such hands by calculation -/
def playHands (d : Dealer) : List (Bool × List PyNum) → Option (List Dealer × Dealer)
  | [] => some ([], d)
  | (rs, bets) :: l =>
    match d.reset false rs id with
    | (t, .ok _) => (playHands (Spec.afterBets t bets) l).map fun r => (t :: r.1, r.2)
    | (_, .error _) => none

theorem playHands_hands {l : List (Bool × List PyNum)} (h : playHands d l = some (ts, e)) : Hands d ts e := by
  induction l generalizing d ts with
  | nil =>
    simp only [playHands, Option.some.injEq, Prod.mk.injEq] at h
    obtain ⟨rfl, rfl⟩ := h
    exact .nil d
  | cons x l ih =>
    obtain ⟨rs, bets⟩ := x
    cases hr : d.reset false rs id with
    | mk t r =>
      cases r with
      | error x => simp [playHands, hr] at h
      | ok obs =>
        simp only [playHands, hr, Option.map_eq_some_iff, Prod.mk.injEq] at h
        obtain ⟨⟨us, f⟩, h1, rfl, rfl⟩ := h
        exact .cons bets (fun l => List.Perm.refl l) hr (ih h1)

theorem hands_exist {P : Dealer → List Dealer → Prop} [∀ d ts, Decidable (P d ts)] (a : DealerArgs) (first : List PyNum)
    (l : List (Bool × List PyNum))
    (h : (match Dealer.new a id with
      | .ok t =>
        let d := Spec.afterBets (t.reset true false id).1 first
        (match playHands d l with
        | some (ts, _) => decide (P d ts)
        | none => false)
      | .error _ => false) = true) : ∃ d ts e, Seated d ∧ Hands d ts e ∧ P d ts := by
  cases hnew : Dealer.new a id with
  | error x => rw [hnew] at h; cases h
  | ok t =>
    rw [hnew] at h
    simp only at h
    cases hp : playHands (Spec.afterBets (t.reset true false id).1 first) l with
    | none => rw [hp] at h; cases h
    | some r =>
      rw [hp] at h
      exact ⟨_, r.1, r.2, bets_seated (reset_seated (new_seated hnew) _ _ _) _, playHands_hands hp, by simpa using h⟩

/-- **C106 is false in general**: a player has lost all chips, and the others do not pay the same in the next three hands, although both have
chips all the time. (The button also goes to the empty seat, and blinds are counted by seats.) -/
theorem C106_false : ∃ d ts e, Seated d ∧ Hands d ts e ∧ ts.length = 3 ∧ d.cfg.numPlayers = 3 ∧ d.cfg.blinds = [1, 2, 0] ∧
    d.cfg.antes = [0, 0, 0] ∧ stack d 0 = 0 ∧ (∀ t ∈ ts, 5 ≤ stack t 1 ∧ 5 ≤ stack t 2) ∧
    ts.map (fun t => contribution t 1) = [0, 1, 1] ∧ ts.map (fun t => contribution t 2) = [1, 2, 2] :=
  hands_exist (small 3 [1, 2, 0] 10) [.fin 10, .fin 10, .fin (-1)] [(false, [.fin (-1)]), (false, [.fin (-1)]), (false, [.fin (-1)])] (by decide +kernel)

/-- the hypotheses of `C106_pays_partial` and `C106_button`: three players, blinds of 1 and 2, antes of 0; bets, calls and folds in between -/
example : ∃ d ts e, Seated d ∧ Hands d ts e ∧ ts.length = d.cfg.numPlayers ∧ (∀ t ∈ ts, AllRich t) ∧ d.cfg.numPlayers = 3 ∧
    ts.map (·.button) = [1, 2, 0] ∧ ts.map (fun t => contribution t 1) = [0, 2, 1] ∧ ts.map (fun t => stack t 1) = [19, 12, 11] :=
  hands_exist (small 3 [1, 2, 0] 20) [.fin (-1), .fin (-1)] [(false, [.fin 5, .fin 4, .fin (-1), .fin (-1)]), (false, [.fin (-1), .fin 1, .fin 0]),
    (false, [])] (by decide +kernel)

/-! ## the array engine -/

namespace Numpy

variable {d e : Dealer} {ts : List Dealer}

theorem bets_seated (hd : Seated (atSeat d)) (bets : List PyNum) : Seated (atSeat (arrayAfter d bets)) := by
  induction bets generalizing d with
  | nil => exact hd
  | cons b bets ih => exact ih (step_seated hd b)

theorem bets_fixed (d : Dealer) (bets : List PyNum) : (arrayAfter d bets).cfg = d.cfg ∧ (arrayAfter d bets).button = d.button := by
  induction bets generalizing d with
  | nil => exact ⟨rfl, rfl⟩
  | cons b bets ih =>
    obtain ⟨h1, h2⟩ := ih (step d b).1
    exact ⟨h1.trans (step_cfg d b), h2.trans (C72_step d b)⟩

theorem hands_posted (hd : Seated (atSeat d)) (h : ArrayHands d ts e) : AllPosted d.cfg d.button ts := by
  induction h with
  | nil d => intro k hk; simp at hk
  | @cons d t e ts rs shuf obs bets hs h more ih =>
    have ht : Seated (atSeat t) := by have := reset_seated hd false rs shuf; rwa [h] at this
    have hp : PostedAt d.cfg (d.button + 1) t := by
      obtain ⟨h1, h2, h3⟩ := postedAt_dealt hd (reset_ok_atSeat hd h)
      refine postedAt_mod (b := d.button % d.cfg.numPlayers + 1) (Nat.mod_add_mod _ _ _) ⟨h1, ?_, h3⟩
      have h1' : t.cfg = d.cfg := h1
      change t.button % t.cfg.numPlayers % d.cfg.numPlayers = (d.button % d.cfg.numPlayers + 1) % d.cfg.numPlayers at h2
      rwa [h1', Nat.mod_mod] at h2
    obtain ⟨c1, c2⟩ := bets_fixed t bets
    refine allPosted_cons hp (b' := t.button) hp.button ?_
    have := ih (bets_seated ht bets)
    rwa [c1, c2, hp.cfg] at this

/-- **C106** for the array engine, whose button is counted on without end: in as many consecutive hands as there are players everybody has the
button once. -/
theorem C106_button (hd : Seated (atSeat d)) (h : ArrayHands d ts e) (hl : ts.length = d.cfg.numPlayers) :
    (ts.map fun t => t.button % d.cfg.numPlayers).Perm (List.range d.cfg.numPlayers) :=
  posted_buttons hd.two (hands_posted hd h) hl

/-- **C106** (partial, as above) for the array engine -/
theorem C106_pays_partial (hd : Seated (atSeat d)) (h : ArrayHands d ts e) (hl : ts.length = d.cfg.numPlayers) (hr : ∀ t ∈ ts, AllRich t)
    {i : Nat} (hi : i < d.cfg.numPlayers) :
    (ts.map fun t => streetBet t i).Perm d.cfg.blinds ∧ (ts.map fun t => contribution t i - streetBet t i).Perm d.cfg.antes ∧
    (ts.map fun t => contribution t i).sum = d.cfg.antes.sum + d.cfg.blinds.sum :=
  posted_bets hd.blinds hd.antes (hands_posted hd h) hl hr hi

/-- to find such hands by calculation -/
def playHands (d : Dealer) : List (Bool × List PyNum) → Option (List Dealer × Dealer)
  | [] => some ([], d)
  | (rs, bets) :: l =>
    match reset d false rs id with
    | (t, .ok _) => (playHands (arrayAfter t bets) l).map fun r => (t :: r.1, r.2)
    | (_, .error _) => none

theorem playHands_hands {l : List (Bool × List PyNum)} (h : playHands d l = some (ts, e)) : ArrayHands d ts e := by
  induction l generalizing d ts with
  | nil =>
    simp only [playHands, Option.some.injEq, Prod.mk.injEq] at h
    obtain ⟨rfl, rfl⟩ := h
    exact .nil d
  | cons x l ih =>
    obtain ⟨rs, bets⟩ := x
    cases hr : reset d false rs id with
    | mk t r =>
      cases r with
      | error x => simp [playHands, hr] at h
      | ok obs =>
        simp only [playHands, hr, Option.map_eq_some_iff, Prod.mk.injEq] at h
        obtain ⟨⟨us, f⟩, h1, rfl, rfl⟩ := h
        exact .cons bets (fun l => List.Perm.refl l) hr (ih h1)

theorem hands_exist {P : Dealer → List Dealer → Prop} [∀ d ts, Decidable (P d ts)] (a : DealerArgs) (first : List PyNum)
    (l : List (Bool × List PyNum))
    (h : (match Numpy.new a id with
      | .ok t =>
        let d := arrayAfter (reset t true false id).1 first
        (match playHands d l with
        | some (ts, _) => decide (P d ts)
        | none => false)
      | .error _ => false) = true) : ∃ d ts e, Seated (atSeat d) ∧ ArrayHands d ts e ∧ P d ts := by
  cases hnew : Numpy.new a id with
  | error x => rw [hnew] at h; cases h
  | ok t =>
    rw [hnew] at h
    simp only at h
    cases hp : playHands (arrayAfter (reset t true false id).1 first) l with
    | none => rw [hp] at h; cases h
    | some r =>
      rw [hp] at h
      exact ⟨_, r.1, r.2, bets_seated (reset_seated (new_atSeat hnew) _ _ _) _, playHands_hands hp, by simpa using h⟩

/-- **C106 is false in general** for the array engine too -/
theorem C106_false : ∃ d ts e, Seated (atSeat d) ∧ ArrayHands d ts e ∧ ts.length = 3 ∧ d.cfg.numPlayers = 3 ∧ d.cfg.blinds = [1, 2, 0] ∧
    d.cfg.antes = [0, 0, 0] ∧ stack d 0 = 0 ∧ (∀ t ∈ ts, 5 ≤ stack t 1 ∧ 5 ≤ stack t 2) ∧
    ts.map (fun t => contribution t 1) = [0, 1, 1] ∧ ts.map (fun t => contribution t 2) = [1, 2, 2] :=
  hands_exist (small 3 [1, 2, 0] 10) [.fin 10, .fin 10, .fin (-1)] [(false, [.fin (-1)]), (false, [.fin (-1)]), (false, [.fin (-1)])] (by decide +kernel)

/-- the hypotheses of `C106_pays_partial` and `C106_button` -/
example : ∃ d ts e, Seated (atSeat d) ∧ ArrayHands d ts e ∧ ts.length = d.cfg.numPlayers ∧ (∀ t ∈ ts, AllRich t) ∧ d.cfg.numPlayers = 3 ∧
    ts.map (·.button) = [1, 2, 3] ∧ ts.map (fun t => contribution t 1) = [0, 2, 1] :=
  hands_exist (small 3 [1, 2, 0] 20) [.fin (-1), .fin (-1)] [(false, [.fin 5, .fin 4, .fin (-1), .fin (-1)]), (false, [.fin (-1), .fin 1, .fin 0]),
    (false, [])] (by decide +kernel)

end Numpy

end Clubs

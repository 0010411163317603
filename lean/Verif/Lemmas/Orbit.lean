import Verif.Lemmas.Ring
import Verif.Spec.Orbit

/-! # What the actions of a hand say about who is to act -/

namespace Clubs

open Spec

variable {S : List Int} {d : Dealer} {ms : List Move} {a : Nat} {fold : Bool} {b c lo up : Int}

/-- the actions so far fit the table -/
structure Orbit (d : Dealer) (ms : List Move) : Prop where
  streets : ∀ m ∈ ms, m.street ≤ d.street
  seats : ∀ m ∈ ms, m.seat < d.cfg.numPlayers
  opts : ∀ m ∈ ms, m.street = d.street → isIn d m.seat → opt d m.seat
  each : ∀ st, movesOn st ms ≤ d.cfg.numPlayers + (d.cfg.numPlayers - 1) * raisesOn st ms
  total : ms.length ≤ d.cfg.numPlayers * d.cfg.numStreets + (d.cfg.numPlayers - 1) * numRaised ms
  chips : (numRaised ms : Int) ≤ d.pot
  ring : ∃ s k, Ring d s k ∧
    (∀ p m q, ms = p ++ m :: q → m.street = d.street → (∀ r ∈ q, r.street = d.street → ¬ IsRaise r) →
      ∃ j < k, m.seat = (s + j) % d.cfg.numPlayers) ∧
    movesOn d.street ms ≤ k + (d.cfg.numPlayers - 1) * raisesOn d.street ms ∧
    ms.length ≤ d.cfg.numPlayers * d.street + k + (d.cfg.numPlayers - 1) * numRaised ms

theorem ring_start (hs : d.seat < d.cfg.numPlayers) (h : ∀ i < d.cfg.numPlayers, isIn d i → ¬ opt d i) : Ring d d.seat 0 where
  lt := by omega
  seat := by rw [Nat.add_zero, Nat.mod_eq_of_lt hs]
  settled j hj := absurd hj (by omega)
  waiting j _ _ hin _ := .inl (h _ (Nat.mod_lt _ (by omega)) hin)

theorem dealt_orbit {d d' : Dealer} {rb rs : Bool} {shuf : Shuffle} {obs : Observation} (hd : Seated d)
    (hr : d.reset rb rs shuf = (d', .ok obs)) (hp : 0 ≤ d'.pot) : Orbit d' [] where
  streets := by simp
  seats := by simp
  opts := by simp
  each := by simp [movesOn]
  total := by simp
  chips := by simpa [numRaised] using hp
  ring := by
    refine ⟨d'.seat, 0, ring_start (seat_lt (dealt_live hd hr).1.seated) (dealt_opt hd hr), ?_, ?_, ?_⟩
    · intro p m q h; simp at h
    · simp [movesOn]
    · simp

theorem append_split {α : Type} {l p q : List α} {x m : α} (h : l ++ [x] = p ++ m :: q) :
    (q = [] ∧ m = x ∧ l = p) ∨ ∃ q', q = q' ++ [x] ∧ l = p ++ m :: q' := by
  rcases List.eq_nil_or_concat q with rfl | ⟨q', y, rfl⟩
  · left
    have := List.append_inj' h rfl
    exact ⟨rfl, by simpa using this.2.symm, this.1⟩
  · right
    have h' : l ++ [x] = (p ++ m :: q') ++ [y] := by simpa using h
    have := List.append_inj' h' rfl
    have h2 : x = y := by simpa using this.2
    exact ⟨q', by rw [h2, List.concat_eq_append], this.1⟩

theorem afterBet_orbit (hl : Live S d) (hc2 : 2 ≤ countTrue d.active) (hp0 : 0 ≤ d.pot) (ho : OptInv d) (ha : d.action = some a)
    (hs0 : 0 ≤ stack d a) (hb : d.betSizes = .ok (c, lo, up)) (hst : d.street < d.cfg.numStreets) (h : Orbit d ms) :
    Orbit (d.afterBet fold c (cleanBet b c lo up))
      (ms ++ [⟨d.street, a, min (toCall d a) (stack d a), moved d (d.afterBet fold c (cleanBet b c lo up)) a⟩]) := by
  have hd := hl.seated
  have halt := hd.action a ha
  have hmoved : moved d (d.afterBet fold c (cleanBet b c lo up)) a = min (stack d a) (betOf fold c (cleanBet b c lo up)) := by
    unfold moved
    rw [(contribution_afterBet hd fold c _ a halt).1, seat_some ha, if_pos rfl]
    omega
  have hlive := afterBet_live hl hst hc2 fold c (cleanBet b c lo up)
  obtain ⟨a0, ha0, hain⟩ := hl.action
  have hy := betOf_nonneg (b := b) hd hp0 hb fold
  rw [hmoved]
  obtain ⟨s, k, hr, hpass, hcnt, htot⟩ := h.ring
  have hk := hr.lt
  have hM : ∀ st v, movesOn st (ms ++ [⟨d.street, a, min (toCall d a) (stack d a), v⟩]) =
      movesOn st ms + if d.street = st then 1 else 0 := by
    intro st v; simp [movesOn, List.countP_append, List.countP_cons]
  have hR : ∀ st v, raisesOn st (ms ++ [⟨d.street, a, min (toCall d a) (stack d a), v⟩]) =
      raisesOn st ms + if d.street = st ∧ min (toCall d a) (stack d a) < v then 1 else 0 := by
    intro st v; simp [raisesOn, List.countP_append, List.countP_cons, IsRaise]
  have hN : ∀ v, numRaised (ms ++ [⟨d.street, a, min (toCall d a) (stack d a), v⟩]) =
      numRaised ms + if min (toCall d a) (stack d a) < v then 1 else 0 := by
    intro v; simp [numRaised, List.countP_append, List.countP_cons, IsRaise]
  have hpotx : (d.afterBet fold c (cleanBet b c lo up)).pot = d.pot + min (stack d a) (betOf fold c (cleanBet b c lo up)) := by
    have : (d.acted fold c (cleanBet b c lo up)).pot = d.pot + min (stack d d.seat) (betOf fold c (cleanBet b c lo up)) := rfl
    rw [seat_some ha] at this
    rw [← this]
    rcases afterBet_cases d fold c (cleanBet b c lo up) with ⟨-, h2⟩ | ⟨-, h2⟩
    · rw [h2]; rfl
    · rw [h2, (nextStreet_fields _).2.2.2.2.2.2.2.1]; rfl
  have hchips : (numRaised (ms ++ [⟨d.street, a, min (toCall d a) (stack d a), min (stack d a) (betOf fold c (cleanBet b c lo up))⟩]) : Int) ≤
      (d.afterBet fold c (cleanBet b c lo up)).pot := by
    rw [hN, hpotx]
    have h1 := h.chips
    have hc0 : 0 ≤ toCall d a := by have := call_nonneg hd; rw [seat_some ha] at this; exact this
    split <;> push_cast <;> omega
  have hcfgx : (d.afterBet fold c (cleanBet b c lo up)).cfg = d.cfg := afterBet_cfg _ _ _ _
  have hseats : ∀ m ∈ ms ++ [⟨d.street, a, min (toCall d a) (stack d a), min (stack d a) (betOf fold c (cleanBet b c lo up))⟩],
      m.seat < (d.afterBet fold c (cleanBet b c lo up)).cfg.numPlayers := by
    intro m hm
    rw [hcfgx]
    rw [List.mem_append, List.mem_singleton] at hm
    rcases hm with hm | rfl
    · exact h.seats m hm
    · exact halt
  -- counting
  have heach : ∀ st v, movesOn st (ms ++ [⟨d.street, a, min (toCall d a) (stack d a), v⟩]) ≤
      d.cfg.numPlayers + (d.cfg.numPlayers - 1) * raisesOn st (ms ++ [⟨d.street, a, min (toCall d a) (stack d a), v⟩]) := by
    intro st v
    rw [hM, hR]
    have h1 := h.each st
    by_cases hse : d.street = st
    · subst hse
      rw [if_pos rfl, Nat.mul_add]
      omega
    · rw [if_neg hse, if_neg (fun h => hse h.1)]
      exact h1
  have hmul : d.cfg.numPlayers * (d.street + 1) ≤ d.cfg.numPlayers * d.cfg.numStreets := Nat.mul_le_mul_left _ hst
  rw [Nat.mul_succ] at hmul
  have htotal : ∀ v, (ms ++ [(⟨d.street, a, min (toCall d a) (stack d a), v⟩ : Move)]).length ≤ d.cfg.numPlayers * d.cfg.numStreets +
      (d.cfg.numPlayers - 1) * numRaised (ms ++ [⟨d.street, a, min (toCall d a) (stack d a), v⟩]) := by
    intro v
    rw [hN, List.length_append, List.length_singleton, Nat.mul_add]
    omega
  rcases afterBet_cases d fold c (cleanBet b c lo up) with ⟨h1, h2⟩ | ⟨h1, h2⟩
  · obtain ⟨-, hio, t, t1, hres⟩ := acted_ring hl hc2 hp0 ho ha hs0 hb hst h1 hr
    rw [h2] at hseats hchips ⊢
    have hcfg : (d.acted fold c (cleanBet b c lo up)).moveAction.cfg = d.cfg := rfl
    have hstr : (d.acted fold c (cleanBet b c lo up)).moveAction.street = d.street := rfl
    refine ⟨?_, hseats, ?_, by rw [hcfg]; exact fun st => heach st _, by rw [hcfg]; exact htotal _, hchips, ?_⟩
    · intro m hm
      rw [hstr]
      rw [List.mem_append, List.mem_singleton] at hm
      rcases hm with hm | rfl
      · exact h.streets m hm
      · exact le_refl _
    · intro m hm hms hin
      rw [hstr] at hms
      rw [List.mem_append, List.mem_singleton] at hm
      rcases hm with hm | rfl
      · obtain ⟨g1, g2⟩ := hio _ (h.seats m hm) hin
        exact g2.2 (.inr (h.opts m hm hms g1))
      · exact (hio _ halt hin).2.2 (.inl rfl)
    · rw [hcfg, hstr]
      have hak : a = (s + k) % d.cfg.numPlayers := by rw [← hr.seat, seat_some ha]
      rcases hres with ⟨g1, g2⟩ | ⟨g1, -, g2⟩
      · refine ⟨s, k + t, g2, ?_, ?_, ?_⟩
        · intro p m q hm hms hq
          rcases append_split hm with ⟨rfl, rfl, rfl⟩ | ⟨q', rfl, rfl⟩
          · exact ⟨k, by omega, hak⟩
          · obtain ⟨j, j1, j2⟩ := hpass p m q' rfl hms fun r hr => hq r (by simp [hr])
            exact ⟨j, by omega, j2⟩
        · rw [hM, hR, if_pos rfl, if_neg (by omega), Nat.mul_add, Nat.mul_zero]
          omega
        · rw [hN, List.length_append, List.length_singleton, if_neg (by omega), Nat.mul_add, Nat.mul_zero]
          omega
      · refine ⟨a, t, g2, ?_, ?_, ?_⟩
        · intro p m q hm hms hq
          rcases append_split hm with ⟨rfl, rfl, rfl⟩ | ⟨q', rfl, rfl⟩
          · exact ⟨0, by omega, by rw [Nat.add_zero, Nat.mod_eq_of_lt halt]⟩
          · exact absurd g1 (hq ⟨d.street, a, min (toCall d a) (stack d a), min (stack d a) (betOf fold c (cleanBet b c lo up))⟩ (by simp) rfl)
        · rw [hM, hR, if_pos rfl, if_pos ⟨rfl, g1⟩, Nat.mul_add, Nat.mul_one]
          omega
        · rw [hN, List.length_append, List.length_singleton, if_pos g1, Nat.mul_add, Nat.mul_one]
          omega
  · have hlt : d.street < (d.afterBet fold c (cleanBet b c lo up)).street := by
      rw [h2, nextStreet_street (show (d.acted fold c (cleanBet b c lo up)).moveAction.street < _ from hst)]
      split
      · exact hst
      · show d.street < d.street + 1
        omega
    have hold : ∀ m ∈ ms ++ [⟨d.street, a, min (toCall d a) (stack d a), min (stack d a) (betOf fold c (cleanBet b c lo up))⟩],
        m.street < (d.afterBet fold c (cleanBet b c lo up)).street := by
      intro m hm
      rw [List.mem_append, List.mem_singleton] at hm
      rcases hm with hm | rfl
      · exact lt_of_le_of_lt (h.streets m hm) hlt
      · exact hlt
    refine ⟨fun m hm => le_of_lt (hold m hm), hseats, fun m hm hms => absurd hms (by have := hold m hm; omega),
      by rw [hcfgx]; exact fun st => heach st _, by rw [hcfgx]; exact htotal _, hchips,
      (d.afterBet fold c (cleanBet b c lo up)).seat, 0, ?_, ?_, ?_, ?_⟩
    · refine ring_start (seat_lt hlive.seated) fun i hi hin => ?_
      rw [hcfgx] at hi
      have hsd := moveAction_seated (acted_seated hd fold c (cleanBet b c lo up))
      rw [h2] at hin ⊢
      rw [nextStreet_opt hsd i hi]
      intro hcon
      apply hcon
      unfold isIn at hin ⊢
      rw [(nextStreet_fields _).2.2.2.2.1] at hin
      exact hin
    · intro p m q hm hms
      have := hold m (by rw [hm]; simp)
      omega
    · have : movesOn (d.afterBet fold c (cleanBet b c lo up)).street
          (ms ++ [⟨d.street, a, min (toCall d a) (stack d a), min (stack d a) (betOf fold c (cleanBet b c lo up))⟩]) = 0 := by
        unfold movesOn
        rw [List.countP_eq_zero]
        intro m hm
        have := hold m hm
        simp
        omega
      omega
    · have h4 : d.cfg.numPlayers * (d.street + 1) ≤ d.cfg.numPlayers * (d.afterBet fold c (cleanBet b c lo up)).street :=
        Nat.mul_le_mul_left _ hlt
      rw [Nat.mul_succ] at h4
      rw [hN, List.length_append, List.length_singleton, hcfgx, Nat.mul_add]
      omega

end Clubs

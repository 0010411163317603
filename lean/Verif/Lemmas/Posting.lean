import Verif.Lemmas.Steps
import Verif.Spec.Dealing

/-! # What `reset` posts -/

namespace Clubs

open Spec

theorem roll_distance {α : Type} {l : List α} {n k i : Nat} (x : α) (hl : l.length = n) (hk : k < n) (hi : i < n) :
    (roll l k).getD i x = l.getD (distance n k i) x := by
  subst hl
  rw [roll_getD l k i x hk hi]
  unfold distance
  congr 2
  omega

/-- The table after antes and blinds, seat by seat. -/
theorem posted_seats {d : Dealer} (h : Seated d) (rb rs : Bool) (shuf : Shuffle) {f : Nat}
    (hf : (d.blindStart rb rs shuf).seat = f) (i : Nat) (hi : i < d.cfg.numPlayers) :
    let start := (startStacks d rs).getD i 0
    let ante := if isIn (d.fresh rb rs shuf) i ∧ 0 < start then d.cfg.antes.getD (distance d.cfg.numPlayers f i) 0 else 0
    let blind := if isIn (d.fresh rb rs shuf) i ∧ 0 < start - ante then
      d.cfg.blinds.getD (distance d.cfg.numPlayers f i) 0 else 0
    contribution (d.posted rb rs shuf) i = ante + blind ∧ streetBet (d.posted rb rs shuf) i = blind ∧
      stack (d.posted rb rs shuf) i = start - (ante + blind) := by
  intro start ante blind
  have hb := blindStart_seated h rb rs shuf
  obtain ⟨c1, c2, -, -, -, -, -, -, -, c3, c4, -, c5, -⟩ := blindStart_same d rb rs shuf
  have hfn : f < d.cfg.numPlayers := by rw [← hf]; have := seat_lt hb; rwa [c1] at this
  have hn : (d.blindStart rb rs shuf).cfg.numPlayers = d.cfg.numPlayers := by rw [c1]; rfl
  have ha : d.cfg.antes.length = (d.blindStart rb rs shuf).cfg.numPlayers := by rw [hn]; exact h.antes
  have hbl : d.cfg.blinds.length = ((d.blindStart rb rs shuf).collectMultipleBets d.cfg.antes false).cfg.numPlayers := by
    show _ = (d.blindStart rb rs shuf).cfg.numPlayers
    rw [hn]; exact h.blinds
  have hs2 := collectMultipleBets_seated hb false ha
  have m1 := (collectMultipleBets_money hb false ha).1 i (by rw [hn]; exact hi)
  have m2 := (collectMultipleBets_money hs2 true hbl).1 i (by show i < (d.blindStart rb rs shuf).cfg.numPlayers; rw [hn]; exact hi)
  have e3 : stack (d.blindStart rb rs shuf) i = start := by unfold stack; rw [c4]; rfl
  have e4 : contribution (d.blindStart rb rs shuf) i = 0 := by
    unfold contribution; rw [c3]; exact getD_replicate _ _ _ _ hi
  have e5 : streetBet (d.blindStart rb rs shuf) i = 0 := by
    unfold streetBet; rw [c5]; exact getD_replicate _ _ _ _ hi
  have e6 : isIn (d.blindStart rb rs shuf) i = isIn (d.fresh rb rs shuf) i := by unfold isIn; rw [c2]
  have a1 : ((d.blindStart rb rs shuf).forcedBets d.cfg.antes).getD i 0 = ante := by
    rw [forcedBets_getD hb ha i (by rw [hn]; exact hi), hf, roll_distance 0 h.antes hfn hi]
    have : (d.blindStart rb rs shuf).stacks.getD i 0 > 0 ∧ (d.blindStart rb rs shuf).active.getD i false = true ↔
        isIn (d.fresh rb rs shuf) i ∧ 0 < start := by
      rw [← e6, ← e3]
      exact and_comm
    simp only [this]; rfl
  have e7 : stack ((d.blindStart rb rs shuf).collectMultipleBets d.cfg.antes false) i = start - ante := by
    rw [m1.1, e3, a1]
  have a2 : (((d.blindStart rb rs shuf).collectMultipleBets d.cfg.antes false).forcedBets d.cfg.blinds).getD i 0 = blind := by
    rw [forcedBets_getD hs2 hbl i (by show i < (d.blindStart rb rs shuf).cfg.numPlayers; rw [hn]; exact hi)]
    have hseat : ((d.blindStart rb rs shuf).collectMultipleBets d.cfg.antes false).seat = f := hf
    rw [hseat, roll_distance 0 h.blinds hfn hi]
    have : ((d.blindStart rb rs shuf).collectMultipleBets d.cfg.antes false).stacks.getD i 0 > 0 ∧
        ((d.blindStart rb rs shuf).collectMultipleBets d.cfg.antes false).active.getD i false = true ↔
        isIn (d.fresh rb rs shuf) i ∧ 0 < start - ante := by
      rw [← e6, ← e7]
      exact and_comm
    simp only [this]; rfl
  unfold Dealer.posted
  rw [m2.1, m2.2.1, m2.2.2, a2, m1.1, m1.2.1, m1.2.2, a1, e3, e4, e5]
  simp only [if_true, Bool.false_eq_true, if_false]
  refine ⟨by ring, by ring, by ring⟩

theorem fresh_isIn {d : Dealer} (h : Seated d) (rb rs : Bool) (shuf : Shuffle) (i : Nat) (hi : i < d.cfg.numPlayers) :
    isIn (d.fresh rb rs shuf) i ↔ rs = true ∨ 0 < stack d i := by
  unfold isIn
  show (if rs = true then List.replicate d.cfg.numPlayers true else _).getD i false = true ↔ _
  cases rs with
  | true => simp [hi]
  | false =>
    simp only [Bool.false_eq_true, if_false, false_or]
    rw [getD_map _ _ _ 0 _ (by rw [h.stacks]; exact hi)]
    simp [stack]

/-- the seat from which blinds are counted -/
theorem blindStart_seat {d : Dealer} (h : Seated d) (rb rs : Bool) (shuf : Shuffle)
    (hc : 1 ≤ countTrue (d.fresh rb rs shuf).active) :
    ∃ f, (d.blindStart rb rs shuf).seat = f ∧ (d.cfg.numPlayers ≤ 2 → f = (d.fresh rb rs shuf).button) ∧
      (2 < d.cfg.numPlayers → FirstAfter d.cfg.numPlayers (isIn (d.fresh rb rs shuf)) (d.fresh rb rs shuf).button f) := by
  refine ⟨_, rfl, ?_, ?_⟩
  · intro hn
    unfold Dealer.blindStart
    rw [if_neg (by omega)]
    rfl
  · intro hn
    unfold Dealer.blindStart
    rw [if_pos (by omega)]
    obtain ⟨a, ha⟩ := moveAction_spec (d := d.fresh rb rs shuf) (fresh_seated h rb rs shuf).active hc
    have := ha.first
    have e : (d.fresh rb rs shuf).moveAction.seat = a := by
      rw [ha.eq]; rfl
    rw [e]
    exact this

end Clubs

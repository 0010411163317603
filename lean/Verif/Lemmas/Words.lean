import Verif.Spec.Words
import Verif.Props.NumpyMoney

/-! # Ranges of the numbers at a table -/

namespace Clubs.Numpy

open Spec

/-! ## storing -/

theorem int32_id {x : Int} (h1 : -2 ^ 31 ≤ x) (h2 : x < 2 ^ 31) : int32 x = x := by
  unfold int32
  rw [Int.emod_eq_of_lt (by omega) (by omega)]
  omega

def InWord (x : Int) : Prop := -2 ^ 31 ≤ x ∧ x < 2 ^ 31

theorem stackWord_id {w : Bool} {x : Int} (h : InWord x) : stackWord w x = x := by
  unfold stackWord
  split
  · rfl
  · exact int32_id h.1 h.2

/-- all numbers in the arrays fit -/
structure InWords (d : Dealer) : Prop where
  street : ∀ x ∈ d.streetCommits, InWord x
  contrib : ∀ x ∈ d.potCommits, InWord x
  stack : ∀ x ∈ d.stacks, InWord x

theorem map_int32 {l : List Int} (h : ∀ x ∈ l, InWord x) : l.map int32 = l := by
  conv_rhs => rw [← List.map_id l]
  exact List.map_congr_left fun x hx => int32_id (h x hx).1 (h x hx).2

theorem map_stackWord {w : Bool} {l : List Int} (h : ∀ x ∈ l, InWord x) : l.map (stackWord w) = l := by
  conv_rhs => rw [← List.map_id l]
  exact List.map_congr_left fun x hx => stackWord_id (h x hx)

theorem store_id {w : Bool} {d : Dealer} (h : InWords d) : store w d = d := by
  unfold store
  rw [map_int32 h.street, map_int32 h.contrib, map_stackWord h.stack]

/-! ## the invariant -/

/-- what the players owe together -/
def owed (d : Dealer) : Int := (d.stacks.map fun s => max 0 (-s)).sum

/-- Invariant: the debts are at most `D`, nobody has bet less than `-D` on the street, even counting the debt, and the largest raise is
a raise of the hand or the big blind. -/
structure Small (D : Int) (S : List Int) (d : Dealer) : Prop where
  owed : owed d ≤ D
  street : ∀ i < d.cfg.numPlayers, -D ≤ streetBet d i + min 0 (stack d i)
  lo : d.cfg.bigBlind ≤ d.largestRaise
  hi : d.largestRaise ≤ max d.cfg.bigBlind S.sum

theorem owed_ge (d : Dealer) : -d.stacks.sum ≤ owed d := by
  unfold owed
  generalize d.stacks = l
  induction l with
  | nil => simp
  | cons x l ih => simp only [List.sum_cons, List.map_cons]; omega

theorem owed_one {d : Dealer} {x : Int} (hx : x ∈ d.stacks) : -x ≤ owed d := by
  unfold owed
  generalize d.stacks = l at hx
  induction l with
  | nil => simp at hx
  | cons y l ih =>
    have h0 : 0 ≤ (l.map fun s => max 0 (-s)).sum := by
      apply List.sum_nonneg
      intro z hz
      rw [List.mem_map] at hz
      obtain ⟨s, -, rfl⟩ := hz
      omega
    simp only [List.sum_cons, List.map_cons]
    rcases List.mem_cons.1 hx with rfl | h
    · omega
    · have := ih h; omega

theorem mem_zipWith_of {α β γ : Type} {f : α → β → γ} {l : List α} {l' : List β} {x : γ} (h : x ∈ List.zipWith f l l') :
    ∃ a ∈ l, ∃ b ∈ l', x = f a b := by
  induction l generalizing l' with
  | nil => simp at h
  | cons a l ih =>
    cases l' with
    | nil => simp at h
    | cons b l' =>
      rw [List.zipWith_cons_cons, List.mem_cons] at h
      rcases h with rfl | h
      · exact ⟨a, List.mem_cons_self, b, List.mem_cons_self, rfl⟩
      · obtain ⟨a', h1, b', h2, h3⟩ := ih h
        exact ⟨a', List.mem_cons_of_mem _ h1, b', List.mem_cons_of_mem _ h2, h3⟩

theorem mem_le_sum {l : List Int} (h : ∀ x ∈ l, 0 ≤ x) {x : Int} (hx : x ∈ l) : x ≤ l.sum := List.single_le_sum h _ hx

theorem roll_sum (l : List Int) (k : Nat) : (roll l k).sum = l.sum := by
  unfold roll
  split
  · rfl
  · rw [List.sum_append, add_comm, ← List.sum_append, List.take_append_drop]

/-- the forced bets together -/
theorem forced_sum_le {d : Dealer} {bets : List Int} (h0 : ∀ x ∈ bets, 0 ≤ x) (h : Seated d)
    (hb : bets.length = d.cfg.numPlayers) : (d.forcedBets bets).sum ≤ bets.sum := by
  rw [← roll_sum bets d.seat, sum_eq_range (d.forcedBets bets), sum_eq_range (roll bets d.seat), forcedBets_length h hb]
  rw [show (roll bets d.seat).length = d.cfg.numPlayers from by rw [← hb]; exact roll_length _ _]
  apply List.sum_le_sum
  intro i hi
  rw [List.mem_range] at hi
  rw [forcedBets_getD h hb i hi]
  split
  · exact le_rfl
  · exact list_getD_nonneg (fun x hx => h0 x (roll_mem hx)) i

theorem dealt_small {d d' : Dealer} {rb rs : Bool} {shuf : Shuffle} {obs : Observation} (h : Seated d)
    (hr : d.reset rb rs shuf = (d', .ok obs)) (hn : NonNegative (startStacks d rs) d'.cfg) :
    Small (forcedTotal d'.cfg) (startStacks d rs) d' := by
  have hl := (dealt_live h hr).1
  have hnn := dealt_nn h hr hn
  have hraise := dealt_raise hr
  obtain ⟨h1, h2, rfl, -⟩ := reset_ok hr
  have hcfg : ((d.posted rb rs shuf).moveAction.moveAction).cfg = d.cfg := blindStart_cfg d rb rs shuf
  obtain ⟨c1, -, -, -, -, -, -, -, c8, -, c6, -, c9, -⟩ := blindStart_same d rb rs shuf
  have hb := blindStart_seated h rb rs shuf
  have ha : d.cfg.antes.length = (d.blindStart rb rs shuf).cfg.numPlayers := by rw [c1]; exact h.antes
  have hbl : d.cfg.blinds.length = ((d.blindStart rb rs shuf).collectMultipleBets d.cfg.antes false).cfg.numPlayers := by
    show _ = (d.blindStart rb rs shuf).cfg.numPlayers
    rw [c1]; exact h.blinds
  have hb1 := collectMultipleBets_seated hb false ha
  have m1 := collectMultipleBets_money hb false ha
  have m2 := collectMultipleBets_money hb1 true hbl
  rw [hcfg] at hn
  have s1 := forced_sum_le hn.antes hb ha
  have s2 := forced_sum_le hn.blinds hb1 hbl
  have hpot : ((d.posted rb rs shuf).moveAction.moveAction).pot ≤ forcedTotal d.cfg := by
    have e : ((d.posted rb rs shuf).moveAction.moveAction).pot = (d.blindStart rb rs shuf).pot +
      ((d.blindStart rb rs shuf).forcedBets d.cfg.antes).sum +
      (((d.blindStart rb rs shuf).collectMultipleBets d.cfg.antes false).forcedBets d.cfg.blinds).sum := rfl
    have e0 : (d.blindStart rb rs shuf).pot = 0 := c8
    rw [e, e0]; unfold forcedTotal; omega
  have howed : owed ((d.posted rb rs shuf).moveAction.moveAction) ≤ forcedTotal d.cfg := by
    refine le_trans ?_ hpot
    rw [hl.pot]
    generalize (d.posted rb rs shuf).moveAction.moveAction = x at hl hnn hcfg hn
    unfold owed
    rw [sum_eq_range (x.stacks.map _), sum_eq_range x.potCommits, List.length_map, hl.seated.stacks, hl.seated.potCommits]
    apply List.sum_le_sum
    intro i hi
    rw [List.mem_range] at hi
    have h3 := hl.money i hi
    have h4 := hnn.contrib i hi
    have h5 := list_getD_nonneg hn.start i
    have h6 : (x.stacks.map fun s => max 0 (-s)).getD i 0 = max 0 (-stack x i) := by
      rw [getD_eq _ _ _ (by rw [List.length_map, hl.seated.stacks]; exact hi), List.getElem_map]
      unfold stack
      rw [getD_eq]
    rw [h6]
    show max 0 (-stack x i) ≤ contribution x i
    omega
  refine ⟨by rw [hcfg]; exact howed, ?_, by rw [hraise], by rw [hraise]; exact le_max_left _ _⟩
  intro i hi
  have hsm : ((d.posted rb rs shuf).moveAction.moveAction).stacks.length = d.cfg.numPlayers := by
    rw [hl.seated.stacks, hcfg]
  have hmem : stack ((d.posted rb rs shuf).moveAction.moveAction) i ∈ ((d.posted rb rs shuf).moveAction.moveAction).stacks :=
    (mem_getD 0).2 ⟨i, by rw [hsm, ← hcfg]; exact hi, rfl⟩
  have ho := owed_one hmem
  rw [hcfg] at hi ⊢
  have h3 : 0 ≤ streetBet ((d.posted rb rs shuf).moveAction.moveAction) i := by
    show 0 ≤ streetBet (((d.blindStart rb rs shuf).collectMultipleBets d.cfg.antes false).collectMultipleBets d.cfg.blinds true) i
    rw [(m2.1 i (by show i < (d.blindStart rb rs shuf).cfg.numPlayers; rw [c1]; exact hi)).2.2,
      (m1.1 i (by rw [c1]; exact hi)).2.2]
    have e0 : streetBet (d.blindStart rb rs shuf) i = 0 := by
      unfold streetBet; rw [c9]; exact getD_replicate _ _ _ _ hi
    rw [e0, forcedBets_getD hb1 hbl i (by show i < (d.blindStart rb rs shuf).cfg.numPlayers; rw [c1]; exact hi)]
    simp only [Bool.false_eq_true, if_false, if_true]
    split
    · have := list_getD_nonneg (fun x hx => hn.blinds x (roll_mem hx)) i
        (l := roll d.cfg.blinds ((d.blindStart rb rs shuf).collectMultipleBets d.cfg.antes false).seat)
      omega
    · omega
  have hD : 0 ≤ forcedTotal d.cfg := by
    have := List.sum_nonneg hn.antes
    have := List.sum_nonneg hn.blinds
    unfold forcedTotal; omega
  omega

/-- the bet that is recorded, if it is not zero -/
theorem betOf_range {d : Dealer} {S : List Int} {b c lo hi : Int} (hl : Live S d) (hn : NN d) (hS : ∀ s ∈ S, 0 ≤ s)
    (hb : d.betSizes = .ok (c, lo, hi)) (fold : Bool) :
    betOf fold c (Clubs.cleanBet b c lo hi) = 0 ∨ (0 ≤ betOf fold c (Clubs.cleanBet b c lo hi) - c ∧
      betOf fold c (Clubs.cleanBet b c lo hi) - c ≤ S.sum) := by
  have hp := nn_pot hl hn
  have hx := cleanBet_le hb b
  have hx0 := betOf_nonneg (b := b) hl.seated hp hb fold
  have hc : c = min (pyMax d.streetCommits - streetBet d d.seat) (stack d d.seat) := by
    obtain ⟨rs, nr, -, -, h1, -⟩ := betSizes_spec hb
    exact h1
  have hc0 := call_nonneg hl.seated
  have hs := seat_lt hl.seated
  have h1 := hl.money _ hs
  have h2 := hn.contrib _ hs
  have h3 : S.getD d.seat 0 ≤ S.sum := mem_le_sum hS ((mem_getD 0).2 ⟨_, by rw [hl.startLen]; exact hs, rfl⟩)
  unfold betOf at hx0 ⊢
  split
  · exact .inl rfl
  · next hf =>
    rw [if_neg hf] at hx0
    by_cases h0 : Clubs.cleanBet b c lo hi = 0
    · exact .inl h0
    · right
      by_cases hcz : c = 0
      · omega
      · have : ¬ Clubs.cleanBet b c lo hi < c := fun h => hf ⟨hcz, .inl h⟩
        omega

theorem afterBet_small {D : Int} {S : List Int} {d : Dealer} {fold : Bool} {b c lo hi : Int} (hD : 0 ≤ D) (hl : Live S d)
    (hn : NN d) (hS : ∀ s ∈ S, 0 ≤ s) (h : Small D S d) (hb : d.betSizes = .ok (c, lo, hi)) :
    Small D S (d.afterBet fold c (Clubs.cleanBet b c lo hi)) ∧
    ∀ i < d.cfg.numPlayers, -D ≤ streetBet (d.acted fold c (Clubs.cleanBet b c lo hi)) i := by
  have hd := hl.seated
  have hbet := betOf_nonneg (b := b) hd (nn_pot hl hn) hb fold
  have hrange := betOf_range (b := b) hl hn hS hb fold
  generalize hx : Clubs.cleanBet b c lo hi = x at *
  have hnums := acted_nums hd fold c x
  obtain ⟨f1, -, -, -, -, f6, -, -, f9⟩ := afterBet_fields d fold c x
  have hle : ∀ i < d.cfg.numPlayers, min 0 (stack d i) ≤ min 0 (stack (d.acted fold c x) i) ∧
      streetBet d i + min 0 (stack d i) ≤ streetBet (d.acted fold c x) i + min 0 (stack (d.acted fold c x) i) := by
    intro i hi
    rw [(hnums i hi).1, (hnums i hi).2.2.1]
    by_cases hsi : d.seat = i
    · rw [if_pos hsi, hsi]
      omega
    · rw [if_neg hsi]; omega
  have howed : owed (d.acted fold c x) ≤ D := by
    refine le_trans ?_ h.owed
    have hs := acted_seated hd fold c x
    unfold owed
    rw [sum_eq_range (List.map _ _), sum_eq_range (List.map _ d.stacks), List.length_map, List.length_map, hs.stacks, hd.stacks]
    apply List.sum_le_sum
    intro i hi
    rw [List.mem_range] at hi
    have h6 : ∀ y : Dealer, i < y.stacks.length → (y.stacks.map fun s => max 0 (-s)).getD i 0 = max 0 (-stack y i) := by
      intro y hy
      rw [getD_eq _ _ _ (by rw [List.length_map]; exact hy), List.getElem_map]
      unfold stack
      rw [getD_eq]
    rw [h6 _ (by rw [hs.stacks]; exact hi), h6 _ (by rw [hd.stacks]; exact hi)]
    have := (hle i hi).1
    omega
  have hstr : ∀ i < d.cfg.numPlayers, -D ≤ streetBet (d.acted fold c x) i + min 0 (stack (d.acted fold c x) i) := by
    intro i hi
    have := (hle i hi).2
    have := h.street i hi
    omega
  have hlr : (d.acted fold c x).largestRaise =
      if betOf fold c x ≠ 0 ∧ betOf fold c x - c ≥ d.largestRaise then betOf fold c x - c else d.largestRaise := rfl
  have h1 := h.lo
  have h2 := h.hi
  refine ⟨⟨?_, ?_, ?_, ?_⟩, ?_⟩
  · unfold owed at howed ⊢; rw [f9]; exact howed
  · intro i hi
    rw [f1] at hi
    have hst : stack (d.afterBet fold c x) i = stack (d.acted fold c x) i := by unfold stack; rw [f9]
    rw [hst]
    have h3 := hstr i hi
    rcases afterBet_cases d fold c x with ⟨-, h4⟩ | ⟨-, h4⟩
    · rw [h4]; exact h3
    · have : streetBet (d.afterBet fold c x) i = 0 := by
        unfold streetBet
        rw [h4, (nextStreet_fields _).1]
        exact getD_replicate _ _ _ _ (by
          rw [← congrArg (fun y : Dealer => y.cfg.numPlayers) h4, f1]; exact hi)
      rw [this]
      have hmem : stack (d.acted fold c x) i ∈ (d.acted fold c x).stacks :=
        (mem_getD 0).2 ⟨i, by rw [(acted_seated hd fold c x).stacks]; exact hi, rfl⟩
      have := owed_one hmem
      omega
  · rw [f1, f6, hlr]; split <;> omega
  · rw [f1, f6, hlr]; split <;> omega
  · intro i hi
    have := hstr i hi
    omega

/-- the numbers at a table are in range -/
structure Ranged (M : Int) (d : Dealer) : Prop where
  street : ∀ x ∈ d.streetCommits, -M ≤ x ∧ x ≤ M
  contrib : ∀ x ∈ d.potCommits, 0 ≤ x ∧ x ≤ M
  stack : ∀ x ∈ d.stacks, -M ≤ x ∧ x ≤ M
  call : 0 ≤ pyMax d.streetCommits - d.streetCommits.getD d.seat 0 ∧ pyMax d.streetCommits - d.streetCommits.getD d.seat 0 ≤ M
  raise : 0 ≤ d.largestRaise ∧ d.largestRaise ≤ M
  pot : 0 ≤ d.pot ∧ d.pot ≤ M

theorem Ranged.words {M : Int} {d : Dealer} (h : Ranged M d) (hM : M < 2 ^ 31) : InWords d where
  street := fun x hx => by have := h.street x hx; unfold InWord; omega
  contrib := fun x hx => by have := h.contrib x hx; unfold InWord; omega
  stack := fun x hx => by have := h.stack x hx; unfold InWord; omega

/-- what is in the pot, and what was bet on the street -/
theorem small_money {D : Int} {S : List Int} {d : Dealer} (hl : Live S d) (hn : NN d)
    (h : Small D S d) : d.pot ≤ S.sum + D ∧ (∀ i < d.cfg.numPlayers, contribution d i ≤ d.pot) := by
  constructor
  · have h1 := live_chips hl
    have h2 := owed_ge d
    have h3 := h.owed
    unfold allChips at h1
    omega
  · intro i hi
    rw [hl.pot]
    refine mem_le_sum ?_ ((mem_getD 0).2 ⟨i, by rw [hl.seated.potCommits]; exact hi, rfl⟩)
    intro x hx
    obtain ⟨j, hj, rfl⟩ := (mem_getD 0).1 hx
    exact hn.contrib j (by rw [← hl.seated.potCommits]; exact hj)

theorem ranged_of {S : List Int} {d : Dealer} (hl : Live S d) (hn : NN d) (hN : NonNegative S d.cfg) (hz : SizesOk d.cfg)
    (h : Small (forcedTotal d.cfg) S d) (hbb : d.cfg.bigBlind ≤ reach S.sum d.cfg) : Ranged (reach S.sum d.cfg) d := by
  have hD : 0 ≤ forcedTotal d.cfg := by
    have := List.sum_nonneg hN.antes
    have := List.sum_nonneg hN.blinds
    unfold forcedTotal; omega
  have hS := List.sum_nonneg hN.start
  obtain ⟨h1, h2⟩ := small_money hl hn h
  have hr : reach S.sum d.cfg = S.sum + 2 * forcedTotal d.cfg := rfl
  rw [hr] at hbb ⊢
  have hp := nn_pot hl hn
  have hstreet : ∀ x ∈ d.streetCommits, -forcedTotal d.cfg ≤ x ∧ x ≤ S.sum + forcedTotal d.cfg := by
    intro x hx
    obtain ⟨i, hi, rfl⟩ := (mem_getD 0).1 hx
    rw [hl.seated.streetCommits] at hi
    have h3 := h.street i hi
    have h4 := hn.street i hi
    have h5 := h2 i hi
    unfold streetBet at h3 h4
    omega
  have hmem : d.streetCommits.getD d.seat 0 ∈ d.streetCommits :=
    (mem_getD 0).2 ⟨_, by rw [hl.seated.streetCommits]; exact seat_lt hl.seated, rfl⟩
  refine ⟨?_, ?_, ?_, ⟨call_nonneg hl.seated, ?_⟩, ?_, ?_⟩
  · intro x hx
    have := hstreet x hx
    omega
  · intro x hx
    obtain ⟨i, hi, rfl⟩ := (mem_getD 0).1 hx
    rw [hl.seated.potCommits] at hi
    have h4 := hn.contrib i hi
    have h5 := h2 i hi
    unfold contribution at h4 h5
    omega
  · intro x hx
    have h3 := owed_one hx
    have h6 := h.owed
    obtain ⟨i, hi, rfl⟩ := (mem_getD 0).1 hx
    rw [hl.seated.stacks] at hi
    have h4 := hl.money i hi
    have h5 := hn.contrib i hi
    have h7 : S.getD i 0 ≤ S.sum := mem_le_sum hN.start ((mem_getD 0).2 ⟨_, by rw [hl.startLen]; exact hi, rfl⟩)
    unfold Spec.stack at h4
    omega
  · have h3 := pyMax_mem (l := d.streetCommits) (List.ne_nil_of_mem hmem)
    have h4 := hstreet _ h3
    have h5 := hstreet _ hmem
    omega
  · have h3 := h.lo
    have h4 := h.hi
    have h5 := hz.1
    omega
  · omega

end Clubs.Numpy

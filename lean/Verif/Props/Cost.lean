import Mathlib.Data.Finset.Card
import Mathlib.Data.Finset.Range
import Verif.Props.Orbit
import Verif.Props.Betting
import Verif.Lemmas.NumpyPlay
import Verif.Lemmas.Shipped

/-!
# C107: what a hand of a limit game can cost

With fixed raise sizes and a fixed number of raises on every street, a hand costs nobody more than the largest ante and blind and all raises of
all streets, as long as nobody is all-in; every player who is all-in can have made one raise that was not counted.
-/

namespace Clubs

open Spec

/-! ## statement -/

/-- the raise size and the number of raises of a street, if they are fixed -/
def Spec.limitSize (c : Config) (s : Nat) : Int := match c.raiseSizes[s]? with | some (.int n) => n | _ => 0

def Spec.limitRaises (c : Config) (s : Nat) : Int := match c.numRaises[s]? with | some (.fin n) => n | _ => 0

/-- A limit game: fixed raise sizes and numbers of raises; there is a big blind or there are no blinds at all, the first raise size is not
smaller, and the sizes do not fall from street to street. -/
structure Spec.LimitGame (c : Config) : Prop where
  sizes : ∀ s < c.numStreets, ∃ n, c.raiseSizes[s]? = some (.int n)
  raises : ∀ s < c.numStreets, ∃ n, c.numRaises[s]? = some (.fin n) ∧ 0 ≤ n
  blind : 0 < c.bigBlind ∨ (c.bigBlind = 0 ∧ ∀ j, c.blinds.getD j 0 = 0)
  first : c.bigBlind ≤ limitSize c 0 ∧ 0 < limitSize c 0
  rising : ∀ s, s + 1 < c.numStreets → limitSize c s ≤ limitSize c (s + 1)

/-- all raises of the first streets -/
def Spec.streetsCost (c : Config) : Nat → Int
  | 0 => 0
  | s + 1 => streetsCost c s + limitRaises c s * limitSize c s

/-- how many players have put in all chips they had -/
def Spec.numAllIn (S : List Int) (d : Dealer) : Nat :=
  ((Finset.range d.cfg.numPlayers).filter fun i => contribution d i = S.getD i 0).card

/-! ## helpers -/

variable {S : List Int} {d d' : Dealer} {A B : Int} {fold : Bool} {b c lo hi : Int}

theorem limitSize_mono {c : Config} (h : LimitGame c) {s t : Nat} (hst : s ≤ t) (ht : t < c.numStreets) : limitSize c s ≤ limitSize c t := by
  induction t with
  | zero => rw [show s = 0 by omega]
  | succ t ih =>
    rcases Nat.lt_or_ge t s with h1 | h1
    · rw [show s = t + 1 by omega]
    · exact (ih h1 (by omega)).trans (h.rising t ht)

theorem limitSize_pos {c : Config} (h : LimitGame c) {s : Nat} (hs : s < c.numStreets) : 0 < limitSize c s :=
  lt_of_lt_of_le h.first.2 (limitSize_mono h (Nat.zero_le s) hs)

theorem limitRaises_nonneg {c : Config} (h : LimitGame c) {s : Nat} (hs : s < c.numStreets) : 0 ≤ limitRaises c s := by
  obtain ⟨n, h1, h2⟩ := h.raises s hs
  unfold limitRaises
  rw [h1]
  exact h2

theorem streetsCost_mono {c : Config} (h : LimitGame c) {s t : Nat} (hst : s ≤ t) (ht : t ≤ c.numStreets) : streetsCost c s ≤ streetsCost c t := by
  induction t with
  | zero => rw [show s = 0 by omega]
  | succ t ih =>
    rcases Nat.lt_or_ge t s with h1 | h1
    · rw [show s = t + 1 by omega]
    · have h2 := ih h1 (by omega)
      have h3 := mul_nonneg (limitRaises_nonneg h (show t < c.numStreets by omega)) (le_of_lt (limitSize_pos h (show t < c.numStreets by omega)))
      rw [streetsCost]; omega

/-- the running costs -/
structure CostInv (A B : Int) (S : List Int) (d : Dealer) : Prop where
  chips : ∀ i < d.cfg.numPlayers, 0 ≤ stack d i
  largest : (0 < d.largestRaise ∨ (d.largestRaise = 0 ∧ ∀ i < d.cfg.numPlayers, streetBet d i = 0)) ∧ (d.street < d.cfg.numStreets → d.largestRaise ≤ limitSize d.cfg d.street)
  raises : d.street < d.cfg.numStreets → d.streetRaises ≤ limitRaises d.cfg d.street
  last : ¬ d.street < d.cfg.numStreets → d.streetRaises = 0
  cost : ∀ i < d.cfg.numPlayers, contribution d i - streetBet d i + pyMax d.streetCommits ≤
    A + B + streetsCost d.cfg d.street + d.streetRaises * limitSize d.cfg d.street +
      numAllIn S d * limitSize d.cfg (d.cfg.numStreets - 1)
  deep : (∀ i < d.cfg.numPlayers, A + B + streetsCost d.cfg d.cfg.numStreets < S.getD i 0) → numAllIn S d = 0

theorem numAllIn_zero (h : ∀ i < d.cfg.numPlayers, contribution d i ≠ S.getD i 0) : numAllIn S d = 0 := by
  unfold numAllIn
  rw [Finset.card_eq_zero, Finset.filter_eq_empty_iff]
  exact fun i hi => h i (Finset.mem_range.mp hi)

theorem numAllIn_ne (h : numAllIn S d = 0) {i : Nat} (hi : i < d.cfg.numPlayers) : contribution d i ≠ S.getD i 0 := by
  unfold numAllIn at h
  rw [Finset.card_eq_zero, Finset.filter_eq_empty_iff] at h
  exact h (Finset.mem_range.mpr hi)

theorem numAllIn_congr {e : Dealer} (hc : e.cfg = d.cfg) (h : ∀ i < d.cfg.numPlayers, contribution e i = contribution d i) :
    numAllIn S e = numAllIn S d := by
  unfold numAllIn
  rw [hc]
  congr 1
  refine Finset.filter_congr fun i hi => ?_
  rw [h i (Finset.mem_range.mp hi)]

theorem cleanBet_fixed (h : lo = hi) : cleanBet b c lo hi = 0 ∨ cleanBet b c lo hi = c ∨ cleanBet b c lo hi = hi := by
  subst h
  rcases cleanBet_cases b c lo lo with ⟨-, -, -, e⟩ | ⟨-, -, -, e⟩ | ⟨-, -, -, e⟩ | ⟨-, -, -, e⟩
  · exact .inl e
  · exact .inr (.inl e)
  · right; right; rw [e]; exact min_eq_left (le_max_left _ _)
  · right; right; rw [e]; exact min_eq_left (le_max_left _ _)

/-- the chips that a player puts in, in a limit game -/
theorem limit_bet (hl : Live S d) (hg : LimitGame d.cfg) (h : CostInv A B S d) (hst : d.street < d.cfg.numStreets)
    (hb : d.betSizes = .ok (c, lo, hi)) :
    let m := betOf fold c (cleanBet b c lo hi)
    let t := pyMax d.streetCommits - streetBet d d.seat
    0 ≤ m ∧ m ≤ stack d d.seat ∧ c = min t (stack d d.seat) ∧
    ((m ≤ t ∧ (m = 0 ∨ m = c)) ∨ (c = t ∧ t < m ∧ m ≤ t + limitSize d.cfg d.street ∧ d.streetRaises < limitRaises d.cfg d.street ∧
      (m = t + limitSize d.cfg d.street ∨ m = stack d d.seat))) := by
  intro m t
  obtain ⟨rs, nr, hrs, hnr, h1, h2, h3⟩ := betSizes_spec hb
  obtain ⟨n, hn⟩ := hg.sizes _ hst
  obtain ⟨r, hr, hr0⟩ := hg.raises _ hst
  rw [hn] at hrs
  rw [hr] at hnr
  obtain rfl : RaiseSize.int n = rs := by simpa using hrs
  obtain rfl : NumRaises.fin r = nr := by simpa using hnr
  have en : limitSize d.cfg d.street = n := by unfold limitSize; rw [hn]
  have er : limitRaises d.cfg d.street = r := by unfold limitRaises; rw [hr]
  have hpos := limitSize_pos hg hst
  have ht0 : 0 ≤ t := call_nonneg hl.seated
  have hs0 : 0 ≤ stack d d.seat := h.chips _ (seat_lt hl.seated)
  rw [en] at hpos ⊢
  rw [er]
  have hm : m = 0 ∨ m = cleanBet b c lo hi := by
    show betOf fold c (cleanBet b c lo hi) = 0 ∨ betOf fold c (cleanBet b c lo hi) = _
    unfold betOf; split
    · exact .inl rfl
    · exact .inr rfl
  change c = min t (stack d d.seat) at h1
  change _ ∨ (_ ∧ t < d.largestRaise) → _ at h2
  change ¬ (_ ∨ (_ ∧ t < d.largestRaise)) → lo = min (n + t) (stack d d.seat) ∧ hi = lo at h3
  clear_value m t
  have hlo : lo = hi := by
    by_cases hcap : (NumRaises.fin r).reached d.streetRaises = true ∨ (d.streetRaises ≠ 0 ∧ t < d.largestRaise)
    · obtain ⟨h4, h5⟩ := h2 hcap
      rw [h4, h5]
    · exact (h3 hcap).2.symm
  have hcs := cleanBet_fixed (b := b) (c := c) hlo
  generalize cleanBet b c lo hi = x at hm hcs
  generalize stack d d.seat = k at *
  by_cases hcap : (NumRaises.fin r).reached d.streetRaises = true ∨ (d.streetRaises ≠ 0 ∧ t < d.largestRaise)
  · obtain ⟨h4, h5⟩ := h2 hcap
    clear h2 h3 hcap
    rw [min_eq_left hs0] at h5
    refine ⟨by omega, by omega, h1, .inl ⟨by omega, by omega⟩⟩
  · obtain ⟨h4, h5⟩ := h3 hcap
    have hreach : d.streetRaises < r := by
      by_contra hcon
      refine hcap (.inl ?_)
      simp only [NumRaises.reached, decide_eq_true_eq]
      omega
    clear h2 h3 hcap
    refine ⟨by omega, by omega, h1, ?_⟩
    by_cases hmt : m ≤ t
    · refine .inl ⟨hmt, by omega⟩
    · refine .inr ⟨by omega, by omega, by omega, hreach, by omega⟩

theorem pyMax_le_of {l : List Int} {x : Int} (h0 : l ≠ []) (h : ∀ i < l.length, l.getD i 0 ≤ x) : pyMax l ≤ x := by
  obtain ⟨i, hi, e⟩ := pyMax_exists h0
  rw [← e]; exact h i hi

theorem numAllIn_acted (hl : Live S d) (hm0 : 0 ≤ betOf fold c b) (hms : betOf fold c b ≤ stack d d.seat) :
    numAllIn S d ≤ numAllIn S (d.acted fold c b) ∧
    (0 < betOf fold c b → betOf fold c b = stack d d.seat → numAllIn S d + 1 ≤ numAllIn S (d.acted fold c b)) := by
  have hseat := seat_lt hl.seated
  have key : ∀ i < d.cfg.numPlayers, contribution d i = S.getD i 0 → contribution (d.acted fold c b) i = S.getD i 0 := by
    intro i hi hx
    have h1 := hl.money i hi
    rw [(acted_nums hl.seated fold c b i hi).2.1]
    split
    · next e => subst e; rw [min_eq_right hms]; omega
    · omega
  have sub : ((Finset.range d.cfg.numPlayers).filter fun i => contribution d i = S.getD i 0) ⊆
      ((Finset.range d.cfg.numPlayers).filter fun i => contribution (d.acted fold c b) i = S.getD i 0) := by
    intro i hi
    rw [Finset.mem_filter] at hi ⊢
    exact ⟨hi.1, key i (Finset.mem_range.mp hi.1) hi.2⟩
  refine ⟨Finset.card_le_card sub, fun hpos hall => ?_⟩
  refine Finset.card_lt_card ⟨sub, fun hsub => ?_⟩
  have h1 := hl.money _ hseat
  have h2 : d.seat ∈ (Finset.range d.cfg.numPlayers).filter fun i => contribution (d.acted fold c b) i = S.getD i 0 := by
    rw [Finset.mem_filter]
    refine ⟨Finset.mem_range.mpr hseat, ?_⟩
    rw [(acted_nums hl.seated fold c b _ hseat).2.1, if_pos rfl, min_eq_right hms]
    omega
  have h3 := (Finset.mem_filter.mp (hsub h2)).2
  omega

theorem acted_cost (hl : Live S d) (hg : LimitGame d.cfg) (h : CostInv A B S d) (hst : d.street < d.cfg.numStreets)
    (hb : d.betSizes = .ok (c, lo, hi)) : CostInv A B S (d.acted fold c (cleanBet b c lo hi)) := by
  obtain ⟨b1, b2, b3, b4⟩ := limit_bet (fold := fold) (b := b) hl hg h hst hb
  have hseat := seat_lt hl.seated
  obtain ⟨z1, z2⟩ := numAllIn_acted (fold := fold) (c := c) (b := cleanBet b c lo hi) hl b1 b2
  have hnum := acted_nums hl.seated fold c (cleanBet b c lo hi)
  have hfull : (d.acted fold c (cleanBet b c lo hi)).largestRaise =
      (if betOf fold c (cleanBet b c lo hi) ≠ 0 ∧ betOf fold c (cleanBet b c lo hi) - c ≥ d.largestRaise then betOf fold c (cleanBet b c lo hi) - c
        else d.largestRaise) ∧
      (d.acted fold c (cleanBet b c lo hi)).streetRaises =
      (if betOf fold c (cleanBet b c lo hi) ≠ 0 ∧ betOf fold c (cleanBet b c lo hi) - c ≥ d.largestRaise then d.streetRaises + 1
        else d.streetRaises) := ⟨rfl, rfl⟩
  have hcfg : (d.acted fold c (cleanBet b c lo hi)).cfg = d.cfg := rfl
  have hstr : (d.acted fold c (cleanBet b c lo hi)).street = d.street := rfl
  have hlen : (d.acted fold c (cleanBet b c lo hi)).streetCommits.length = d.cfg.numPlayers := by
    show (d.streetCommits.modify _ _).length = _
    rw [List.length_modify, hl.seated.streetCommits]
  generalize d.acted fold c (cleanBet b c lo hi) = e at *
  generalize betOf fold c (cleanBet b c lo hi) = m at *
  obtain ⟨f1, f2⟩ := hfull
  have hLtop : limitSize d.cfg d.street ≤ limitSize d.cfg (d.cfg.numStreets - 1) := limitSize_mono hg (by omega) (by omega)
  have hLpos := limitSize_pos hg hst
  have hmax : ∀ i < d.cfg.numPlayers, streetBet d i ≤ pyMax d.streetCommits := fun i hi =>
    pyMax_getD (by rw [hl.seated.streetCommits]; exact hi)
  rw [min_eq_right b2] at hnum
  have hown := hmax _ hseat
  have hM : pyMax e.streetCommits ≤ max (pyMax d.streetCommits) (streetBet d d.seat + m) := by
    refine pyMax_le_of (by intro h0; rw [h0] at hlen; simp at hlen; have := hl.seated.two; omega) fun i hi => ?_
    rw [hlen] at hi
    have h1 := (hnum i hi).2.2.1
    have h2 := hmax i hi
    unfold streetBet at h1 h2 ⊢
    rw [h1]
    split
    · next e => subst e; exact le_max_right _ _
    · exact le_trans (by omega) (le_max_left _ _)
  have hdiff : ∀ i < d.cfg.numPlayers, contribution e i - streetBet e i = contribution d i - streetBet d i := by
    intro i hi
    rw [(hnum i hi).2.1, (hnum i hi).2.2.1]; omega
  have hz : (numAllIn S d : Int) * limitSize d.cfg (d.cfg.numStreets - 1) ≤ numAllIn S e * limitSize d.cfg (d.cfg.numStreets - 1) :=
    mul_le_mul_of_nonneg_right (by exact_mod_cast z1) (by omega)
  have hlarge : 0 < d.largestRaise ∨ (d.largestRaise = 0 ∧ c ≤ 0) := by
    rcases h.largest.1 with h1 | ⟨h1, h2⟩
    · exact .inl h1
    · refine .inr ⟨h1, ?_⟩
      have : pyMax d.streetCommits ≤ 0 := by
        refine pyMax_le_of (by intro h0; have := hl.seated.streetCommits; rw [h0] at this; have := hl.seated.two; simp at *; omega) fun i hi => ?_
        rw [hl.seated.streetCommits] at hi
        exact le_of_eq (h2 i hi)
      have := h2 _ hseat
      omega
  have hlarge2 := h.largest.2 hst
  have hnr := h.raises hst
  constructor
  · intro i hi
    rw [hcfg] at hi
    have := h.chips i hi
    rw [(hnum i hi).1]
    split
    · next e => subst e; omega
    · omega
  · rw [f1, hcfg, hstr]
    split
    · next hf => exact ⟨by omega, fun _ => by rcases b4 with b4 | b4 <;> omega⟩
    · next hf =>
      refine ⟨?_, fun _ => hlarge2⟩
      rcases h.largest.1 with h1 | ⟨h1, h2⟩
      · exact .inl h1
      · refine .inr ⟨h1, fun i hi => ?_⟩
        have hm : m = 0 := by rcases b4 with b4 | b4 <;> omega
        rw [(hnum i hi).2.2.1, h2 i hi, hm]
        simp
  · intro _
    rw [f2, hcfg, hstr]
    split
    · next hf => rcases b4 with b4 | b4 <;> omega
    · exact hnr
  · intro hx
    rw [hcfg, hstr] at hx
    exact absurd hst hx
  · intro i hi
    rw [hcfg] at hi
    rw [hdiff i hi, hcfg, hstr, f2]
    have hc := h.cost i hi
    rcases b4 with ⟨g1, g2⟩ | ⟨g1, g2, g3, g4, g5⟩
    · rw [if_neg (by omega)]
      have : pyMax e.streetCommits ≤ pyMax d.streetCommits := by omega
      omega
    · have hM' : pyMax e.streetCommits ≤ streetBet d d.seat + m := by omega
      split
      · next hf =>
        rw [add_mul, one_mul]
        omega
      · next hf =>
        have hall : m = stack d d.seat := by omega
        have hz2 : ((numAllIn S d + 1 : Nat) : Int) * limitSize d.cfg (d.cfg.numStreets - 1) ≤
            numAllIn S e * limitSize d.cfg (d.cfg.numStreets - 1) :=
          mul_le_mul_of_nonneg_right (by exact_mod_cast z2 (by omega) hall) (by omega)
        push_cast at hz2
        rw [add_mul, one_mul] at hz2
        omega
  · intro hS
    rw [hcfg] at hS
    have h0 := h.deep hS
    refine numAllIn_zero fun i hi => ?_
    rw [hcfg] at hi
    have h1 := numAllIn_ne h0 hi
    rw [(hnum i hi).2.1]
    split
    · next hx =>
      subst hx
      have h2 := h.cost _ hseat
      rw [h0, Nat.cast_zero, zero_mul] at h2
      have h3 := streetsCost_mono hg (show d.street + 1 ≤ d.cfg.numStreets by omega) (le_refl _)
      rw [streetsCost] at h3
      have h4 := hS _ hseat
      have h5 : d.streetRaises * limitSize d.cfg d.street ≤ limitRaises d.cfg d.street * limitSize d.cfg d.street :=
        mul_le_mul_of_nonneg_right hnr (le_of_lt hLpos)
      rcases b4 with ⟨g1, -⟩ | ⟨-, -, g3, g4, -⟩
      · omega
      · have h6 : (d.streetRaises + 1) * limitSize d.cfg d.street ≤ limitRaises d.cfg d.street * limitSize d.cfg d.street :=
          mul_le_mul_of_nonneg_right (by omega) (le_of_lt hLpos)
        rw [add_mul, one_mul] at h6
        omega
    · omega

theorem afterBet_cost (hl : Live S d) (hg : LimitGame d.cfg) (h : CostInv A B S d) (hst : d.street < d.cfg.numStreets)
    (hb : d.betSizes = .ok (c, lo, hi)) : CostInv A B S (d.afterBet fold c (cleanBet b c lo hi)) := by
  have h1 := acted_cost (fold := fold) (b := b) hl hg h hst hb
  have hs1 : Seated (d.acted fold c (cleanBet b c lo hi)) := acted_seated hl.seated _ _ _
  have hst1 : (d.acted fold c (cleanBet b c lo hi)).street < (d.acted fold c (cleanBet b c lo hi)).cfg.numStreets := hst
  have hg1 : LimitGame (d.acted fold c (cleanBet b c lo hi)).cfg := hg
  rcases afterBet_cases d fold c (cleanBet b c lo hi) with ⟨-, e⟩ | ⟨-, e⟩
  · rw [e]; exact ⟨h1.1, h1.2, h1.3, h1.4, h1.5, h1.6⟩
  · rw [e]
    generalize d.acted fold c (cleanBet b c lo hi) = x at *
    have h2 : CostInv A B S x.moveAction := ⟨h1.1, h1.2, h1.3, h1.4, h1.5, h1.6⟩
    have hs2 : Seated x.moveAction := moveAction_seated hs1
    have hst2 : x.moveAction.street < x.moveAction.cfg.numStreets := hst1
    have hg2 : LimitGame x.moveAction.cfg := hg1
    clear h1 hs1 hst1 hg1 e
    generalize x.moveAction = y at *
    obtain ⟨n1, -, n3, n4, -, n6, n7, -, -, n10, -⟩ := nextStreet_fields y
    have n0 := nextStreet_street hst2
    have hbet : ∀ i, streetBet y.nextStreet i = 0 := by
      intro i
      unfold streetBet
      rw [n1, List.getD_eq_getElem?_getD, List.getElem?_replicate]
      split <;> rfl
    have hmax0 : pyMax y.nextStreet.streetCommits ≤ 0 := by
      refine pyMax_le_of (by rw [n1, n4]; have := hs2.two; simp; omega) fun i _ => ?_
      exact le_of_eq (hbet i)
    have hge : y.street + 1 ≤ y.nextStreet.street ∧ y.nextStreet.street ≤ y.cfg.numStreets := by
      rw [n0]; split <;> omega
    have hcon : ∀ i, contribution y.nextStreet i = contribution y i := by
      intro i; unfold contribution; rw [n7]
    constructor
    · intro i hi
      rw [n4] at hi
      unfold stack
      rw [n6]
      exact h2.chips i hi
    · rw [n10, n4]
      refine ⟨?_, fun hx => (h2.largest.2 hst2).trans (limitSize_mono hg2 (by omega) hx)⟩
      rcases h2.largest.1 with h3 | ⟨h3, -⟩
      · exact .inl h3
      · exact .inr ⟨h3, fun i _ => hbet i⟩
    · intro hx
      rw [n4] at hx ⊢
      rw [n3]
      exact limitRaises_nonneg hg2 hx
    · exact fun _ => n3
    · intro i hi
      rw [n4] at hi
      rw [hcon, hbet, n3, n4, zero_mul, numAllIn_congr n4 fun i _ => hcon i]
      have h3 := h2.cost i hi
      have h4 : streetBet y i ≤ pyMax y.streetCommits := pyMax_getD (by rw [hs2.streetCommits]; exact hi)
      have h5 := streetsCost_mono hg2 hge.1 hge.2
      rw [streetsCost] at h5
      have h6 : y.streetRaises * limitSize y.cfg y.street ≤ limitRaises y.cfg y.street * limitSize y.cfg y.street :=
        mul_le_mul_of_nonneg_right (h2.raises hst2) (le_of_lt (limitSize_pos hg2 hst2))
      omega
    · intro hS
      rw [n4] at hS
      rw [numAllIn_congr n4 fun i _ => hcon i]
      exact h2.deep hS

theorem dealt_cost {rb rs : Bool} {shuf : Shuffle} {obs : Observation} (hd : Seated d) (hr : d.reset rb rs shuf = (d', .ok obs))
    (hn : NonNegative (startStacks d rs) d'.cfg) (hcov : Covers (startStacks d rs) d'.cfg) (hg : LimitGame d'.cfg)
    (hA : ∀ j, d'.cfg.antes.getD j 0 ≤ A) (hB : ∀ j, d'.cfg.blinds.getD j 0 ≤ B) : CostInv A B (startStacks d rs) d' := by
  have hl := (dealt_live hd hr).1
  obtain ⟨hc, -, -, -, hstr, hsr, hlr, -, f, -, -, -, hs⟩ := C41_clean hd hr
  have hA0 : 0 ≤ A := by have := hA d'.cfg.antes.length; rwa [List.getD_eq_default _ _ (le_refl _)] at this
  have hB0 : 0 ≤ B := by have := hB d'.cfg.blinds.length; rwa [List.getD_eq_default _ _ (le_refl _)] at this
  rw [hc] at hA hB
  have h1 : d'.street < d'.cfg.numStreets := by rw [hstr]; exact hl.oneStreet
  refine ⟨dealt_covered hd hr hn hcov, ?_, ?_, ?_, ?_, ?_⟩
  · rw [hlr, hstr, ← hc]
    refine ⟨?_, fun _ => hg.first.1⟩
    rcases hg.blind with h2 | ⟨h2, h3⟩
    · exact .inl h2
    · refine .inr ⟨h2, fun i hi => ?_⟩
      rw [hc] at hi h3
      rw [(hs i hi).2.1]
      split_ifs <;> first | exact h3 _ | rfl
  · intro hx; rw [hsr]; exact limitRaises_nonneg hg hx
  · intro hx; exact absurd h1 hx
  · intro i hi
    rw [hc] at hi
    have hM : pyMax d'.streetCommits ≤ B := by
      refine pyMax_le_of (by intro h0; have := hl.seated.streetCommits; rw [h0] at this; have := hl.seated.two; simp at *; omega) fun i hi => ?_
      rw [hl.seated.streetCommits, hc] at hi
      have := (hs i hi).2.1
      unfold streetBet at this
      rw [this]
      split_ifs <;> first | exact hB _ | exact hB0
    obtain ⟨s1, s2, -⟩ := hs i hi
    have : contribution d' i - streetBet d' i ≤ A := by
      rw [s1, s2, add_sub_cancel_right]
      split
      · exact hA _
      · exact hA0
    rw [hstr, hsr, zero_mul]
    have : (0 : Int) ≤ numAllIn (startStacks d rs) d' * limitSize d'.cfg (d'.cfg.numStreets - 1) :=
      mul_nonneg (Int.natCast_nonneg _) (le_of_lt (limitSize_pos hg (by have := hl.oneStreet; omega)))
    show _ ≤ A + B + 0 + 0 + _
    omega
  · intro hS
    refine numAllIn_zero fun i hi => ?_
    have h2 := hS i hi
    rw [hc] at hi
    have h3 := streetsCost_mono hg (Nat.zero_le d'.cfg.numStreets) (le_refl _)
    rw [streetsCost] at h3
    have h4 : contribution d' i ≤ A + B := by
      rw [(hs i hi).1]
      refine add_le_add ?_ ?_
      · split_ifs <;> first | exact hA _ | exact hA0
      · split_ifs <;> first | exact hB _ | exact hB0
    omega

theorem cost_bound (hl : Live S d) (hg : LimitGame d.cfg) (h : CostInv A B S d) {i : Nat} (hi : i < d.cfg.numPlayers) :
    contribution d i ≤ A + B + streetsCost d.cfg (min (d.street + 1) d.cfg.numStreets) +
      numAllIn S d * limitSize d.cfg (d.cfg.numStreets - 1) := by
  have h1 := h.cost i hi
  have h4 : streetBet d i ≤ pyMax d.streetCommits := pyMax_getD (by rw [hl.seated.streetCommits]; exact hi)
  by_cases hst : d.street < d.cfg.numStreets
  · rw [min_eq_left (by omega), streetsCost]
    have h6 : d.streetRaises * limitSize d.cfg d.street ≤ limitRaises d.cfg d.street * limitSize d.cfg d.street :=
      mul_le_mul_of_nonneg_right (h.raises hst) (le_of_lt (limitSize_pos hg hst))
    omega
  · rw [min_eq_right (by omega), show d.cfg.numStreets = d.street by have := hl.street; omega]
    rw [h.last hst, zero_mul] at h1
    rw [show d.cfg.numStreets = d.street by have := hl.street; omega] at h1
    omega

theorem settle_contribution (d : Dealer) (p : List Int) (i : Nat) : contribution (d.settle p) i = contribution d i := rfl

/-! ## the pure-Python engine -/

theorem cost_inHand (h : InHand S d) :
    ((NonNegative S d.cfg → Covers S d.cfg → LimitGame d.cfg → (∀ j, d.cfg.antes.getD j 0 ≤ A) → (∀ j, d.cfg.blinds.getD j 0 ≤ B) →
      CostInv A B S d) ∧ Live S d) ∨
    ∃ e p, d = e.settle p ∧ (NonNegative S e.cfg → Covers S e.cfg → LimitGame e.cfg → (∀ j, e.cfg.antes.getD j 0 ≤ A) →
      (∀ j, e.cfg.blinds.getD j 0 ≤ B) → CostInv A B S e) ∧ Live S e := by
  have key := inHand_induct (P := fun S d => NonNegative S d.cfg → Covers S d.cfg → LimitGame d.cfg → (∀ j, d.cfg.antes.getD j 0 ≤ A) →
      (∀ j, d.cfg.blinds.getD j 0 ≤ B) → CostInv A B S d)
    (fun d d' rb rs shuf obs hd hs hr hn hcov hg hA hB => dealt_cost hd hr hn hcov hg hA hB)
    (fun S d fold b c lo hi _ hl hst _ ih hb hn hcov hg hA hB => by
      rw [afterBet_cfg] at hn hcov hg hA hB
      exact afterBet_cost hl hg (ih hn hcov hg hA hB) hst hb) h
  rcases key with ⟨h1, hl, -⟩ | ⟨e, p, he, h1, hl, -⟩
  · exact .inl ⟨h1, hl⟩
  · exact .inr ⟨e, p, he, h1, hl⟩

/-- **C107** (partial: the raise sizes do not fall from street to street and the first is at least the big blind, see `C107_false`): at any time
of a hand of a limit game, nobody has put in more than the largest ante, the largest blind, all raises of the streets begun so far, and one
raise of the largest size for every player who is all-in. -/
theorem C107_cost_partial (h : InHand S d) (hn : NonNegative S d.cfg) (hcov : Covers S d.cfg) (hg : LimitGame d.cfg)
    (hA : ∀ j, d.cfg.antes.getD j 0 ≤ A) (hB : ∀ j, d.cfg.blinds.getD j 0 ≤ B) {i : Nat} (hi : i < d.cfg.numPlayers) :
    contribution d i ≤ A + B + streetsCost d.cfg (min (d.street + 1) d.cfg.numStreets) +
      numAllIn S d * limitSize d.cfg (d.cfg.numStreets - 1) := by
  rcases cost_inHand (A := A) (B := B) h with ⟨h1, hl⟩ | ⟨e, p, rfl, h1, hl⟩
  · exact cost_bound hl hg (h1 hn hcov hg hA hB) hi
  · exact cost_bound hl hg (h1 hn hcov hg hA hB) hi

/-- **C107** (partial, under the same conditions): if everybody starts the hand with more chips than that, nobody is ever all-in, and the hand
costs nobody more than the largest ante, the largest blind and all raises of all streets. -/
theorem C107_deep_partial (h : InHand S d) (hn : NonNegative S d.cfg) (hcov : Covers S d.cfg) (hg : LimitGame d.cfg)
    (hA : ∀ j, d.cfg.antes.getD j 0 ≤ A) (hB : ∀ j, d.cfg.blinds.getD j 0 ≤ B)
    (hS : ∀ i < d.cfg.numPlayers, A + B + streetsCost d.cfg d.cfg.numStreets < S.getD i 0) {i : Nat} (hi : i < d.cfg.numPlayers) :
    numAllIn S d = 0 ∧ contribution d i ≤ A + B + streetsCost d.cfg d.cfg.numStreets := by
  have h0 : numAllIn S d = 0 := by
    rcases cost_inHand (A := A) (B := B) h with ⟨h1, -⟩ | ⟨e, p, rfl, h1, -⟩
    · exact (h1 hn hcov hg hA hB).deep hS
    · exact (h1 hn hcov hg hA hB).deep hS
  have h1 := C107_cost_partial h hn hcov hg hA hB hi
  have h2 := streetsCost_mono hg (show min (d.street + 1) d.cfg.numStreets ≤ d.cfg.numStreets from min_le_right _ _) (le_refl _)
  rw [h0, Nat.cast_zero, zero_mul] at h1
  exact ⟨h0, by omega⟩

theorem limitGame_of {c : Config} (h0 : c.numStreets = 2) (h1 : c.raiseSizes = [.int 2, .int 4]) (h2 : c.numRaises = [.fin 1, .fin 1])
    (h3 : c.bigBlind = 2) : LimitGame c := by
  refine ⟨fun s hs => ?_, fun s hs => ?_, .inl (by omega), ?_, fun s hs => ?_⟩
  · rw [h1]; rw [h0] at hs
    rcases s with _ | _ | s
    · exact ⟨2, rfl⟩
    · exact ⟨4, rfl⟩
    · omega
  · rw [h2]; rw [h0] at hs
    rcases s with _ | _ | s
    · exact ⟨1, rfl, by decide⟩
    · exact ⟨1, rfl, by decide⟩
    · omega
  · unfold limitSize; rw [h1, h3]; decide
  · rw [h0] at hs
    obtain rfl : s = 0 := by omega
    unfold limitSize; rw [h1]; decide

/-- the bound is reached: blinds of 1 and 2, one raise of 2 before and one of 4 after the first street -/
example : ∃ S d, InHand S d ∧ Reachable d ∧ NonNegative S d.cfg ∧ Covers S d.cfg ∧ LimitGame d.cfg ∧ numAllIn S d = 0 ∧
    (∀ j, d.cfg.antes.getD j 0 ≤ 0) ∧ (∀ j, d.cfg.blinds.getD j 0 ≤ 2) ∧ d.street = 2 ∧ contribution d 0 = 8 ∧
    0 + 2 + streetsCost d.cfg 2 = 8 := by
  obtain ⟨S, d, h1, h2, h3, h4, h5, h6, h7, h8, h9, h10, h11, h12, h13, h14⟩ := hand_exists (P := fun S d => NonNegative S d.cfg ∧
      Covers S d.cfg ∧ d.cfg.raiseSizes = [.int 2, .int 4] ∧ d.cfg.numRaises = [.fin 1, .fin 1] ∧ d.cfg.bigBlind = 2 ∧ d.cfg.numStreets = 2 ∧
      d.cfg.antes = [0, 0] ∧ d.cfg.blinds = [1, 2] ∧ numAllIn S d = 0 ∧ d.street = 2 ∧ contribution d 0 = 8 ∧ 0 + 2 + streetsCost d.cfg 2 = 8)
    (limit 2 [1, 2] 100 (.list [.int 2, .int 4]) (.scalar (.fin 1))) [.bet 3, .bet 2, .bet 4, .bet 4] (by decide +kernel)
  refine ⟨S, d, h1, h2, h3, h4, limitGame_of h8 h5 h6 h7, h11, ?_, ?_, h12, h13, h14⟩
  · intro j; rw [h9]; rcases j with _ | _ | j <;> simp
  · intro j; rw [h10]; rcases j with _ | _ | j <;> simp

/-- **C107 is false in general**: if the raises get smaller, they are not counted (as in `C32_false`). Blinds of 1 and 2, one raise of 4 and one of
2 allowed: nobody is all-in, and the hand costs 14 chips instead of at most 8. -/
theorem C107_false : ∃ S d, InHand S d ∧ Reachable d ∧ NonNegative S d.cfg ∧ Covers S d.cfg ∧ d.cfg.raiseSizes = [.int 4, .int 2] ∧
    d.cfg.numRaises = [.fin 1, .fin 1] ∧ d.cfg.antes = [0, 0] ∧ d.cfg.blinds = [1, 2] ∧ d.cfg.bigBlind = 2 ∧ numAllIn S d = 0 ∧
    0 + 2 + streetsCost d.cfg 2 = 8 ∧ contribution d 0 = 14 :=
  hand_exists (limit 2 [1, 2] 100 (.list [.int 4, .int 2]) (.scalar (.fin 1))) [.bet 5, .bet 4, .bet 2, .bet 4, .bet 4, .bet 4]
    (by decide +kernel)

/-! ### the games of `configs.py` -/

/-- The limit games of `configs.py`; what a hand costs at most as long as nobody is all-in, and how much more for everybody who is. -/
def Spec.shippedLimits : List (DealerArgs × Int × Int) :=
  [(LEDUC_TWO_PLAYER, 9, 2), (KUHN_TWO_PLAYER, 2, 1), (KUHN_THREE_PLAYER, 2, 1), (LIMIT_HOLDEM_TWO_PLAYER, 48, 4),
   (LIMIT_HOLDEM_SIX_PLAYER, 48, 4), (LIMIT_HOLDEM_NINE_PLAYER, 48, 4)]

def rawSize : RawRaise → Int
  | .int n => n
  | _ => 0

def rawNum : RawNumRaises → Int
  | .fin n => n
  | _ => 0

/-- the sum of the raises of the first streets -/
def sumRaises (rs nr : List Int) : Nat → Int
  | 0 => 0
  | s + 1 => sumRaises rs nr s + nr.getD s 0 * rs.getD s 0

theorem raises_same {rs : List RawRaise} {l : List RaiseSize} (h : List.Forall₂ sameRaise rs l)
    (hr : ∀ x ∈ rs, x = .int (rawSize x)) : l = rs.map fun x => .int (rawSize x) := by
  induction h with
  | nil => rfl
  | @cons x y rs l hxy h ih =>
    rw [List.map_cons, ← ih fun z hz => hr z (List.mem_cons_of_mem _ hz)]
    congr 1
    have hx := hr x List.mem_cons_self
    rw [hx] at hxy
    cases y with
    | int m => exact congrArg _ (show rawSize x = m from hxy).symm
    | pot => exact hxy.elim
    | inf => exact hxy.elim

theorem nums_same {rs : List RawNumRaises} {l : List NumRaises} (h : List.Forall₂ sameNum rs l)
    (hr : ∀ x ∈ rs, x = .fin (rawNum x)) : l = rs.map fun x => .fin (rawNum x) := by
  induction h with
  | nil => rfl
  | @cons x y rs l hxy h ih =>
    rw [List.map_cons, ← ih fun z hz => hr z (List.mem_cons_of_mem _ hz)]
    congr 1
    have hx := hr x List.mem_cons_self
    rw [hx] at hxy
    cases y with
    | fin m => exact congrArg _ (show rawNum x = m from hxy).symm
    | inf => exact hxy.elim

/-- what has to be checked of the arguments -/
def limitArgs (a : DealerArgs) (A B k t : Int) : Prop :=
  let ns := a.numStreets.toNat
  let rs := (expandL a.raiseSizes a.numStreets).map rawSize
  let nr := (expandL a.numRaises a.numStreets).map rawNum
  let bl := expandL a.blinds a.numPlayers
  let bb := bl.getD 1 0
  (∀ x ∈ expandL a.raiseSizes a.numStreets, x = .int (rawSize x)) ∧ (∀ x ∈ expandL a.numRaises a.numStreets, x = .fin (rawNum x)) ∧
  (∀ n ∈ nr, 0 ≤ n) ∧ (0 < bb ∨ (bb = 0 ∧ ∀ b ∈ bl, b = 0)) ∧ (bb ≤ rs.getD 0 0 ∧ 0 < rs.getD 0 0) ∧
  (∀ s < ns - 1, rs.getD s 0 ≤ rs.getD (s + 1) 0) ∧ rs.length = ns ∧ nr.length = ns ∧ (∀ b ∈ bl, b ≤ B) ∧ 0 ≤ B ∧
  (∀ b ∈ expandL a.antes a.numPlayers, b ≤ A) ∧ 0 ≤ A ∧ A + B + sumRaises rs nr ns = k ∧ rs.getD (ns - 1) 0 = t

instance (a : DealerArgs) (A B k t : Int) : Decidable (limitArgs a A B k t) := by unfold limitArgs; infer_instance

theorem getD_le {l : List Int} {A : Int} (h : ∀ b ∈ l, b ≤ A) (hA : 0 ≤ A) (j : Nat) : l.getD j 0 ≤ A := by
  rw [List.getD_eq_getElem?_getD]
  cases hj : l[j]? with
  | none => exact hA
  | some b => exact h b (List.mem_of_getElem? hj)

theorem limit_new {a : DealerArgs} {shuf : Shuffle} {k t : Int} (h : Dealer.new a shuf = .ok d) (hc : limitArgs a A B k t) :
    LimitGame d.cfg ∧ (∀ j, d.cfg.antes.getD j 0 ≤ A) ∧ (∀ j, d.cfg.blinds.getD j 0 ≤ B) ∧
    A + B + streetsCost d.cfg d.cfg.numStreets = k ∧ limitSize d.cfg (d.cfg.numStreets - 1) = t := by
  obtain ⟨x1, x2, ⟨rs, x3, x4⟩, ⟨nr, x5, x6⟩, -, -, x7, x8, -⟩ := C44_values a shuf d h
  obtain ⟨c1, c2, c3, c4, c5, c6, c7, c8, c9, c10, c11, c12, c13, c14⟩ := hc
  obtain rfl := expands_eq x3
  obtain rfl := expands_eq x5
  have e1 := raises_same x4 c1
  have e2 := nums_same x6 c2
  have hbb : (expandL a.blinds a.numPlayers).getD 1 0 = d.cfg.bigBlind := by
    rw [← expands_eq x1, List.getD_eq_getElem?_getD, (x1.2 1 _).2 x8]; rfl
  rw [← expands_eq x1] at hbb c4 c5 c9
  rw [← expands_eq x2] at c11
  rw [hbb] at c4 c5
  have hsz : ∀ s, limitSize d.cfg s = ((expandL a.raiseSizes a.numStreets).map rawSize).getD s 0 := fun s => by
    unfold limitSize
    rw [e1, List.getElem?_map, List.getD_eq_getElem?_getD, List.getElem?_map]
    cases (expandL a.raiseSizes a.numStreets)[s]? <;> rfl
  have hnm : ∀ s, limitRaises d.cfg s = ((expandL a.numRaises a.numStreets).map rawNum).getD s 0 := fun s => by
    unfold limitRaises
    rw [e2, List.getElem?_map, List.getD_eq_getElem?_getD, List.getElem?_map]
    cases (expandL a.numRaises a.numStreets)[s]? <;> rfl
  have hsum : ∀ s, streetsCost d.cfg s =
      sumRaises ((expandL a.raiseSizes a.numStreets).map rawSize) ((expandL a.numRaises a.numStreets).map rawNum) s := fun s => by
    induction s with
    | zero => rfl
    | succ s ih => rw [streetsCost, sumRaises, ih, hsz, hnm]
  rw [List.length_map] at c7 c8
  refine ⟨⟨fun s hs => ?_, fun s hs => ?_, ?_, ?_, fun s hs => ?_⟩, getD_le c11 c12, getD_le c9 c10, ?_, ?_⟩
  · rw [x7, ← c7] at hs
    rw [e1, List.getElem?_map, List.getElem?_eq_getElem hs]
    exact ⟨_, rfl⟩
  · rw [x7, ← c8] at hs
    rw [e2, List.getElem?_map, List.getElem?_eq_getElem hs]
    exact ⟨_, rfl, c3 _ (List.mem_map_of_mem (List.getElem_mem hs))⟩
  · refine c4.imp id fun h => ⟨h.1, fun j => ?_⟩
    rw [List.getD_eq_getElem?_getD]
    cases hj : d.cfg.blinds[j]? with
    | none => rfl
    | some b => exact h.2 b (List.mem_of_getElem? hj)
  · rw [hsz]; exact c5
  · rw [hsz, hsz]; exact c6 s (by omega)
  · rw [hsum, x7]; exact c13
  · rw [hsz, x7]; exact c14

theorem limit_checked : ∀ x ∈ shippedLimits, ∃ A B, limitArgs x.1 A B x.2.1 x.2.2 := by
  have : ∀ x ∈ shippedLimits, ∃ A ∈ ([0, 1] : List Int), ∃ B ∈ ([0, 2] : List Int), limitArgs x.1 A B x.2.1 x.2.2 := by decide +kernel
  intro x hx
  obtain ⟨A, -, B, -, h⟩ := this x hx
  exact ⟨A, B, h⟩

theorem limit_shipped : ∀ x ∈ shippedLimits, x.1 ∈ ALL_CONFIGS ∧ x.2.1 < x.1.startStack := by decide +kernel

/-- **C107** for the limit games of `configs.py`: however a hand is played, it costs nobody more than 9 chips in Leduc poker, 2 in Kuhn poker
and 48 in limit hold'em, and as much as one raise of the last street more for everybody who is all-in; if everybody starts with more chips than
that, nobody is ever all-in. -/
theorem C107_shipped {a : DealerArgs} {k t : Int} {shuf : Shuffle} {d0 : Dealer} (ha : (a, k, t) ∈ shippedLimits)
    (hnew : Dealer.new a shuf = .ok d0) (h : InHand S d) (hcfg : d.cfg = d0.cfg) (hn : NonNegative S d.cfg) (hcov : Covers S d.cfg)
    {i : Nat} (hi : i < d.cfg.numPlayers) :
    contribution d i ≤ k + numAllIn S d * t ∧
    ((∀ j < d.cfg.numPlayers, k < S.getD j 0) → numAllIn S d = 0 ∧ contribution d i ≤ k) := by
  obtain ⟨A, B, hc⟩ := limit_checked _ ha
  obtain ⟨h1, h2, h3, h4, h5⟩ := limit_new hnew hc
  rw [← hcfg] at h1 h2 h3 h4 h5
  refine ⟨?_, fun hS => ?_⟩
  · have h6 := C107_cost_partial h hn hcov h1 h2 h3 hi
    have h7 := streetsCost_mono h1 (show min (d.street + 1) d.cfg.numStreets ≤ d.cfg.numStreets from min_le_right _ _) (le_refl _)
    rw [h5] at h6
    simp only at h4 h6
    omega
  · simp only at h4
    have h6 := C107_deep_partial h hn hcov h1 h2 h3 (by rw [h4]; exact hS) hi
    rwa [h4] at h6

/-- **C107**, a hand that everybody starts with the stacks of the configuration: nobody is ever all-in, and the hand costs nobody more than 9 chips
in Leduc poker, 2 in Kuhn poker and 48 in limit hold'em. -/
theorem C107_fresh {a : DealerArgs} {k t : Int} {shuf : Shuffle} {d0 : Dealer} (ha : (a, k, t) ∈ shippedLimits)
    (hnew : Dealer.new a shuf = .ok d0) (h : InHand (startStacks d0 true) d) (hcfg : d.cfg = d0.cfg) {i : Nat} (hi : i < d.cfg.numPlayers) :
    numAllIn (startStacks d0 true) d = 0 ∧ contribution d i ≤ k := by
  have g := shipped_good (limit_shipped _ ha).1 hnew true
  refine (C107_shipped ha hnew h hcfg (hcfg ▸ g.nonneg) (hcfg ▸ g.covers) hi).2 fun j hj => ?_
  rw [hcfg] at hj
  show k < (List.replicate _ _).getD j 0
  rw [getD_replicate _ _ _ _ hj, (C44_values a shuf d0 hnew).2.2.2.2.2.2.2.2.2.2.2.1]
  exact (limit_shipped _ ha).2

theorem playCmds_cfg {cs : List Cmd} : ∀ {r r' : Played}, playCmds r cs = .ok r' → r'.2.1.cfg = r.2.1.cfg := by
  induction cs with
  | nil => intro r r' h; cases h; rfl
  | cons c cs ih =>
    intro r r' h
    cases c with
    | bet b =>
      unfold playCmds at h
      split at h
      · next d out hs =>
        rw [ih h]
        have := step_cfg r.2.1 (.fin b)
        rwa [hs] at this
      · cases h
    | deal =>
      unfold playCmds at h
      split at h
      · next d obs hs =>
        rw [ih h]
        have := reset_cfg r.2.1 false false id
        rwa [hs] at this
      · cases h

/-- a state of a hand, and the table it is played at -/
theorem hand_exists_at (a : DealerArgs) (cs : List Cmd) {P : List Int → Dealer → Prop} [∀ S d, Decidable (P S d)]
    (h : (playTable a cs).bind (fun r => .ok (decide (P r.1 r.2.1))) = .ok true) :
    ∃ d0 S d, Dealer.new a id = .ok d0 ∧ InHand S d ∧ d.cfg = d0.cfg ∧ P S d := by
  cases ht : playTable a cs with
  | error e => rw [ht] at h; simp [Except.bind] at h
  | ok r =>
    rw [ht] at h
    simp only [Except.bind, Except.ok.injEq, decide_eq_true_eq] at h
    have h1 := (playTable_ok ht).1
    unfold playTable at ht
    cases hn : Dealer.new a id with
    | error e => rw [hn] at ht; simp [Except.bind] at ht
    | ok d0 =>
      rw [hn] at ht
      simp only [Except.bind] at ht
      split at ht
      · next d1 obs1 hr =>
        have h2 := playCmds_cfg ht
        have h3 := reset_cfg d0 true false id
        rw [hr] at h3
        exact ⟨d0, _, _, rfl, h1, h2.trans h3, h⟩
      · simp at ht

/-- a hand of Leduc poker that costs both players as much as it can -/
example : ∃ d0 d, Dealer.new LEDUC_TWO_PLAYER id = .ok d0 ∧ InHand (startStacks d0 true) d ∧ d.cfg = d0.cfg ∧
    contribution d 0 = 9 ∧ contribution d 1 = 9 := by
  obtain ⟨d0, S, d, h1, h2, h3, h4, h5⟩ := hand_exists_at (P := fun S d => S = [10, 10] ∧ contribution d 0 = 9 ∧ contribution d 1 = 9)
    LEDUC_TWO_PLAYER [.bet 2, .bet 4, .bet 2, .bet 2, .bet 4, .bet 2] (by decide +kernel)
  have : startStacks d0 true = [10, 10] := by
    obtain ⟨-, -, -, -, -, v6, -, -, -, -, -, v11, -⟩ := C44_values _ _ _ h1
    have : (d0.cfg.numPlayers : Int) = 2 := v6
    have : d0.cfg.numPlayers = 2 := by omega
    show List.replicate _ _ = _
    rw [this, v11]; rfl
  exact ⟨d0, d, h1, by rw [this, ← h4]; exact h2, h3, h5⟩

/-- a hand after one that cost the loser 7 chips: a player who bets the last 2 of them is all-in -/
example : ∃ d0 S d, Dealer.new LEDUC_TWO_PLAYER id = .ok d0 ∧ InHand S d ∧ d.cfg = d0.cfg ∧ NonNegative S d.cfg ∧ Covers S d.cfg ∧
    numAllIn S d = 1 :=
  hand_exists_at LEDUC_TWO_PLAYER [.bet 2, .bet 4, .bet 2, .bet 2, .bet 4, .bet 0, .deal, .bet 2, .bet 2] (by decide +kernel)

/-! ## the array engine -/

namespace Numpy

theorem limit_sizesOk (h : ArrayInHand S d) (hg : LimitGame d.cfg) : SizesOk d.cfg := by
  have hlen : d.cfg.raiseSizes.length = d.cfg.numStreets := by
    rcases array_induct (P := fun _ _ => True) (fun _ _ _ _ _ _ _ _ _ => trivial) (fun _ _ _ _ _ _ _ _ _ _ _ _ _ => trivial) h with
      ⟨-, h1, -⟩ | ⟨e, p, rfl, -, h1, -⟩
    · exact h1.seated.raiseSizes
    · exact h1.seated.raiseSizes
  refine ⟨by rcases hg.blind with h | h <;> omega, fun n hn => ?_⟩
  obtain ⟨s, hs, e⟩ := List.mem_iff_getElem.mp hn
  have h2 := limitSize_pos hg (show s < d.cfg.numStreets by omega)
  unfold limitSize at h2
  rw [List.getElem?_eq_getElem hs, e] at h2
  exact le_of_lt h2

theorem cost_inHand (h : ArrayInHand S d) (hn : NonNegative S d.cfg) (hcov : Covers S d.cfg) (hg : LimitGame d.cfg)
    (hA : ∀ j, d.cfg.antes.getD j 0 ≤ A) (hB : ∀ j, d.cfg.blinds.getD j 0 ≤ B) :
    ∃ e, e.cfg = d.cfg ∧ e.street = d.street ∧ e.potCommits = d.potCommits ∧ Live S e ∧ CostInv A B S e := by
  have hz : SizesOk d.cfg := limit_sizesOk h hg
  have key := array_induct (P := fun S d => NonNegative S d.cfg → SizesOk d.cfg → Covers S d.cfg → LimitGame d.cfg →
      (∀ j, d.cfg.antes.getD j 0 ≤ A) → (∀ j, d.cfg.blinds.getD j 0 ≤ B) → Sound S d ∧ CostInv A B S d)
    (fun d d' rb rs shuf obs hd hs hr hn _ hcov hg hA hB => ⟨dealt_sound hd hr hn, dealt_cost hd hr hn hcov hg hA hB⟩)
    (fun S d fold b c lo hi hl hst h2 ih hb hf hn hz hcov hg hA hB => by
      rw [Clubs.afterBet_cfg] at hn hz hcov hg hA hB
      obtain ⟨i1, i2⟩ := ih hn hz hcov hg hA hB
      rw [afterBet_clean hl.seated (nn_pot hl i1.nn) hz hb hf]
      exact ⟨afterBet_sound hl h2 hn i1 hb, afterBet_cost hl hg i2 hst hb⟩) h
  rcases key with ⟨h1, hl, -⟩ | ⟨e, p, rfl, h1, hl, -⟩
  · exact ⟨atSeat d, rfl, rfl, rfl, hl, (h1 hn hz hcov hg hA hB).2⟩
  · exact ⟨atSeat e, rfl, rfl, rfl, hl, (h1 hn hz hcov hg hA hB).2⟩

/-- **C107** (partial, as above) for the array engine -/
theorem C107_cost_partial (h : ArrayInHand S d) (hn : NonNegative S d.cfg) (hcov : Covers S d.cfg) (hg : LimitGame d.cfg)
    (hA : ∀ j, d.cfg.antes.getD j 0 ≤ A) (hB : ∀ j, d.cfg.blinds.getD j 0 ≤ B) {i : Nat} (hi : i < d.cfg.numPlayers) :
    contribution d i ≤ A + B + streetsCost d.cfg (min (d.street + 1) d.cfg.numStreets) +
      numAllIn S d * limitSize d.cfg (d.cfg.numStreets - 1) := by
  obtain ⟨e, e1, e2, e3, hl, hc⟩ := cost_inHand h hn hcov hg hA hB
  have hcon : ∀ i, contribution e i = contribution d i := fun i => by unfold contribution; rw [e3]
  have h1 := cost_bound hl (by rw [e1]; exact hg) hc (by rw [e1]; exact hi)
  rwa [e1, e2, hcon, numAllIn_congr e1 fun i _ => hcon i] at h1

/-- **C107** (partial, as above) for the array engine: nobody is all-in if everybody starts with more chips. -/
theorem C107_deep_partial (h : ArrayInHand S d) (hn : NonNegative S d.cfg) (hcov : Covers S d.cfg) (hg : LimitGame d.cfg)
    (hA : ∀ j, d.cfg.antes.getD j 0 ≤ A) (hB : ∀ j, d.cfg.blinds.getD j 0 ≤ B)
    (hS : ∀ i < d.cfg.numPlayers, A + B + streetsCost d.cfg d.cfg.numStreets < S.getD i 0) {i : Nat} (hi : i < d.cfg.numPlayers) :
    numAllIn S d = 0 ∧ contribution d i ≤ A + B + streetsCost d.cfg d.cfg.numStreets := by
  obtain ⟨e, e1, e2, e3, hl, hc⟩ := cost_inHand h hn hcov hg hA hB
  have h0 : numAllIn S d = 0 := by
    rw [← numAllIn_congr e1 fun i _ => by unfold contribution; rw [e3]]
    exact hc.deep (by rw [e1]; exact hS)
  have h1 := C107_cost_partial h hn hcov hg hA hB hi
  have h2 := streetsCost_mono hg (show min (d.street + 1) d.cfg.numStreets ≤ d.cfg.numStreets from min_le_right _ _) (le_refl _)
  rw [h0, Nat.cast_zero, zero_mul] at h1
  exact ⟨h0, by omega⟩

/-- **C107** for the limit games of `configs.py` and the array engine -/
theorem C107_shipped {a : DealerArgs} {k t : Int} {shuf : Shuffle} {d0 : Dealer} (ha : (a, k, t) ∈ shippedLimits)
    (hnew : Dealer.new a shuf = .ok d0) (h : ArrayInHand S d) (hcfg : d.cfg = d0.cfg) (hn : NonNegative S d.cfg) (hcov : Covers S d.cfg)
    {i : Nat} (hi : i < d.cfg.numPlayers) :
    contribution d i ≤ k + numAllIn S d * t ∧
    ((∀ j < d.cfg.numPlayers, k < S.getD j 0) → numAllIn S d = 0 ∧ contribution d i ≤ k) := by
  obtain ⟨A, B, hc⟩ := limit_checked _ ha
  obtain ⟨h1, h2, h3, h4, h5⟩ := limit_new hnew hc
  rw [← hcfg] at h1 h2 h3 h4 h5
  simp only at h4
  refine ⟨?_, fun hS => ?_⟩
  · have h6 := C107_cost_partial h hn hcov h1 h2 h3 hi
    have h7 := streetsCost_mono h1 (show min (d.street + 1) d.cfg.numStreets ≤ d.cfg.numStreets from min_le_right _ _) (le_refl _)
    rw [h5] at h6
    simp only at h6
    omega
  · have h6 := C107_deep_partial h hn hcov h1 h2 h3 (by rw [h4]; exact hS) hi
    rwa [h4] at h6

/-- **C107**, a hand that everybody starts with the stacks of the configuration, at the array engine -/
theorem C107_fresh {a : DealerArgs} {k t : Int} {shuf : Shuffle} {d0 : Dealer} (ha : (a, k, t) ∈ shippedLimits)
    (hnew : Dealer.new a shuf = .ok d0) (h : ArrayInHand (startStacks d0 true) d) (hcfg : d.cfg = d0.cfg) {i : Nat} (hi : i < d.cfg.numPlayers) :
    numAllIn (startStacks d0 true) d = 0 ∧ contribution d i ≤ k := by
  have g := shipped_good (limit_shipped _ ha).1 hnew true
  refine (C107_shipped ha hnew h hcfg (hcfg ▸ g.nonneg) (hcfg ▸ g.covers) hi).2 fun j hj => ?_
  rw [hcfg] at hj
  show k < (List.replicate _ _).getD j 0
  rw [getD_replicate _ _ _ _ hj, (C44_values a shuf d0 hnew).2.2.2.2.2.2.2.2.2.2.2.1]
  exact (limit_shipped _ ha).2

/-- the bound is reached: blinds of 1 and 2, one raise of 2 before and one of 4 after the first street -/
example : ∃ S d, ArrayInHand S d ∧ ArrayReachable d ∧ NonNegative S d.cfg ∧ Covers S d.cfg ∧ LimitGame d.cfg ∧ numAllIn S d = 0 ∧
    (∀ j, d.cfg.antes.getD j 0 ≤ 0) ∧ (∀ j, d.cfg.blinds.getD j 0 ≤ 2) ∧ d.street = 2 ∧ contribution d 0 = 8 ∧
    0 + 2 + streetsCost d.cfg 2 = 8 := by
  obtain ⟨S, d, h1, h2, h3, h4, h5, h6, h7, h8, h9, h10, h11, h12, h13, h14⟩ := hand_exists (P := fun S d => NonNegative S d.cfg ∧
      Covers S d.cfg ∧ d.cfg.raiseSizes = [.int 2, .int 4] ∧ d.cfg.numRaises = [.fin 1, .fin 1] ∧ d.cfg.bigBlind = 2 ∧ d.cfg.numStreets = 2 ∧
      d.cfg.antes = [0, 0] ∧ d.cfg.blinds = [1, 2] ∧ numAllIn S d = 0 ∧ d.street = 2 ∧ contribution d 0 = 8 ∧ 0 + 2 + streetsCost d.cfg 2 = 8)
    (limit 2 [1, 2] 100 (.list [.int 2, .int 4]) (.scalar (.fin 1))) [.bet 3, .bet 2, .bet 4, .bet 4] (by decide +kernel)
  refine ⟨S, d, h1, h2, h3, h4, limitGame_of h8 h5 h6 h7, h11, ?_, ?_, h12, h13, h14⟩
  · intro j; rw [h9]; rcases j with _ | _ | j <;> simp
  · intro j; rw [h10]; rcases j with _ | _ | j <;> simp

/-- **C107 is false in general** for the array engine too: if the raises get smaller, they are not counted (as in `C32_false`). Blinds of 1 and 2, one raise of 4 and one of
2 allowed: nobody is all-in, and the hand costs 14 chips instead of at most 8. -/
theorem C107_false : ∃ S d, ArrayInHand S d ∧ ArrayReachable d ∧ NonNegative S d.cfg ∧ Covers S d.cfg ∧ d.cfg.raiseSizes = [.int 4, .int 2] ∧
    d.cfg.numRaises = [.fin 1, .fin 1] ∧ d.cfg.antes = [0, 0] ∧ d.cfg.blinds = [1, 2] ∧ d.cfg.bigBlind = 2 ∧ numAllIn S d = 0 ∧
    0 + 2 + streetsCost d.cfg 2 = 8 ∧ contribution d 0 = 14 :=
  hand_exists (limit 2 [1, 2] 100 (.list [.int 4, .int 2]) (.scalar (.fin 1))) [.bet 5, .bet 4, .bet 2, .bet 4, .bet 4, .bet 4]
    (by decide +kernel)

end Numpy

end Clubs

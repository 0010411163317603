import Verif.Props.Showdown
import Verif.Props.Odds

/-! # Who has put in how much at a showdown, if all antes are equal -/

namespace Clubs

open Spec

variable {S : List Int} {d d' : Dealer} {bet : PyNum} {s : Nat → Int}

/-- the invariant, and: once all streets are over, no bets lie in front of the players -/
structure Level (g : Int) (d : Dealer) : Prop where
  top : Topped g d
  nn : NN d
  stack : ∀ i < d.cfg.numPlayers, 0 ≤ stack d i
  clean : d.cfg.numStreets ≤ d.street → ∀ i < d.cfg.numPlayers, streetBet d i = 0

theorem level_dealt {g : Int} (hg : 0 ≤ g) {rb rs : Bool} {shuf : Shuffle} {obs : Observation} (hd : Seated d)
    (hr : d.reset rb rs shuf = (d', .ok obs)) (hn : NonNegative (startStacks d rs) d'.cfg) (hc : Covers (startStacks d rs) d'.cfg)
    (he : ∀ a ∈ d'.cfg.antes, ∀ b ∈ d'.cfg.antes, a ≤ b + g) : Level g d' :=
  ⟨dealt_top hg hd hr hn he, dealt_nn hd hr hn, dealt_covered hd hr hn hc, by
    intro h1
    obtain ⟨hl, h2, -⟩ := dealt_live hd hr
    have := hl.oneStreet
    omega⟩

theorem level_step {g : Int} {fold : Bool} {b c lo up : Int} (hin : InHand S d) (hl : Live S d) (hst : d.street < d.cfg.numStreets)
    (h2 : 2 ≤ countTrue d.active) (ih : Level g d) (hb : d.betSizes = .ok (c, lo, up)) (hn : NonNegative S d.cfg)
    (hc : Covers S d.cfg) : Level g (d.afterBet fold c (cleanBet b c lo up)) := by
  obtain ⟨i1, -, i2, -⟩ := ih
  obtain ⟨a, ha, -⟩ := hl.action
  obtain ⟨j1, -, j3⟩ := covered_of_inHand hin hn hc (by rw [ha]; simp)
  refine ⟨afterBet_top hl i2 j1 i1 hb, afterBet_nn hl hn.start h2 j1 hb, ?_, ?_⟩
  · intro i hi
    rw [afterBet_cfg] at hi
    rw [(contribution_afterBet hl.seated fold c (cleanBet b c lo up) i hi).2]
    have h3 := i2 i hi
    split
    · next h4 => rw [h4]; have := min_le_left (stack d i) (betOf fold c (cleanBet b c lo up)); omega
    · omega
  · intro h5 i hi
    rw [afterBet_cfg] at h5 hi
    rcases afterBet_cases d fold c (cleanBet b c lo up) with ⟨-, ee⟩ | ⟨-, ee⟩
    · rw [ee] at h5
      change d.cfg.numStreets ≤ d.street at h5
      omega
    · rw [ee]
      obtain ⟨g1, -, -, g4, -⟩ := nextStreet_fields (d.acted fold c (cleanBet b c lo up)).moveAction
      unfold streetBet
      rw [g1]
      exact getD_replicate _ _ _ _ (by rw [g4]; exact hi)

theorem level_of_inHand {g : Int} (hg : 0 ≤ g) (h : InHand S d) (hn : NonNegative S d.cfg) (hcov : Covers S d.cfg)
    (he : ∀ a ∈ d.cfg.antes, ∀ b ∈ d.cfg.antes, a ≤ b + g) :
    (Level g d ∧ Live S d) ∨ ∃ e p, d = e.settle p ∧ Level g e ∧ Live S e := by
  have := inHand_induct (P := fun S d => NonNegative S d.cfg → Covers S d.cfg →
      (∀ a ∈ d.cfg.antes, ∀ b ∈ d.cfg.antes, a ≤ b + g) → Level g d)
    (fun d d' rb rs shuf obs hd hs hr hn hc he => level_dealt hg hd hr hn hc he)
    (fun S d fold b c lo up hin hl hst h2 ih hb hn hc he => by
      rw [afterBet_cfg] at hn hc he
      exact level_step hin hl hst h2 (ih hn hc he) hb hn hc) h
  rcases this with ⟨h1, hl, -⟩ | ⟨e, p, rfl, h1, hl, -⟩
  · exact .inl ⟨h1 hn hcov he, hl⟩
  · exact .inr ⟨e, p, rfl, h1 hn hcov he, hl⟩

/-- with equal antes -/
theorem level_showdown (h : InHand S d) (hn : NonNegative S d.cfg) (hcov : Covers S d.cfg) (he : EqualAntes d.cfg)
    (hst : d.cfg.numStreets ≤ d.street) : S.length = d.cfg.numPlayers ∧ ∃ M, (∀ i < d.cfg.numPlayers, contribution d i ≤ M) ∧
      (∀ i < d.cfg.numPlayers, 0 ≤ contribution d i ∧ contribution d i ≤ S.getD i 0) ∧
      ∀ i < d.cfg.numPlayers, isIn d i → contribution d i = M ∨ contribution d i = S.getD i 0 := by
  have key : ∀ e : Dealer, Level 0 e → Live S e → e.cfg.numStreets ≤ e.street →
      ∃ M, (∀ i < e.cfg.numPlayers, contribution e i ≤ M) ∧
      (∀ i < e.cfg.numPlayers, 0 ≤ contribution e i ∧ contribution e i ≤ S.getD i 0) ∧
      ∀ i < e.cfg.numPlayers, isIn e i → contribution e i = M ∨ contribution e i = S.getD i 0 := by
    intro e hlv hl hst
    obtain ⟨A, P, ht, hA⟩ := hlv.top
    have h2 := hl.seated.two
    have hA' : ∀ i < e.cfg.numPlayers, A i = A 0 := fun i hi => by
      have h3 := hA i hi 0 (by omega)
      have h4 := hA 0 (by omega) i hi
      omega
    refine ⟨P + A 0, fun i hi => ?_, fun i hi => ⟨hlv.nn.contrib i hi, ?_⟩, fun i hi hin => ?_⟩
    · have h3 := ht.le i hi
      have h4 := hlv.clean hst i hi
      have h5 := hA' i hi
      unfold carried at h3
      omega
    · have h3 := hl.money i hi
      have h4 := hlv.stack i hi
      omega
    · have h4 := hlv.clean hst i hi
      have h5 := hA' i hi
      have h6 := hl.money i hi
      by_cases h0 : stack e i = 0
      · right; omega
      · left
        have h3 := ht.eq i hi hin (by omega)
        unfold carried at h3
        omega
  rcases level_of_inHand (le_refl 0) h hn hcov (fun a ha b hb => by rw [he a ha b hb]; omega) with ⟨h1, hl⟩ | ⟨e, p, rfl, h1, hl⟩
  · exact ⟨hl.startLen, key d h1 hl hst⟩
  · exact ⟨hl.startLen, key e h1 hl hst⟩

theorem clear_of_level (h : InHand S d) (hn : NonNegative S d.cfg) (hcov : Covers S d.cfg) (he : EqualAntes d.cfg)
    (hS : EqualStart S) (hsh : AtShowdown d) :
    ∃ M, (∀ i < d.cfg.numPlayers, contribution d i ≤ M) ∧ ∀ i < d.cfg.numPlayers, isIn d i → contribution d i = M := by
  obtain ⟨hlen, M, h1, h2, h3⟩ := level_showdown h hn hcov he hsh.1
  have hSe : ∀ i < d.cfg.numPlayers, ∀ j < d.cfg.numPlayers, S.getD i 0 = S.getD j 0 := fun i hi j hj =>
    hS _ ((mem_getD 0).2 ⟨i, by omega, rfl⟩) _ ((mem_getD 0).2 ⟨j, by omega, rfl⟩)
  by_cases hall : ∃ j < d.cfg.numPlayers, isIn d j ∧ contribution d j = M
  · obtain ⟨j, hj, -, hjM⟩ := hall
    refine ⟨M, h1, fun i hi hin => ?_⟩
    rcases h3 i hi hin with h4 | h4
    · exact h4
    · have h5 := (h2 j hj).2
      have h6 := hSe i hi j hj
      have h7 := h1 i hi
      omega
  · refine ⟨S.getD 0 0, fun i hi => ?_, fun i hi hin => ?_⟩
    · have h5 := (h2 i hi).2
      have h6 := hSe i hi 0 (by omega)
      omega
    · rcases h3 i hi hin with h4 | h4
      · exact absurd ⟨i, hi, hin, h4⟩ hall
      · rw [h4]; exact hSe i hi 0 (by omega)

end Clubs

import Verif.Spec.Showdown
import Verif.Lemmas.View

/-! # If antes differ by at most one chip, nobody who folded has put in more than everybody else -/

namespace Clubs

open Spec

/-- what seat `i` put in on earlier streets, besides the ante `A i` -/
def carried (d : Dealer) (A : Nat → Int) (i : Nat) : Int := contribution d i - streetBet d i - A i

/-- Invariant: all who can still bet have put in the same on earlier streets, nobody more; and whoever folded had put in less
than that. -/
structure Top (d : Dealer) (A : Nat → Int) (P : Int) : Prop where
  le : ∀ i < d.cfg.numPlayers, carried d A i ≤ P
  eq : ∀ i < d.cfg.numPlayers, isIn d i → stack d i + streetBet d i ≠ 0 → carried d A i = P
  pos : ∀ i < d.cfg.numPlayers, 0 ≤ streetBet d i
  out : ∀ i < d.cfg.numPlayers, ¬ isIn d i → streetBet d i = 0 ∨ streetBet d i < pyMax d.streetCommits
  less : ∀ i < d.cfg.numPlayers, ¬ isIn d i → contribution d i = 0 ∨ contribution d i - A i < P + pyMax d.streetCommits
  hold : pyMax d.streetCommits = 0 → ∃ j < d.cfg.numPlayers, isIn d j ∧ carried d A j = P

variable {S : List Int} {d d' : Dealer} {A : Nat → Int} {P : Int}

theorem max_ge (h : Seated d) (i : Nat) (hi : i < d.cfg.numPlayers) : streetBet d i ≤ pyMax d.streetCommits :=
  pyMax_getD (by rw [h.streetCommits]; exact hi)

theorem max_exists (h : Seated d) : ∃ i < d.cfg.numPlayers, streetBet d i = pyMax d.streetCommits := by
  have hl := h.streetCommits
  have h2 := h.two
  obtain ⟨i, hi, e⟩ := pyMax_exists (l := d.streetCommits) (by rintro h; rw [h] at hl; simp at hl; omega)
  exact ⟨i, by rw [← hl]; exact hi, e⟩

/-- somebody who is in has put in as much as anybody -/
theorem Top.holder (h : Top d A P) (hd : Seated d) (hs : ∀ i < d.cfg.numPlayers, 0 ≤ stack d i) :
    ∃ j < d.cfg.numPlayers, isIn d j ∧ contribution d j - A j = P + pyMax d.streetCommits := by
  obtain ⟨j, hj, e⟩ := max_exists hd
  have hp := h.pos j hj
  by_cases h0 : pyMax d.streetCommits = 0
  · obtain ⟨k, hk, hin, e2⟩ := h.hold h0
    have h1 := max_ge hd k hk
    have h2 := h.pos k hk
    unfold carried at e2
    exact ⟨k, hk, hin, by omega⟩
  · have hin : isIn d j := by
      by_contra hc
      have := h.out j hj hc
      omega
    have h1 := h.eq j hj hin (by have := hs j hj; omega)
    unfold carried at h1
    exact ⟨j, hj, hin, by omega⟩

theorem Top.covered (h : Top d A P) (hd : Seated d) (hs : ∀ i < d.cfg.numPlayers, 0 ≤ stack d i)
    (hc : ∀ i < d.cfg.numPlayers, 0 ≤ contribution d i) (hA : ∀ i < d.cfg.numPlayers, ∀ j < d.cfg.numPlayers, A i ≤ A j + 1) :
    FoldsCovered d.cfg.numPlayers (inB d) (contribution d) := by
  obtain ⟨j, hj, hin, e⟩ := h.holder hd hs
  intro i hi hout
  refine ⟨j, hj, hin, ?_⟩
  have h1 := h.less i hi (by unfold isIn; unfold inB at hout; rw [hout]; simp)
  have h2 := hc j hj
  have h3 := hA i hi j hj
  omega

/-- the invariant, for some antes that differ by at most `g` chips -/
def Topped (g : Int) (d : Dealer) : Prop :=
  ∃ A P, Top d A P ∧ ∀ i < d.cfg.numPlayers, ∀ j < d.cfg.numPlayers, A i ≤ A j + g

theorem dealt_top {g : Int} (hg : 0 ≤ g) {rb rs : Bool} {shuf : Shuffle} {obs : Observation} (h : Seated d)
    (hr : d.reset rb rs shuf = (d', .ok obs)) (hn : NonNegative (startStacks d rs) d'.cfg)
    (he : ∀ a ∈ d'.cfg.antes, ∀ b ∈ d'.cfg.antes, a ≤ b + g) : Topped g d' := by
  have hlive := dealt_live h hr
  obtain ⟨h1, h2, rfl, -⟩ := reset_ok hr
  have hcfg : ((d.posted rb rs shuf).moveAction.moveAction).cfg = d.cfg := blindStart_cfg d rb rs shuf
  rw [hcfg] at hn he
  obtain ⟨c1, c2, -, -, -, -, -, -, -, c5, c6, -, c7, -⟩ := blindStart_same d rb rs shuf
  have hb := blindStart_seated h rb rs shuf
  have ha : d.cfg.antes.length = (d.blindStart rb rs shuf).cfg.numPlayers := by rw [c1]; exact h.antes
  have hbl : d.cfg.blinds.length = ((d.blindStart rb rs shuf).collectMultipleBets d.cfg.antes false).cfg.numPlayers := by
    show _ = (d.blindStart rb rs shuf).cfg.numPlayers
    rw [c1]; exact h.blinds
  have hb1 := collectMultipleBets_seated hb false ha
  have m1 := collectMultipleBets_money hb false ha
  have m2 := collectMultipleBets_money hb1 true hbl
  have htwo := h.two
  -- the antes
  obtain ⟨A, hA⟩ : ∃ A : Nat → Int, A = fun i => (roll d.cfg.antes (d.blindStart rb rs shuf).seat).getD i 0 := ⟨_, rfl⟩
  have hA0 : ∀ i, 0 ≤ A i := fun i => by
    rw [hA]; exact list_getD_nonneg (fun x hx => hn.antes x (roll_mem hx)) i
  have hclose : ∀ i < d.cfg.numPlayers, ∀ j < d.cfg.numPlayers, A i ≤ A j + g := by
    intro i hi j hj
    have hl : (roll d.cfg.antes (d.blindStart rb rs shuf).seat).length = d.cfg.numPlayers := by rw [roll_length, h.antes]
    rw [hA]
    exact he _ (roll_mem ((mem_getD 0).2 ⟨i, by rw [hl]; exact hi, rfl⟩)) _ (roll_mem ((mem_getD 0).2 ⟨j, by rw [hl]; exact hj, rfl⟩))
  have f1 : ∀ i < d.cfg.numPlayers, ((d.blindStart rb rs shuf).forcedBets d.cfg.antes).getD i 0 =
      if (startStacks d rs).getD i 0 > 0 ∧ (d.posted rb rs shuf).active.getD i false = true then A i else 0 := by
    intro i hi
    rw [forcedBets_getD hb ha i (by rw [c1]; exact hi), hA, c6]
    rfl
  have f2 : ∀ i < d.cfg.numPlayers, 0 ≤ (((d.blindStart rb rs shuf).collectMultipleBets d.cfg.antes false).forcedBets
      d.cfg.blinds).getD i 0 ∧ (¬ isIn (d.posted rb rs shuf) i →
        (((d.blindStart rb rs shuf).collectMultipleBets d.cfg.antes false).forcedBets d.cfg.blinds).getD i 0 = 0) := by
    intro i hi
    rw [forcedBets_getD hb1 hbl i (by show i < (d.blindStart rb rs shuf).cfg.numPlayers; rw [c1]; exact hi)]
    constructor
    · split
      · exact list_getD_nonneg (fun x hx => hn.blinds x (roll_mem hx)) i
      · exact le_rfl
    · intro hni
      rw [if_neg]
      rintro ⟨-, hh⟩
      exact hni hh
  have hfin : ∀ i < d.cfg.numPlayers,
      contribution (d.posted rb rs shuf) i - streetBet (d.posted rb rs shuf) i =
        (if (startStacks d rs).getD i 0 > 0 ∧ (d.posted rb rs shuf).active.getD i false = true then A i else 0) ∧
      streetBet (d.posted rb rs shuf) i =
        (((d.blindStart rb rs shuf).collectMultipleBets d.cfg.antes false).forcedBets d.cfg.blinds).getD i 0 := by
    intro i hi
    have g1 := m1.1 i (by rw [c1]; exact hi)
    have g2 := m2.1 i (by show i < (d.blindStart rb rs shuf).cfg.numPlayers; rw [c1]; exact hi)
    have e2 : contribution (d.blindStart rb rs shuf) i = 0 := by
      unfold contribution; rw [c5]; exact getD_replicate _ _ _ _ hi
    have e3 : streetBet (d.blindStart rb rs shuf) i = 0 := by
      unfold streetBet; rw [c7]; exact getD_replicate _ _ _ _ hi
    have e4 : streetBet (d.posted rb rs shuf) i =
        (((d.blindStart rb rs shuf).collectMultipleBets d.cfg.antes false).forcedBets d.cfg.blinds).getD i 0 := by
      unfold Dealer.posted
      rw [g2.2.2, g1.2.2, e3]; simp
    refine ⟨?_, e4⟩
    rw [← f1 i hi, e4]
    unfold Dealer.posted
    rw [g2.2.1, g1.2.1, e2]; ring
  have hm := posted_money h rb rs shuf
  obtain ⟨A', P, hle, heq, hhold, hclose', hless⟩ : ∃ A' P, (∀ i < d.cfg.numPlayers, carried (d.posted rb rs shuf) A' i ≤ P) ∧
      (∀ i < d.cfg.numPlayers, isIn (d.posted rb rs shuf) i → (startStacks d rs).getD i 0 ≠ 0 →
        carried (d.posted rb rs shuf) A' i = P) ∧
      (∃ j < d.cfg.numPlayers, isIn (d.posted rb rs shuf) j ∧ carried (d.posted rb rs shuf) A' j = P) ∧
      (∀ i < d.cfg.numPlayers, ∀ j < d.cfg.numPlayers, A' i ≤ A' j + g) ∧
      (∀ i < d.cfg.numPlayers, ¬ isIn (d.posted rb rs shuf) i → contribution (d.posted rb rs shuf) i = 0) := by
    have hless : ∀ i < d.cfg.numPlayers, ¬ isIn (d.posted rb rs shuf) i → contribution (d.posted rb rs shuf) i = 0 := by
      intro i hi hout
      obtain ⟨e1, e2⟩ := hfin i hi
      rw [(f2 i hi).2 hout] at e2
      rw [if_neg (fun hc => hout hc.2)] at e1
      omega
    by_cases hex : ∃ j < d.cfg.numPlayers, (startStacks d rs).getD j 0 > 0 ∧ isIn (d.posted rb rs shuf) j
    · obtain ⟨j, hj, hj2⟩ := hex
      refine ⟨A, 0, fun i hi => ?_, fun i hi hin h0 => ?_, ⟨j, hj, hj2.2, ?_⟩, hclose, hless⟩
      · unfold carried
        rw [(hfin i hi).1]
        have := hA0 i
        split <;> omega
      · have := list_getD_nonneg hn.start i
        unfold carried
        rw [(hfin i hi).1, if_pos ⟨by omega, hin⟩]; omega
      · unfold carried
        rw [(hfin j hj).1, if_pos (by exact hj2)]; omega
    · have hz : ∀ i < d.cfg.numPlayers, carried (d.posted rb rs shuf) (fun _ => 0) i = 0 := fun i hi => by
        unfold carried
        rw [(hfin i hi).1, if_neg (fun hc => hex ⟨i, hi, hc.1, hc.2⟩ : ¬ (_ ∧ (d.posted rb rs shuf).active.getD i false = true))]; rfl
      obtain ⟨t, ht, hta⟩ := countTrue_pos.1 (show 1 ≤ countTrue (d.posted rb rs shuf).active from hlive.1.one)
      have ht' : t < d.cfg.numPlayers := by
        have h5 := (posted_seated h rb rs shuf).active
        rw [h5] at ht
        exact lt_of_lt_of_eq ht (congrArg Config.numPlayers hcfg)
      exact ⟨fun _ => 0, 0, fun i hi => by rw [hz i hi], fun i hi _ _ => hz i hi, ⟨t, ht', hta, hz t ht'⟩,
        fun _ _ _ _ => by show (0 : Int) ≤ 0 + g; omega, hless⟩
  refine ⟨A', P, ⟨?_, ?_, ?_, ?_, ?_, ?_⟩, by rw [hcfg]; exact hclose'⟩
  · intro i hi
    rw [hcfg] at hi
    exact hle i hi
  · intro i hi hin h0
    rw [hcfg] at hi
    refine heq i hi hin fun hs => ?_
    apply h0
    show stack (d.posted rb rs shuf) i + streetBet (d.posted rb rs shuf) i = 0
    have e1 := hm.1 i hi
    have e2 := (hfin i hi).1
    rw [if_neg (by omega)] at e2
    omega
  · intro i hi
    rw [hcfg] at hi
    show 0 ≤ streetBet (d.posted rb rs shuf) i
    rw [(hfin i hi).2]
    exact (f2 i hi).1
  · intro i hi hin
    rw [hcfg] at hi
    left
    show streetBet (d.posted rb rs shuf) i = 0
    rw [(hfin i hi).2]
    exact (f2 i hi).2 hin
  · intro i hi hin
    rw [hcfg] at hi
    exact .inl (hless i hi hin)
  · intro _
    rw [hcfg]
    exact hhold

theorem afterBet_top {g : Int} {fold : Bool} {b c lo hi : Int} (hl : Live S d) (hS : ∀ i < d.cfg.numPlayers, 0 ≤ stack d i)
    (hn : NN d) (ht : Topped g d) (hb : d.betSizes = .ok (c, lo, hi)) :
    Topped g (d.afterBet fold c (cleanBet b c lo hi)) := by
  obtain ⟨A, P, ht, hclose⟩ := ht
  have hd := hl.seated
  have hbet := betOf_nonneg (b := b) hd (nn_pot hl hn) hb fold
  have hc : c = min (pyMax d.streetCommits - streetBet d d.seat) (stack d d.seat) := by
    obtain ⟨rs, nr, -, -, h1, -⟩ := betSizes_spec hb
    exact h1
  generalize cleanBet b c lo hi = x at *
  have hs := acted_seated hd fold c x
  have hnums := acted_nums hd fold c x
  have hin := acted_isIn hd fold c x
  have hslt := seat_lt hd
  obtain ⟨a, ha, hain⟩ := hl.action
  have hseat : d.seat = a := by unfold Dealer.seat; rw [ha]; rfl
  have hm0 : 0 ≤ min (stack d d.seat) (betOf fold c x) := le_min (hS _ hslt) hbet
  have hm1 : min (stack d d.seat) (betOf fold c x) ≤ stack d d.seat := min_le_left _ _
  have hmle : min (stack d d.seat) (betOf fold c x) ≤ betOf fold c x := min_le_right _ _
  generalize min (stack d d.seat) (betOf fold c x) = m at *
  have hmax : pyMax d.streetCommits ≤ pyMax (d.acted fold c x).streetCommits := by
    obtain ⟨i, hi, e⟩ := max_exists hd
    have h1 := max_ge hs i hi
    rw [(hnums i hi).2.2.1] at h1
    split at h1 <;> omega
  have hM0 : 0 ≤ pyMax d.streetCommits := le_trans (ht.pos _ hslt) (max_ge hd _ hslt)
  have hact : Top (d.acted fold c x) A P := by
    refine ⟨?_, ?_, ?_, ?_, ?_, ?_⟩
    · intro i hi
      have h1 := ht.le i hi
      have h2 := hnums i hi
      unfold carried at *
      omega
    · intro i hi hini h0
      have h2 := hnums i hi
      have h1 := ht.eq i hi ((hin i hi).1 hini).1 (by omega)
      unfold carried at *
      omega
    · intro i hi
      have h1 := ht.pos i hi
      rw [(hnums i hi).2.2.1]
      split <;> omega
    · intro i hi hout
      have h2 := (hnums i hi).2.2.1
      by_cases hd' : isIn d i
      · rw [hin i hi] at hout
        have h3 : d.seat = i ∧ c ≠ 0 ∧ (x < c ∨ fold = true) := by
          by_contra h4
          exact hout ⟨hd', h4⟩
        right
        have h4 := max_ge hd i hi
        obtain ⟨h5, h6, h7⟩ := h3
        have h8 := hS i hi
        have h9 : betOf fold c x = 0 := by unfold betOf; rw [if_pos ⟨h6, h7⟩]
        rw [if_pos h5] at h2
        have h11 := max_ge hs i hi
        rw [h5] at hc
        have h10 : streetBet d i ≠ pyMax d.streetCommits := by
          intro h12
          apply h6
          omega
        by_cases hmz : m = 0
        · omega
        · exact absurd hmz (by
            have : m ≤ 0 := by
              have := hmle
              omega
            omega)
      · have h1 := ht.out i hi hd'
        have h3 : d.seat ≠ i := by rintro rfl; rw [hseat] at hd'; exact hd' hain
        rw [if_neg h3] at h2
        omega
    · intro i hi hout
      have h2 := hnums i hi
      by_cases hd' : isIn d i
      · rw [hin i hi] at hout
        have h3 : d.seat = i ∧ c ≠ 0 ∧ (x < c ∨ fold = true) := by
          by_contra h4
          exact hout ⟨hd', h4⟩
        right
        have h4 := max_ge hd i hi
        obtain ⟨h5, h6, h7⟩ := h3
        have h8 := hS i hi
        have h9 : betOf fold c x = 0 := by unfold betOf; rw [if_pos ⟨h6, h7⟩]
        rw [h5] at hc
        have h10 : streetBet d i ≠ pyMax d.streetCommits := by
          intro h12
          apply h6
          omega
        have h11 := ht.le i hi
        unfold carried at h11
        omega
      · have h1 := ht.less i hi hd'
        have h3 : d.seat ≠ i := by rintro rfl; rw [hseat] at hd'; exact hd' hain
        simp only [if_neg h3] at h2
        omega
    · intro h0
      obtain ⟨j, hj, hinj, e⟩ := ht.hold (by omega)
      refine ⟨j, hj, ?_, ?_⟩
      · rw [hin j hj]
        refine ⟨hinj, ?_⟩
        rintro ⟨h5, h6, -⟩
        have h4 := max_ge hd j hj
        have h7 := ht.pos j hj
        have h8 := hS j hj
        rw [h5] at hc
        omega
      · have h2 := hnums j hj
        unfold carried at *
        omega
  have hS2 : ∀ i < d.cfg.numPlayers, 0 ≤ stack (d.acted fold c x) i := by
    intro i hi
    rw [(hnums i hi).1]
    have := hS i hi
    split
    · next h5 => rw [h5] at hm1; omega
    · omega
  have hmov : Top (d.acted fold c x).moveAction A P := ⟨hact.le, hact.eq, hact.pos, hact.out, hact.less, hact.hold⟩
  have hsm := moveAction_seated hs
  rcases afterBet_cases d fold c x with ⟨-, ee⟩ | ⟨hag, ee⟩
  · refine ⟨A, P, by rw [ee]; exact hmov, ?_⟩
    rw [ee]; exact hclose
  · rw [ee]
    clear ee
    have hclose : ∀ i < (d.acted fold c x).moveAction.cfg.numPlayers, ∀ j < (d.acted fold c x).moveAction.cfg.numPlayers,
        A i ≤ A j + g := hclose
    have hS3 : ∀ i < (d.acted fold c x).moveAction.cfg.numPlayers, 0 ≤ stack (d.acted fold c x).moveAction i := hS2
    generalize (d.acted fold c x).moveAction = e at *
    obtain ⟨g1, -, -, g4, g5, g6, g7, -⟩ := nextStreet_fields e
    have hag := (allAgreed_iff hsm).1 hag
    have hsb : ∀ i < e.cfg.numPlayers, streetBet e.nextStreet i = 0 := fun i hi => by
      unfold streetBet
      rw [g1, g4]; exact getD_replicate _ _ _ _ hi
    have hbf : ∀ i < e.cfg.numPlayers, carried e.nextStreet A i = contribution e i - A i := fun i hi => by
      unfold carried
      rw [hsb i hi]
      unfold contribution; rw [g7]; omega
    have hst : ∀ i, stack e.nextStreet i = stack e i := fun i => by unfold stack; rw [g6]
    have hii : ∀ i, isIn e.nextStreet i ↔ isIn e i := fun i => by unfold isIn; rw [g5]
    refine ⟨A, P + pyMax e.streetCommits, ⟨?_, ?_, ?_, ?_, ?_, ?_⟩, by rw [g4]; exact hclose⟩
    · intro i hi
      rw [g4] at hi
      rw [hbf i hi]
      have h1 := hmov.le i hi
      have h2 := max_ge hsm i hi
      unfold carried at h1
      omega
    · intro i hi hini h0
      rw [g4] at hi
      rw [hbf i hi]
      rw [hii] at hini
      rw [hst, hsb i hi] at h0
      have h1 := hag.2 i hi hini (by omega)
      have h2 := hS3 i hi
      have h3 := hmov.pos i hi
      have h4 := hmov.eq i hi hini (by omega)
      unfold carried at h4
      omega
    · intro i hi
      rw [g4] at hi
      rw [hsb i hi]
    · intro i hi _
      rw [g4] at hi
      left; exact hsb i hi
    · intro i hi hout
      rw [g4] at hi
      rw [hii] at hout
      have h1 := hmov.less i hi hout
      have e1 : contribution e.nextStreet i = contribution e i := by unfold contribution; rw [g7]
      have e2 : 0 ≤ pyMax e.nextStreet.streetCommits := by
        rw [← hsb i hi]
        exact pyMax_getD (l := e.nextStreet.streetCommits) (by rw [g1, List.length_replicate]; first | exact hi | (rw [g4]; exact hi))
      rw [e1]
      omega
    · intro _
      obtain ⟨j, hj, hinj, ej⟩ := hmov.holder hsm hS3
      exact ⟨j, by rw [g4]; exact hj, (hii j).2 hinj, by rw [hbf j hj, ej]⟩

/-- at every state of a hand with equal antes, stacks that cover the blinds -/
theorem covered_folds (h : InHand S d) (hn : NonNegative S d.cfg) (hcov : Covers S d.cfg) (he : CloseAntes d.cfg) :
    FoldsCovered d.cfg.numPlayers (inB d) (contribution d) := by
  have := inHand_induct (P := fun S d => NonNegative S d.cfg → Covers S d.cfg → CloseAntes d.cfg →
      Topped 1 d ∧ NN d ∧ ∀ i < d.cfg.numPlayers, 0 ≤ stack d i)
    (fun d d' rb rs shuf obs hd hs hr hn hc he => ⟨dealt_top (by omega) hd hr hn he, dealt_nn hd hr hn, dealt_covered hd hr hn hc⟩)
    (fun S d fold b c lo up hin hl hst h2 ih hb hn hc he => by
      rw [afterBet_cfg] at hn hc he
      obtain ⟨i1, -, i2⟩ := ih hn hc he
      obtain ⟨a, ha, -⟩ := hl.action
      obtain ⟨j1, -, j3⟩ := covered_of_inHand hin hn hc (by rw [ha]; simp)
      refine ⟨afterBet_top hl i2 j1 i1 hb, afterBet_nn hl hn.start h2 j1 hb, ?_⟩
      intro i hi
      rw [afterBet_cfg] at hi
      rw [(contribution_afterBet hl.seated fold c (cleanBet b c lo up) i hi).2]
      have h3 := i2 i hi
      split
      · next h4 => rw [h4]; have := min_le_left (stack d i) (betOf fold c (cleanBet b c lo up)); omega
      · omega) h
  rcases this with ⟨h1, hl, -⟩ | ⟨e, p, rfl, h1, hl, -⟩
  · obtain ⟨⟨A, P, h2, h4⟩, h5, h3⟩ := h1 hn hcov he
    exact h2.covered hl.seated h3 h5.contrib h4
  · obtain ⟨⟨A, P, h2, h4⟩, h5, h3⟩ := h1 hn hcov he
    exact h2.covered hl.seated h3 h5.contrib h4

end Clubs

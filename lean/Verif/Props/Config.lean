import Verif.Lemmas.Config
import Verif.Props.Dealing
import Verif.Props.Decks
import Verif.Props.Evaluator
import Verif.Model.Configs

/-!
# The constructor and the shipped configurations: C44, C45
-/

namespace Clubs

open Spec

/-! ## C44 -/

/-- **C44**: if one of the lists `blinds`, `antes`, `raise_sizes`, `num_raises`, `num_community_cards` has the wrong
length, the constructor raises `InvalidConfigError`, whatever the other arguments are. -/
theorem C44_length (a : DealerArgs) (shuf : Shuffle) (h : ¬ ListsFit a) :
    Dealer.new a shuf = .error .invalidConfig := by
  unfold Dealer.new
  by_cases h1 : Fits1 a.blinds a.numPlayers
  swap
  · rw [checkInp_error h1]; rfl
  obtain ⟨_, e1, -⟩ := checkInp_ok h1
  rw [e1]
  by_cases h2 : Fits1 a.antes a.numPlayers
  swap
  · rw [checkInp_error h2]; rfl
  obtain ⟨_, e2, -⟩ := checkInp_ok h2
  rw [e2]
  by_cases h3 : Fits1 a.raiseSizes a.numStreets
  swap
  · rw [checkInp_error h3]; rfl
  obtain ⟨_, e3, -⟩ := checkInp_ok h3
  rw [e3]
  by_cases h4 : Fits1 a.numRaises a.numStreets
  swap
  · rw [checkInp_error h4]; rfl
  obtain ⟨_, e4, -⟩ := checkInp_ok h4
  rw [e4]
  by_cases h5 : Fits1 a.numCommunityCards a.numStreets
  swap
  · rw [checkInp_error h5]; rfl
  exact absurd ⟨h1, h2, h3, h4, h5⟩ h

/-- **C44**: with lists of the right length and at least two players, a raise size that is neither an int nor `"pot"`
nor `"inf"` makes the constructor raise `InvalidRaiseSizeError`. -/
theorem C44_raise_size (a : DealerArgs) (shuf : Shuffle) (h : ListsFit a) (hn : 2 ≤ a.numPlayers) (i : Nat)
    (hi : SaysAt a.raiseSizes a.numStreets i .other) : Dealer.new a shuf = .error .invalidRaiseSize := by
  obtain ⟨bl, an, rs, nr, nc, x1, -, x3, -, -, e⟩ := new_lists shuf h
  have hb := pyGet_one (bl := bl) (by have := x1.1; omega)
  have hr : rs.mapM cleanRs = .error .invalidRaiseSize := by
    cases hm : rs.mapM cleanRs with
    | ok l =>
      have hmem : RawRaise.other ∈ rs := List.mem_of_getElem? ((x3.2 i _).2 hi)
      obtain ⟨y, hy⟩ := mapM_mem hm hmem
      simp [cleanRs] at hy
    | error x =>
      obtain ⟨y, -, hy⟩ := mapM_error _ _ _ hm
      cases y <;> simp_all [cleanRs]
  rw [e, hb, hr]
  rfl

/-- **C44**: a scalar behaves exactly like the constant list. -/
theorem C44_scalar (a : DealerArgs) (shuf : Shuffle) (hn : 0 ≤ a.numPlayers) (hs : 0 ≤ a.numStreets) (b c : Int)
    (r : RawRaise) (n : RawNumRaises) :
    Dealer.new { a with blinds := .scalar b } shuf =
      Dealer.new { a with blinds := .list (List.replicate a.numPlayers.toNat b) } shuf ∧
    Dealer.new { a with antes := .scalar b } shuf =
      Dealer.new { a with antes := .list (List.replicate a.numPlayers.toNat b) } shuf ∧
    Dealer.new { a with raiseSizes := .scalar r } shuf =
      Dealer.new { a with raiseSizes := .list (List.replicate a.numStreets.toNat r) } shuf ∧
    Dealer.new { a with numRaises := .scalar n } shuf =
      Dealer.new { a with numRaises := .list (List.replicate a.numStreets.toNat n) } shuf ∧
    Dealer.new { a with numCommunityCards := .scalar c } shuf =
      Dealer.new { a with numCommunityCards := .list (List.replicate a.numStreets.toNat c) } shuf := by
  refine ⟨?_, ?_, ?_, ?_, ?_⟩ <;> unfold Dealer.new <;> simp only [checkInp_replicate _ _ hn, checkInp_replicate _ _ hs]

/-- **C44**: exactly which arguments the constructor accepts. -/
theorem C44_accepts (a : DealerArgs) (shuf : Shuffle) :
    (∃ d, Dealer.new a shuf = .ok d) ↔
      ListsFit a ∧ (2 ≤ a.numPlayers ∧ a.numPlayers ≤ 10) ∧ (∀ i, ¬ SaysAt a.raiseSizes a.numStreets i .other) ∧
      (∀ i, ¬ SaysAt a.numRaises a.numStreets i .badString) ∧ (1 ≤ a.numRanks ∧ a.numRanks ≤ 13) ∧
      (1 ≤ a.numSuits ∧ a.numSuits ≤ 4) ∧
      ∃ e, Evaluator.new a.numSuits a.numRanks a.numCardsForHand a.mandatoryNumHoleCards a.lowEndStraight a.order = .ok e := by
  constructor
  · rintro ⟨d, h⟩
    have hl : ListsFit a := by
      by_contra hl
      rw [C44_length a shuf hl] at h; simp at h
    obtain ⟨bl, an, rs, nr, nc, x1, -, x3, x4, -, e⟩ := new_lists shuf hl
    rw [e] at h
    simp only [bind, Except.bind, pure, Except.pure] at h
    split at h
    · simp at h
    next b hb =>
    split at h
    · simp at h
    next rs' hrs =>
    split at h
    · simp at h
    next nr' hnr =>
    split at h
    · simp at h
    next deck hdeck =>
    split at h
    · simp at h
    next ev hev =>
    split at h
    · simp at h
    next p hp =>
    have hp' : ∃ p, dictGet POS_DICT a.numPlayers.toNat = some p := by
      cases hq : dictGet POS_DICT a.numPlayers.toNat with
      | none => rw [hq] at hp; simp at hp
      | some q => exact ⟨q, rfl⟩
    have hn := (posDict_iff _).1 hp'
    have hd := ((C03_constructs a.numSuits a.numRanks shuf).1).1 ⟨deck, hdeck⟩
    refine ⟨hl, by omega, ?_, ?_, hd.1, hd.2, ev, hev⟩
    · intro i hi
      have hmem : RawRaise.other ∈ rs := List.mem_of_getElem? ((x3.2 i _).2 hi)
      obtain ⟨y, hy⟩ := mapM_mem hrs hmem
      simp [cleanRs] at hy
    · intro i hi
      have hmem : RawNumRaises.badString ∈ nr := List.mem_of_getElem? ((x4.2 i _).2 hi)
      obtain ⟨y, hy⟩ := mapM_mem hnr hmem
      simp [cleanNumRaises] at hy
  · rintro ⟨hl, hn, hrs, hnr, hr, hs, ev, hev⟩
    obtain ⟨bl, an, rs, nr, nc, x1, -, x3, x4, -, e⟩ := new_lists shuf hl
    have hb := pyGet_one (bl := bl) (by have := x1.1; omega)
    obtain ⟨rs', hrs'⟩ : ∃ l, rs.mapM cleanRs = .ok l := by
      cases hm : rs.mapM cleanRs with
      | ok l => exact ⟨l, rfl⟩
      | error x =>
        obtain ⟨y, hy, hx⟩ := mapM_error _ _ _ hm
        have : y ≠ .other := by
          rintro rfl
          obtain ⟨i, hi⟩ := List.mem_iff_getElem?.1 hy
          exact hrs i ((x3.2 i _).1 hi)
        obtain ⟨z, hz⟩ := cleanRs_ok this
        rw [hz] at hx; simp at hx
    obtain ⟨nr', hnr'⟩ : ∃ l, nr.mapM cleanNumRaises = .ok l := by
      cases hm : nr.mapM cleanNumRaises with
      | ok l => exact ⟨l, rfl⟩
      | error x =>
        obtain ⟨y, hy, hx⟩ := mapM_error _ _ _ hm
        have : y ≠ .badString := by
          rintro rfl
          obtain ⟨i, hi⟩ := List.mem_iff_getElem?.1 hy
          exact hnr i ((x4.2 i _).1 hi)
        obtain ⟨z, hz⟩ := cleanNumRaises_ok this
        rw [hz] at hx; simp at hx
    obtain ⟨deck, hdeck⟩ := ((C03_constructs a.numSuits a.numRanks shuf).1).2 ⟨hr, hs⟩
    obtain ⟨p, hp⟩ := (posDict_iff a.numPlayers.toNat).2 (by omega)
    rw [e, hb, hrs', hnr', hdeck, hev]
    simp only [bind, Except.bind, pure, Except.pure, hp]
    exact ⟨_, rfl⟩

/-- the raise size that an argument stands for -/
def sameRaise : RawRaise → RaiseSize → Prop
  | .int n, .int m => n = m
  | .pot, .pot => True
  | .inf, .inf => True
  | _, _ => False

/-- the number of raises that an argument stands for -/
def sameNum : RawNumRaises → NumRaises → Prop
  | .fin n, .fin m => n = m
  | .inf, .inf => True
  | _, _ => False

/-- **C44**: the new dealer plays with the values it was given: seat by seat and street by street for the five
arguments that may be lists, the big blind being that of seat 1; every stack is the start stack. -/
theorem C44_values (a : DealerArgs) (shuf : Shuffle) (d : Dealer) (h : Dealer.new a shuf = .ok d) :
    Expands a.blinds a.numPlayers d.cfg.blinds ∧ Expands a.antes a.numPlayers d.cfg.antes ∧
    (∃ rs, Expands a.raiseSizes a.numStreets rs ∧ List.Forall₂ sameRaise rs d.cfg.raiseSizes) ∧
    (∃ nr, Expands a.numRaises a.numStreets nr ∧ List.Forall₂ sameNum nr d.cfg.numRaises) ∧
    Expands a.numCommunityCards a.numStreets d.cfg.numCommunityCards ∧
    (d.cfg.numPlayers : Int) = a.numPlayers ∧ d.cfg.numStreets = a.numStreets.toNat ∧
    SaysAt a.blinds a.numPlayers 1 d.cfg.bigBlind ∧
    d.cfg.numSuits = a.numSuits ∧ d.cfg.numRanks = a.numRanks ∧ d.cfg.numHoleCards = a.numHoleCards ∧
    d.cfg.startStack = a.startStack ∧ d.stacks = List.replicate d.cfg.numPlayers a.startStack ∧
    Evaluator.new a.numSuits a.numRanks a.numCardsForHand a.mandatoryNumHoleCards a.lowEndStraight a.order =
      .ok d.cfg.evaluator := by
  have hac := (C44_accepts a shuf).1 ⟨d, h⟩
  obtain ⟨bl, an, rs, nr, nc, x1, x2, x3, x4, x5, e⟩ := new_lists shuf hac.1
  rw [e] at h
  simp only [bind, Except.bind, pure, Except.pure] at h
  split at h
  · simp at h
  next b hb =>
  split at h
  · simp at h
  next rs' hrs =>
  split at h
  · simp at h
  next nr' hnr =>
  split at h
  · simp at h
  next deck hdeck =>
  split at h
  · simp at h
  next ev hev =>
  split at h
  · simp at h
  simp only [Except.ok.injEq] at h
  subst h
  have hn := hac.2.1
  refine ⟨x1, x2, ⟨rs, x3, ?_⟩, ⟨nr, x4, ?_⟩, x5, ?_, rfl, ?_, rfl, rfl, rfl, rfl, rfl, hev⟩
  · refine ((mapM_ok_iff _ _ _).1 hrs).imp ?_
    intro x y hxy
    cases x <;> simp only [cleanRs, Except.ok.injEq, reduceCtorEq] at hxy <;> subst hxy <;> simp [sameRaise]
  · refine ((mapM_ok_iff _ _ _).1 hnr).imp ?_
    intro x y hxy
    cases x <;> simp only [cleanNumRaises, Except.ok.injEq, reduceCtorEq] at hxy <;> subst hxy <;> simp [sameNum]
  · show ((a.numPlayers.toNat : Nat) : Int) = _
    omega
  · show SaysAt a.blinds a.numPlayers 1 b
    rw [← x1.2]
    have hl : 2 ≤ bl.length := by have := x1.1; omega
    rw [pyGet_one hl, Except.ok.injEq] at hb
    rw [← hb]
    exact List.getElem?_eq_getElem hl

/-- a wrong list, and a wrong raise size -/
example : Dealer.new { small 2 [1, 2] 10 with blinds := .list [1, 2, 3] } id = .error .invalidConfig :=
  C44_length _ _ (by simp [ListsFit, Fits1, small])

example : Dealer.new { small 2 [1, 2] 10 with raiseSizes := .list [.other, .int 2] } id = .error .invalidRaiseSize :=
  C44_raise_size _ _ (by simp [ListsFit, Fits1, small]) (by simp [small]) 0 rfl

/-! ## C45 -/

/-- what a configuration needs for the theorems about play to apply -/
structure Playable (a : DealerArgs) : Prop where
  /-- the constructor succeeds, whatever the shuffle -/
  constructs : ∀ shuf, ∃ d, Dealer.new a shuf = .ok d
  /-- and for every dealer constructed the cards suffice, everybody who reaches a showdown has a hand that the evaluator
  can rank, nobody starts with less than blind and ante, there are chips to play for, and the first hand can be dealt -/
  plays : ∀ shuf d, Dealer.new a shuf = .ok d →
    Enough d.cfg ∧ HandsFit d.cfg ∧ GoodEvaluator d.cfg ∧ RaisesOk d.cfg ∧
    (∀ i < d.cfg.numPlayers, 0 ≤ d.cfg.blinds.getD i 0 ∧ 0 ≤ d.cfg.antes.getD i 0 ∧
      d.cfg.blinds.getD i 0 + d.cfg.antes.getD i 0 ≤ d.stacks.getD i 0) ∧
    0 < d.cfg.blinds.sum + d.cfg.antes.sum ∧
    ∀ rb rs shuf', ∃ d' obs, d.reset rb rs shuf' = (d', .ok obs)

/-- the list an argument stands for -/
def expandL {α : Type} : ListOr α → Int → List α
  | .scalar v, n => List.replicate n.toNat v
  | .list l, _ => l

theorem expands_eq {α : Type} {arg : ListOr α} {n : Int} {l : List α} (h : Expands arg n l) : l = expandL arg n := by
  apply List.ext_getElem?
  intro i
  cases arg with
  | scalar v =>
    simp only [expandL, List.getElem?_replicate]
    split
    · next hi => exact (h.2 i v).2 ⟨by omega, rfl⟩
    · next hi => rw [List.getElem?_eq_none]; rw [h.1]; omega
  | list l' =>
    simp only [expandL]
    cases hx : l'[i]? with
    | some x => exact (h.2 i x).2 hx
    | none =>
      cases hy : l[i]? with
      | none => rfl
      | some y =>
        have := (h.2 i y).1 hy
        simp only [SaysAt] at this
        rw [hx] at this; exact this.symm

instance {α : Type} (l : ListOr α) (n : Int) : Decidable (Fits1 l n) := by
  unfold Fits1; cases l <;> infer_instance

instance (a : DealerArgs) : Decidable (ListsFit a) := inferInstanceAs (Decidable (_ ∧ _))

/-- the four evaluators of the shipped configurations -/
theorem shipped_evaluator {a : DealerArgs} (h : a ∈ ALL_CONFIGS) : ∃ s r c : Nat,
    a.numSuits = s ∧ a.numRanks = r ∧ a.numCardsForHand = c ∧ GoodOrder s r c a.lowEndStraight a.order ∧
    ∃ e, Evaluator.new s r c a.mandatoryNumHoleCards a.lowEndStraight a.order = .ok e := by
  have key : ∀ a ∈ ALL_CONFIGS, (a.lowEndStraight = true ∧ a.order = none ∧
      ((a.numSuits = 2 ∧ a.numRanks = 3 ∧ a.numCardsForHand = 2) ∨ (a.numSuits = 1 ∧ a.numRanks = 3 ∧ a.numCardsForHand = 1) ∨
        (a.numSuits = 4 ∧ a.numRanks = 13 ∧ a.numCardsForHand = 5))) ∨
      (a.lowEndStraight = true ∧ a.order = some ["sf", "fk", "fl", "fh", "st", "tk", "tp", "pa", "hc"] ∧
        a.numSuits = 4 ∧ a.numRanks = 9 ∧ a.numCardsForHand = 5) := by decide +kernel
  rcases key a h with ⟨h1, h2, ⟨h3, h4, h5⟩ | ⟨h3, h4, h5⟩ | ⟨h3, h4, h5⟩⟩ | ⟨h1, h2, h3, h4, h5⟩
  · refine ⟨2, 3, 2, h3, h4, h5, .inl h2, ?_⟩
    rw [h1, h2]
    exact (C09_exact_partial 2 3 2 (by omega) (by omega) (by omega) _ true).2 (by simp)
  · refine ⟨1, 3, 1, h3, h4, h5, .inl h2, ?_⟩
    rw [h1, h2]
    exact (C09_exact_partial 1 3 1 (by omega) (by omega) (by omega) _ true).2 (by simp)
  · refine ⟨4, 13, 5, h3, h4, h5, .inl h2, ?_⟩
    rw [h1, h2]
    exact (C09_exact_partial 4 13 5 (by omega) (by omega) (by omega) _ true).2 (by simp)
  · refine ⟨4, 9, 5, h3, h4, h5, .inr ⟨_, h2, by decide, by omega, by simp, by omega⟩, ?_⟩
    rw [h1, h2]
    exact C17_accepted_partial 9 (by omega) _ true _ (by decide)

/-- a raise size that is not negative -/
def okRaise : RawRaise → Bool
  | .int n => decide (0 ≤ n)
  | .other => false
  | _ => true

/-- The numbers of the shipped configurations: one check of the whole list. -/
theorem shipped_numbers : ∀ a ∈ ALL_CONFIGS, ListsFit a ∧ (2 ≤ a.numPlayers ∧ a.numPlayers ≤ 10) ∧ 1 ≤ a.numStreets ∧
    (∀ x ∈ expandL a.raiseSizes a.numStreets, okRaise x = true) ∧
    (∀ x ∈ expandL a.numRaises a.numStreets, x ≠ .badString) ∧
    (((a.numPlayers.toNat * a.numHoleCards.toNat + ((expandL a.numCommunityCards a.numStreets).map Int.toNat).sum : Nat) : Int) ≤
      a.numSuits * a.numRanks) ∧
    (if a.mandatoryNumHoleCards = 0 then
        a.numCardsForHand ≤ a.numHoleCards.toNat + ((expandL a.numCommunityCards a.numStreets).map Int.toNat).sum
      else (0 ≤ a.mandatoryNumHoleCards ∧ a.mandatoryNumHoleCards ≤ a.numCardsForHand) ∧
        a.mandatoryNumHoleCards ≤ a.numHoleCards.toNat ∧
        a.numCardsForHand - a.mandatoryNumHoleCards ≤ ((expandL a.numCommunityCards a.numStreets).map Int.toNat).sum) ∧
    (∀ i < a.numPlayers.toNat, 0 ≤ (expandL a.blinds a.numPlayers).getD i 0 ∧ 0 ≤ (expandL a.antes a.numPlayers).getD i 0 ∧
      (expandL a.blinds a.numPlayers).getD i 0 + (expandL a.antes a.numPlayers).getD i 0 ≤ a.startStack) ∧
    0 < (expandL a.blinds a.numPlayers).sum + (expandL a.antes a.numPlayers).sum ∧ 0 < a.startStack := by decide +kernel

/-- a value that an argument gives is in its list -/
theorem saysAt_mem {α : Type} {arg : ListOr α} {n : Int} {i : Nat} {x : α} (h : SaysAt arg n i x) : x ∈ expandL arg n := by
  cases arg with
  | scalar v =>
    simp only [SaysAt] at h
    simp only [expandL, List.mem_replicate]
    exact ⟨by omega, h.2⟩
  | list l => exact List.mem_of_getElem? h

/-- **C45**: every configuration of `clubs/configs.py` is playable. -/
theorem C45_shipped (a : DealerArgs) (h : a ∈ ALL_CONFIGS) : Playable a := by
  obtain ⟨n1, n2, n3, n4, n5, n6, n7, n8, n9, n10⟩ := shipped_numbers a h
  obtain ⟨s, r, c, e1, e2, e3, e4, ev, e5⟩ := shipped_evaluator h
  constructor
  · intro shuf
    have hsr : ∀ a ∈ ALL_CONFIGS, (1 ≤ a.numRanks ∧ a.numRanks ≤ 13) ∧ (1 ≤ a.numSuits ∧ a.numSuits ≤ 4) := by decide +kernel
    refine (C44_accepts a shuf).2 ⟨n1, n2, ?_, ?_, (hsr a h).1, (hsr a h).2, ev, by rw [e1, e2, e3]; exact e5⟩
    · intro i hi
      have := n4 _ (saysAt_mem hi)
      simp [okRaise] at this
    · intro i hi
      exact n5 _ (saysAt_mem hi) rfl
  · intro shuf d hd
    obtain ⟨v1, v2, ⟨rs, v3, v3'⟩, -, v5, v6, v7, -, v8, v9, v10, v11, v12, v13⟩ := C44_values a shuf d hd
    have w1 := expands_eq v1
    have w2 := expands_eq v2
    have w3 := expands_eq v3
    have w5 := expands_eq v5
    have v6' : d.cfg.numPlayers = a.numPlayers.toNat := by omega
    have f := new_cfg hd
    refine ⟨?_, ?_, ⟨a.lowEndStraight, a.order, ?_, ?_⟩, ?_, ?_, ?_, ?_⟩
    · unfold Enough
      rw [v6', v10, w5, v8, v9]; exact n6
    · unfold HandsFit fullBoard
      rw [f.1, f.2, v10, w5]; exact n7
    · rw [v8, v9, f.1, f.2]; exact v13
    · rw [v8, v9, f.2, e1, e2, e3]; exact e4
    · intro n hn
      rw [w3] at v3'
      have : ∀ {l : List RawRaise} {l' : List RaiseSize}, List.Forall₂ sameRaise l l' → (∀ x ∈ l, okRaise x = true) →
          .int n ∈ l' → 0 ≤ n := by
        intro l l' hf
        induction hf with
        | nil => simp
        | @cons x y l l' hxy hf ih =>
          intro hok hm
          rcases List.mem_cons.1 hm with rfl | hm
          · have := hok x (by simp)
            cases x <;> simp_all [sameRaise, okRaise]
          · exact ih (fun x hx => hok x (by simp [hx])) hm
      exact this v3' n4 hn
    · intro i hi
      rw [w1, w2, v12]
      have hs : (List.replicate d.cfg.numPlayers a.startStack).getD i 0 = a.startStack := by
        rw [List.getD_eq_getElem?_getD, List.getElem?_replicate, if_pos hi]; rfl
      rw [hs]
      exact n8 i (by omega)
    · rw [w1, w2]; exact n9
    · intro rb rs shuf'
      have hst := new_seated hd
      have hcount : 2 ≤ countTrue (d.stacks.map fun s => decide (s > 0)) := by
        rw [v12, List.map_replicate, show decide (a.startStack > 0) = true by simpa using n10]
        unfold countTrue
        rw [List.count_replicate_self]; omega
      have hlen : 1 ≤ d.cfg.numCommunityCards.length := by rw [hst.community]; omega
      rcases reset_eq d rb rs shuf' with ⟨-, h1, -⟩ | ⟨h1, ⟨h2, -⟩ | ⟨h2, e⟩⟩
      · omega
      · omega
      · obtain ⟨hl, h0, -⟩ := posted_live (rb := rb) (shuf := shuf') hst h1 h2
        obtain ⟨obs, ho⟩ := live_observation hl (by rw [h0]; have := hl.oneStreet; omega)
        rw [ho] at e
        exact ⟨_, _, e⟩

example : Playable NO_LIMIT_HOLDEM_NINE_PLAYER := C45_shipped _ (by decide)

example : ∃ d, Dealer.new LEDUC_TWO_PLAYER id = .ok d ∧ d.cfg.antes = [1, 1] ∧ d.cfg.numCommunityCards = [0, 1] ∧
    d.stacks = [10, 10] := by
  obtain ⟨d, hd⟩ := (C45_shipped LEDUC_TWO_PLAYER (by decide)).constructs id
  obtain ⟨-, v2, -, -, v5, v6, -, -, -, -, -, -, v12, -⟩ := C44_values _ _ _ hd
  have h2 : d.cfg.numPlayers = 2 := by simp [LEDUC_TWO_PLAYER] at v6; omega
  exact ⟨d, hd, expands_eq v2, expands_eq v5, by rw [v12, h2]; rfl⟩

/-! ## C53 -/

/-- **C53**: `reset` deals a hand exactly when two players have chips, or the stacks are reset, and there is at least
one street. Then at least two players are in, the first street is played, and a player who is in is to act. -/
theorem C53_reset {d : Dealer} (h : Reachable d) (rb rs : Bool) (shuf : Shuffle) :
    ((∃ obs, (d.reset rb rs shuf).2 = .ok obs) ↔
      (rs = true ∨ 2 ≤ (d.stacks.filter fun s => 0 < s).length) ∧ 1 ≤ d.cfg.numStreets) ∧
    ((∃ obs, (d.reset rb rs shuf).2 = .ok obs) → 2 ≤ numIn (d.reset rb rs shuf).1 ∧ (d.reset rb rs shuf).1.street = 0 ∧
      ∃ a, (d.reset rb rs shuf).1.action = some a ∧ isIn (d.reset rb rs shuf).1 a) := by
  have hst := reachable_seated h
  have hcount : countTrue (d.stacks.map fun s => decide (s > 0)) = (d.stacks.filter fun s => 0 < s).length := by
    unfold countTrue
    rw [List.count_eq_countP, List.countP_map, List.countP_eq_length_filter]
    congr 2
    funext s
    simp
  rw [← hcount, ← hst.community]
  rcases reset_eq d rb rs shuf with ⟨h0, h1, e⟩ | ⟨h1, ⟨h2, e⟩ | ⟨h2, e⟩⟩
  · rw [e]
    simp only [reduceCtorEq, exists_false, false_implies, and_true, false_iff]
    rintro ⟨h3 | h3, -⟩
    · rw [h0] at h3; simp at h3
    · omega
  · rw [e]
    simp only [reduceCtorEq, exists_false, false_implies, and_true, false_iff]
    rintro ⟨-, h3⟩
    omega
  · obtain ⟨hl, h0, hc⟩ := posted_live (rb := rb) (shuf := shuf) hst h1 h2
    obtain ⟨obs, ho⟩ := live_observation hl (by rw [h0]; have := hl.oneStreet; omega)
    rw [e, ho]
    refine ⟨⟨fun _ => ⟨h1, h2⟩, fun _ => ⟨obs, rfl⟩⟩, fun _ => ⟨hc, h0, hl.action⟩⟩

example : ∃ S d, InHand S d ∧ Reachable d ∧ 2 ≤ (d.stacks.filter fun s => 0 < s).length ∧ d.action = none ∧
    1 ≤ d.cfg.numStreets :=
  hand_exists (small 3 [1, 2, 0] 10) [.bet 0, .bet 0] (by decide +kernel)

end Clubs

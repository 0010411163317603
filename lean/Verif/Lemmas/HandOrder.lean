import Verif.Lemmas.Folded
import Verif.Lemmas.Odds
import Verif.Lemmas.Showdown
import Mathlib.Order.Monotone.Defs

/-! # The division of the pot reads nothing but the order of the hands -/

namespace Clubs

open Spec

variable {g : Int → Int} {A : Set Int} {worst : Int}

/-- the hand with another strength -/
def restrength (g : Int → Int) (h : Hand) : Hand := { h with strength := g h.strength }

/-- the state of the loop with other strengths -/
def restrengthState (g : Int → Int) (st : PotState) : PotState := { st with hands := st.hands.map (restrength g) }

theorem insertByKey_restrength (hg : StrictMonoOn g A) {h : Hand} (hh : h.strength ∈ A) {l : List Hand} (hl : ∀ x ∈ l, x.strength ∈ A) :
    insertByKey (restrength g h) (l.map (restrength g)) = (insertByKey h l).map (restrength g) := by
  induction l with
  | nil => rfl
  | cons x l ih =>
    have hx := hl x (by simp)
    have h1 : g h.strength < g x.strength ↔ h.strength < x.strength := hg.lt_iff_lt hh hx
    have h2 : g h.strength = g x.strength ↔ h.strength = x.strength := hg.eq_iff_eq hh hx
    show (if g h.strength < g x.strength ∨ (g h.strength = g x.strength ∧ h.commit ≤ x.commit) then _ else _) = _
    rw [insertByKey]
    simp only [h1, h2]
    split
    · rfl
    · rw [List.map_cons, ← ih fun y hy => hl y (by simp [hy])]

theorem mem_insertByKey {h x : Hand} {l : List Hand} : x ∈ insertByKey h l ↔ x = h ∨ x ∈ l := by
  induction l with
  | nil => simp [insertByKey]
  | cons y l ih =>
    rw [insertByKey]
    split
    · simp
    · simp only [List.mem_cons, ih]
      tauto

theorem sortByKey_restrength (hg : StrictMonoOn g A) {l : List Hand} (hl : ∀ x ∈ l, x.strength ∈ A) :
    sortByKey (l.map (restrength g)) = (sortByKey l).map (restrength g) ∧ ∀ x ∈ sortByKey l, x ∈ l := by
  induction l with
  | nil => exact ⟨rfl, fun x hx => hx⟩
  | cons y l ih =>
    obtain ⟨h1, h2⟩ := ih fun x hx => hl x (by simp [hx])
    constructor
    · show insertByKey (restrength g y) (sortByKey (l.map (restrength g))) = (insertByKey y (sortByKey l)).map (restrength g)
      rw [h1]
      exact insertByKey_restrength hg (hl y (by simp)) fun x hx => hl x (by simp [h2 x hx])
    · intro x hx
      have hx : x ∈ insertByKey y (sortByKey l) := hx
      rw [mem_insertByKey] at hx
      rcases hx with rfl | hx
      · simp
      · simp [h2 x hx]

theorem filter_restrength (hg : StrictMonoOn g A) {l : List Hand} (hl : ∀ x ∈ l, x.strength ∈ A) {v : Int} (hv : v ∈ A) :
    (((l.map (restrength g)).filter fun x => x.strength == g v).map (·.idx)) = (l.filter fun x => x.strength == v).map (·.idx) := by
  rw [List.filter_map, List.map_map]
  have : l.filter ((fun x => x.strength == g v) ∘ restrength g) = l.filter fun x => x.strength == v := by
    refine List.filter_congr fun x hx => ?_
    show (g x.strength == g v) = (x.strength == v)
    rw [Bool.eq_iff_iff, beq_iff_eq, beq_iff_eq]
    exact hg.eq_iff_eq (hl x hx) hv
  rw [this]
  rfl

theorem cuts_restrength (l : List Hand) (c : Int) : ((l.map (restrength g)).map fun x => min x.commit c) = l.map fun x => min x.commit c := by
  rw [List.map_map]
  rfl

theorem potStep_restrength (hg : StrictMonoOn g A) (st : PotState) (hl : ∀ x ∈ st.hands, x.strength ∈ A) (k : Nat) (h : Hand)
    (hh : h.strength ∈ A) :
    potStep (g worst) (restrengthState g st) k (restrength g h) = restrengthState g (potStep worst st k h) := by
  have h1 := filter_restrength hg hl hh
  have h2 := cuts_restrength (g := g) st.hands h.commit
  have h3 : (((st.hands.map (restrength g)).map fun x => { x with commit := x.commit - min x.commit h.commit }).modify k
      fun x => { x with strength := g worst }) = ((st.hands.map fun x => { x with commit := x.commit - min x.commit h.commit }).modify k
      fun x => { x with strength := worst }).map (restrength g) := by
    refine List.ext_getElem? fun i => ?_
    simp only [List.getElem?_modify, List.getElem?_map]
    cases st.hands[i]? with
    | none => rfl
    | some y => by_cases hk : k = i <;> simp [hk, restrength]
  show PotState.mk _ _ _ _ = PotState.mk _ _ _ _
  have e1 : (restrengthState g st).hands = st.hands.map (restrength g) := rfl
  have e2 : (restrength g h).commit = h.commit := rfl
  have e3 : (restrength g h).strength = g h.strength := rfl
  simp only [e1, e2, e3, h1, h2, h3]
  rfl

/-- the loop keeps the strengths in the set -/
theorem potStep_strengths (st : PotState) (hl : ∀ x ∈ st.hands, x.strength ∈ A) (hw : worst ∈ A) (k : Nat) (h : Hand) :
    ∀ x ∈ (potStep worst st k h).hands, x.strength ∈ A := by
  intro x hx
  have hx : x ∈ (st.hands.map fun x => { x with commit := x.commit - min x.commit h.commit }).modify k
      fun x => { x with strength := worst } := hx
  obtain ⟨i, hi⟩ := List.mem_iff_getElem?.1 hx
  rw [List.getElem?_modify, List.getElem?_map] at hi
  cases hy : st.hands[i]? with
  | none => rw [hy] at hi; simp at hi
  | some y =>
    rw [hy] at hi
    have hm := hl y (List.mem_of_getElem? hy)
    by_cases hk : k = i
    · simp [hk] at hi; rw [← hi]; exact hw
    · simp [hk] at hi; rw [← hi]; exact hm

theorem potLoop_restrength (hg : StrictMonoOn g A) (hw : worst ∈ A) (fuel k : Nat) (st : PotState)
    (hl : ∀ x ∈ st.hands, x.strength ∈ A) :
    potLoop (g worst) fuel k (restrengthState g st) = restrengthState g (potLoop worst fuel k st) := by
  induction fuel generalizing k st with
  | zero => rfl
  | succ fuel ih =>
    rw [potLoop, potLoop]
    have e1 : (restrengthState g st).hands = st.hands.map (restrength g) := rfl
    rw [e1, List.getElem?_map]
    cases hh : st.hands[k]? with
    | none => rfl
    | some h =>
      have hm := hl h (List.mem_of_getElem? hh)
      show (if ((st.hands.map (restrength g)).map fun x => min x.commit h.commit).sum = 0 then potLoop (g worst) fuel (k + 1) (restrengthState g st) else
        if (potStep (g worst) (restrengthState g st) k (restrength g h)).pot = 0 then potStep (g worst) (restrengthState g st) k (restrength g h)
        else potLoop (g worst) fuel (k + 1) (potStep (g worst) (restrengthState g st) k (restrength g h))) =
        restrengthState g (if (st.hands.map fun x => min x.commit h.commit).sum = 0 then potLoop worst fuel (k + 1) st else
        if (potStep worst st k h).pot = 0 then potStep worst st k h else potLoop worst fuel (k + 1) (potStep worst st k h))
      rw [cuts_restrength, potStep_restrength hg st hl k h hm, ih _ _ hl, ih _ _ (potStep_strengths st hl hw k h)]
      show (if _ then _ else if (potStep worst st k h).pot = 0 then _ else _) = _
      split
      · rfl
      · split <;> rfl

theorem zip_restrength (c : List Int) (l : List Int) (k : Nat) : (((l.map g).zipIdx k).map fun (s, i) =>
    ({ idx := i, strength := s, commit := c.getD i 0 } : Hand)) = ((l.zipIdx k).map fun (s, i) =>
    ({ idx := i, strength := s, commit := c.getD i 0 } : Hand)).map (restrength g) := by
  induction l generalizing k with
  | nil => rfl
  | cons x l ih =>
    simp only [List.map_cons, List.zipIdx_cons]
    rw [ih]
    rfl

theorem zip_strengths (c : List Int) (l : List Int) (k : Nat) {x : Hand}
    (hx : x ∈ (l.zipIdx k).map fun (s, i) => ({ idx := i, strength := s, commit := c.getD i 0 } : Hand)) : x.strength ∈ l := by
  obtain ⟨⟨s, i⟩, h1, rfl⟩ := List.mem_map.1 hx
  exact (List.mem_zipIdx h1).2.2 ▸ List.getElem_mem _

theorem potPayouts_restrength {strengths : List Int} (hg : StrictMonoOn g A) (hl : ∀ x ∈ strengths, x ∈ A) (hw : worst ∈ A) (n button : Nat)
    (pot : Int) (c : List Int) : potPayouts n button (g worst) pot c (strengths.map g) = potPayouts n button worst pot c strengths := by
  have hz : ∀ x ∈ ((strengths.zipIdx).map fun (s, i) => ({ idx := i, strength := s, commit := c.getD i 0 } : Hand)), x.strength ∈ A :=
    fun x hx => hl _ (zip_strengths c strengths 0 hx)
  obtain ⟨h1, h2⟩ := sortByKey_restrength hg hz
  unfold potPayouts
  simp only []
  rw [zip_restrength, h1, List.length_map]
  generalize hK : sortByKey ((strengths.zipIdx).map fun (s, i) => ({ idx := i, strength := s, commit := c.getD i 0 } : Hand)) = K at h2
  have h3 := potLoop_restrength hg hw K.length 0 ⟨K, pot, 0, List.replicate n 0⟩ fun x hx => hz x (h2 x hx)
  have h4 : restrengthState g ⟨K, pot, 0, List.replicate n 0⟩ = ⟨K.map (restrength g), pot, 0, List.replicate n 0⟩ := rfl
  rw [h4] at h3
  rw [h3]
  rfl

variable {x : Dealer} {C : List Card} {D : Deck} {H : List (List Card)} {s s' : Nat → Int}

/-- from the strengths `s` of those who are in to the strengths `s'` -/
def translate (x : Dealer) (s s' : Nat → Int) (v : Int) : Int :=
  match (List.range x.cfg.numPlayers).find? fun i => inB x i && s i == v with
  | some i => s' i
  | none => v

/-- those who are in compare in the same way -/
def Compare (x : Dealer) (s s' : Nat → Int) : Prop :=
  ∀ i < x.cfg.numPlayers, ∀ j < x.cfg.numPlayers, isIn x i → isIn x j → (s i < s j ↔ s' i < s' j)

theorem translate_in (ho : Compare x s s') {i : Nat} (hi : i < x.cfg.numPlayers) (ha : inB x i = true) : translate x s s' (s i) = s' i := by
  unfold translate
  cases hf : (List.range x.cfg.numPlayers).find? fun k => inB x k && s k == s i with
  | none =>
    have := List.find?_eq_none.1 hf i (List.mem_range.2 hi)
    simp [ha] at this
  | some k =>
    have h1 := List.find?_some hf
    have h2 := List.mem_range.1 (List.mem_of_find?_eq_some hf)
    simp only [Bool.and_eq_true, beq_iff_eq] at h1
    obtain ⟨h3, h4⟩ := h1
    have a1 := ho k h2 i hi h3 ha
    have a2 := ho i hi k h2 ha h3
    rw [h4] at a1 a2
    simp only [lt_irrefl, false_iff] at a1 a2
    show s' k = s' i
    omega

theorem translate_worst (hlt : ∀ i < x.cfg.numPlayers, inB x i = true → s i < x.worstHand) : translate x s s' x.worstHand = x.worstHand := by
  unfold translate
  cases hf : (List.range x.cfg.numPlayers).find? fun k => inB x k && s k == x.worstHand with
  | none => rfl
  | some k =>
    have h1 := List.find?_some hf
    have h2 := List.mem_range.1 (List.mem_of_find?_eq_some hf)
    simp only [Bool.and_eq_true, beq_iff_eq] at h1
    have := hlt k h2 h1.1
    omega

/-- the strengths that occur -/
def occurring (x : Dealer) (s : Nat → Int) : Set Int := {v | (∃ i < x.cfg.numPlayers, inB x i = true ∧ v = s i) ∨ v = x.worstHand}

theorem translate_mono (ho : Compare x s s') (hlt : ∀ i < x.cfg.numPlayers, inB x i = true → s i < x.worstHand)
    (hlt' : ∀ i < x.cfg.numPlayers, inB x i = true → s' i < x.worstHand) : StrictMonoOn (translate x s s') (occurring x s) := by
  rintro a (⟨i, hi, h1, rfl⟩ | rfl) b (⟨j, hj, h2, rfl⟩ | rfl) hab
  · rw [translate_in ho hi h1, translate_in ho hj h2]
    exact (ho i hi j hj h1 h2).1 hab
  · rw [translate_in ho hi h1, translate_worst hlt]
    exact hlt' i hi h1
  · have := hlt j hj h2
    omega
  · exact absurd hab (lt_irrefl _)

/-- the strengths of both tables -/
theorem strengths_translated (hl : H.length = x.holeCards.length) (hx : x.holeCards.length = x.cfg.numPlayers) (hr : Ranks x s)
    (hr' : Ranks (withCards C D H x) s') (ho : Compare x s s') :
    ∃ T, x.evalHands x.holeCards x.communityCards = .ok T ∧ (withCards C D H x).evalHands H C = .ok (T.map (translate x s s')) ∧
      translate x s s' x.worstHand = x.worstHand ∧ StrictMonoOn (translate x s s') (occurring x s) ∧ ∀ v ∈ T, v ∈ occurring x s := by
  obtain ⟨T, t1, t2, t3⟩ := evalHands_of_ranks hx hr
  have hH : (withCards C D H x).holeCards.length = (withCards C D H x).cfg.numPlayers := hl.trans hx
  obtain ⟨T', u1, u2, u3⟩ := evalHands_of_ranks hH hr'
  have hlt : ∀ i < x.cfg.numPlayers, inB x i = true → s i < x.worstHand := by
    intro i hi ha
    have := (((evalHands_get t1).2 i hi).1 ha).2
    rwa [t3 i hi, if_pos ha] at this
  have hlt' : ∀ i < x.cfg.numPlayers, inB x i = true → s' i < x.worstHand := by
    intro i hi ha
    have := (((evalHands_get u1).2 i hi).1 ha).2
    rwa [u3 i hi, if_pos (show inB (withCards C D H x) i = true from ha)] at this
  refine ⟨T, t1, ?_, translate_worst hlt, translate_mono ho hlt hlt', ?_⟩
  · rw [show (withCards C D H x).evalHands H C = .ok T' from u1]
    congr 1
    have u2 : T'.length = x.cfg.numPlayers := u2
    refine List.ext_getElem (by rw [List.length_map]; omega) fun i a1 a2 => ?_
    have hi : i < x.cfg.numPlayers := by omega
    have v1 := t3 i hi
    have v2 : T'.getD i 0 = if inB x i then s' i else x.worstHand := u3 i hi
    rw [getD_eq T i 0 (by omega)] at v1
    rw [getD_eq T' i 0 (by omega)] at v2
    rw [List.getElem_map, v1, v2]
    by_cases ha : inB x i = true
    · rw [if_pos ha, if_pos ha, translate_in ho hi ha]
    · rw [if_neg ha, if_neg ha, translate_worst hlt]
  · intro v hv
    obtain ⟨i, hi, rfl⟩ := List.mem_iff_getElem.1 hv
    have v1 := t3 i (by omega)
    rw [getD_eq T i 0 hi] at v1
    rw [v1]
    by_cases ha : inB x i = true
    · rw [if_pos ha]; exact .inl ⟨i, by omega, ha, rfl⟩
    · rw [if_neg ha]; exact .inr rfl

theorem payouts_order (hl : H.length = x.holeCards.length) (hx : x.holeCards.length = x.cfg.numPlayers) (hr : Ranks x s)
    (hr' : Ranks (withCards C D H x) s') (ho : Compare x s s') : (withCards C D H x).payouts = x.payouts := by
  obtain ⟨T, h1, h2, h3, h4, h5⟩ := strengths_translated hl hx hr hr' ho
  have e : (withCards C D H x).evalRound = x.evalRound := by
    unfold Dealer.evalRound
    show (match (withCards C D H x).evalHands H C with
      | .error e => Except.error e
      | .ok t => potPayouts x.cfg.numPlayers x.button x.worstHand x.pot x.potCommits t) = _
    rw [h1, h2]
    show potPayouts x.cfg.numPlayers x.button x.worstHand x.pot x.potCommits (T.map _) = _
    have := potPayouts_restrength h4 h5 (.inr rfl : x.worstHand ∈ occurring x s) x.cfg.numPlayers x.button x.pot x.potCommits
    rwa [h3] at this
  unfold Dealer.payouts
  rw [e]
  rfl

end Clubs

namespace Clubs.Numpy

open Spec

variable {g : Int → Int} {A : Set Int} {worst : Int}

theorem potLoop_restrength (hg : StrictMonoOn g A) (hw : worst ∈ A) (fuel k : Nat) (st : PotState)
    (hl : ∀ x ∈ st.hands, x.strength ∈ A) :
    potLoop (g worst) fuel k (restrengthState g st) = restrengthState g (potLoop worst fuel k st) := by
  induction fuel generalizing k st with
  | zero => rfl
  | succ fuel ih =>
    rw [potLoop, potLoop]
    have e1 : (restrengthState g st).hands = st.hands.map (restrength g) := rfl
    rw [e1, List.getElem?_map]
    cases hh : st.hands[k]? with
    | none => rfl
    | some h =>
      have hm := hl h (List.mem_of_getElem? hh)
      show (if (Clubs.potStep (g worst) (restrengthState g st) k (restrength g h)).pot = 0 then
        Clubs.potStep (g worst) (restrengthState g st) k (restrength g h)
        else potLoop (g worst) fuel (k + 1) (Clubs.potStep (g worst) (restrengthState g st) k (restrength g h))) =
        restrengthState g (if (Clubs.potStep worst st k h).pot = 0 then Clubs.potStep worst st k h
        else potLoop worst fuel (k + 1) (Clubs.potStep worst st k h))
      rw [potStep_restrength hg st hl k h hm, ih _ _ (potStep_strengths st hl hw k h)]
      show (if (Clubs.potStep worst st k h).pot = 0 then _ else _) = _
      split <;> rfl

theorem potPayouts_restrength {strengths : List Int} (hg : StrictMonoOn g A) (hl : ∀ x ∈ strengths, x ∈ A) (hw : worst ∈ A) (n button : Nat)
    (pot : Int) (c : List Int) : potPayouts n button (g worst) pot c (strengths.map g) = potPayouts n button worst pot c strengths := by
  have hz : ∀ x ∈ ((strengths.zipIdx).map fun (s, i) => ({ idx := i, strength := s, commit := c.getD i 0 } : Hand)), x.strength ∈ A :=
    fun x hx => hl _ (zip_strengths c strengths 0 hx)
  obtain ⟨h1, h2⟩ := sortByKey_restrength hg hz
  unfold potPayouts
  simp only []
  rw [zip_restrength, h1, List.length_map]
  generalize hK : sortByKey ((strengths.zipIdx).map fun (s, i) => ({ idx := i, strength := s, commit := c.getD i 0 } : Hand)) = K at h2
  have h3 := potLoop_restrength hg hw K.length 0 ⟨K, pot, 0, List.replicate n 0⟩ fun x hx => hz x (h2 x hx)
  have h4 : restrengthState g ⟨K, pot, 0, List.replicate n 0⟩ = ⟨K.map (restrength g), pot, 0, List.replicate n 0⟩ := rfl
  rw [h4] at h3
  rw [h3]
  rfl

variable {x : Dealer} {C : List Card} {D : Deck} {H : List (List Card)} {s s' : Nat → Int}

theorem payouts_order (hl : H.length = x.holeCards.length) (hx : x.holeCards.length = x.cfg.numPlayers) (hr : Ranks x s)
    (hr' : Ranks (withCards C D H x) s') (ho : Compare x s s') : payouts (withCards C D H x) = payouts x := by
  obtain ⟨T, h1, h2, h3, h4, h5⟩ := strengths_translated hl hx hr hr' ho
  have e : evalRound (withCards C D H x) = evalRound x := by
    unfold evalRound evalHands
    show (match (withCards C D H x).evalHands H C with
      | .error e => Except.error e
      | .ok t => potPayouts x.cfg.numPlayers x.button x.worstHand x.pot x.potCommits t) = _
    rw [h1, h2]
    show potPayouts x.cfg.numPlayers x.button x.worstHand x.pot x.potCommits (T.map _) = _
    have := potPayouts_restrength h4 h5 (.inr rfl : x.worstHand ∈ occurring x s) x.cfg.numPlayers x.button x.pot x.potCommits
    rwa [h3] at this
  unfold payouts
  rw [e]
  rfl

end Clubs.Numpy

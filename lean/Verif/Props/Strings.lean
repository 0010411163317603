import Verif.Props.Rarity
import Verif.Props.Betting
import Verif.Model.Strings
import Verif.Lemmas.Ascii

/-! # C78: what the evaluator says about itself -/

namespace Clubs

open Spec

/-! ## the text -/

theorem fourDigits_table : ∀ a < 10, ∀ b < 10, ∀ c < 10, ∀ d < 10, fourDigits (1000 * a + 100 * b + 10 * c + d) =
    [Nat.digitChar a, Nat.digitChar b, Nat.digitChar c, Nat.digitChar d] := by
  decide +kernel

theorem fourDigits_eq (n : Nat) : fourDigits (n % 10000) = [digit (n / 1000), digit (n / 100), digit (n / 10), digit n] := by
  have h := fourDigits_table (n / 1000 % 10) (by omega) (n / 100 % 10) (by omega) (n / 10 % 10) (by omega) (n % 10) (by omega)
  rw [show 1000 * (n / 1000 % 10) + 100 * (n / 100 % 10) + 10 * (n / 10 % 10) + n % 10 = n % 10000 by omega] at h
  exact h

theorem percent4_eq (q : Rat) : percent4 q = percentText (roundHalfEven (q * 1000000)).toNat := by
  unfold percent4 percentText
  simp only []
  rw [fourDigits_eq]
  simp [decimal]

theorem join_eq (sep : Str) : ∀ l : List Str, join sep l = List.intercalate sep l
  | [] => rfl
  | [s] => by simp [join, List.intercalate]
  | s :: t :: l => by
    have := join_eq sep (t :: l)
    simp only [join, this]
    simp [List.intercalate, List.intersperse]

/-- one entry of the text -/
def entryText (name : String) (n : Nat) : List Char := name.toList ++ " (".toList ++ percentText n ++ ")".toList

/-! ## the numbers -/

theorem sum_numHands (s r c : Nat) (low : Bool) (hr : r ≤ 13) :
    (KINDS.map fun k => numHands s r c low k).sum = Nat.choose (r * s) c := by
  have h1 : ((deckSet s r).powersetCard c).card = Nat.choose (r * s) c := by
    rw [Finset.card_powersetCard]
    congr 1
    unfold deckSet
    rw [Finset.card_product, Nat.card_Ico, Finset.card_range]
    congr 1; omega
  rw [← h1]
  have h2 := Finset.card_eq_sum_card_fiberwise (s := (deckSet s r).powersetCard c) (t := KINDS.toFinset)
    (f := fun H => handKind s r low H.toList) (fun H _ => by simpa using mem_kinds _)
  rw [h2]
  unfold numHands
  rw [List.sum_toFinset _ (by decide)]

theorem cast_sum {α : Type} (l : List α) (f : α → Nat) : (((l.map f).sum : Nat) : Int) = (l.map fun x => (f x : Int)).sum := by
  induction l with
  | nil => rfl
  | cons x l ih => simp only [List.map_cons, List.sum_cons, Nat.cast_add, ih]

section
variable {s r c : Nat} {low : Bool} {order : Option (List String)} {m : Int} {e : Evaluator}

theorem total_eq (hs : 1 ≤ s ∧ s ≤ 4) (hr : 1 ≤ r ∧ r ≤ 13) (hc : 1 ≤ c ∧ c ≤ 5) (hcard : c ≤ r * s)
    (ho : GoodOrder s r c low order) (hgood : GoodCounts s r c) (he : Evaluator.new s r c m low order = .ok e) :
    (∀ k, (e.table.handDict (cls k)).suited = (numHands s r c low k : Int)) ∧
    e.total = (Nat.choose (r * s) c : Int) ∧ e.table.rankedHands.Nodup ∧
    ∀ k, 0 < numHands s r c low k → cls k ∈ e.table.rankedHands := by
  obtain ⟨classes, X, -⟩ := ctx_good hs hr hc ho (Evaluator.new_table he).1 hcard
  have hsu : ∀ k, (e.table.handDict k).suited = (classCount s r c low k).1 := by
    intro k; rw [X.built.dict]; exact (X.spec.info k (X.all k)).1
  have hS := X.shape
  have htab := ((none_sorted_table s (by omega) r (by omega) c (by omega) low).resolve_left (fun hh => hh hS)).1
  have hnum : ∀ k, (classCount s r c low (cls k)).1 = (numHands s r c low k : Int) := (shape_tables hS hcard).1.2 hgood
  have hmem : ∀ x, x ∉ e.table.rankedHands → (e.table.handDict x).suited = 0 := by
    intro x hx
    rw [X.built.ranked, X.spec.ranked, List.mem_filter, decide_eq_true_eq] at hx
    rw [hsu, (htab x (mem_classList x)).1]
    have h2 := X.nonneg x
    have h3 := X.bef_nonneg x
    unfold cnt bef at *
    by_contra hne
    exact hx ⟨X.all x, by omega⟩
  have hnd : e.table.rankedHands.Nodup := by
    rw [X.built.ranked, X.spec.ranked]
    exact X.nodup.filter _
  refine ⟨fun k => by rw [hsu, hnum], ?_, hnd, fun k hk => ?_⟩
  · unfold Evaluator.total
    have h1 : (e.table.rankedHands.map fun x => (e.table.handDict x).suited).sum =
        ∑ x ∈ e.table.rankedHands.toFinset, (e.table.handDict x).suited := by
      rw [List.sum_toFinset _ hnd]
    have h2 : ∑ x ∈ e.table.rankedHands.toFinset, (e.table.handDict x).suited =
        ∑ x ∈ CLASS_LIST.toFinset, (e.table.handDict x).suited := by
      refine Finset.sum_subset (fun x _ => by simpa using mem_classList x) fun x _ hx => hmem x (by simpa using hx)
    rw [h1, h2, List.sum_toFinset _ (by decide), show CLASS_LIST = KINDS.map cls from rfl, List.map_map]
    rw [← sum_numHands s r c low hr.2]
    have : ((fun x => (e.table.handDict x).suited) ∘ cls) = fun k => ((numHands s r c low k : Nat) : Int) := by
      funext k; simp only [Function.comp, hsu, hnum]
    rw [this]
    exact (cast_sum KINDS _).symm
  · by_contra hx
    have := hmem _ hx
    rw [hsu, hnum] at this
    omega

/-- **C78**: the text of an evaluator lists the classes from best to worst, each once and none that has hands left out, and behind each the
part of all hands that are of this class, in percent, correctly rounded to four digits after the point. -/
theorem C78_frequencies_partial (hs : 1 ≤ s ∧ s ≤ 4) (hr : 1 ≤ r ∧ r ≤ 13) (hc : 1 ≤ c ∧ c ≤ 5) (hcard : c ≤ r * s)
    (ho : GoodOrder s r c low order) (hgood : s = 1 ∨ (3 ≤ c ∧ c ≤ r ∧ ¬ (s = 3 ∧ 4 ≤ c)))
    (he : Evaluator.new s r c m low order = .ok e) :
    ∃ l : List (HandKind × Nat),
      e.str = List.intercalate " > ".toList (l.map fun x => entryText x.1.name x.2) ∧
      l.map (fun x => x.1.name) = e.table.rankedHands.map (·.name) ∧ (l.map (·.1)).Nodup ∧
      (∀ k, 0 < numHands s r c low k → k ∈ l.map (·.1)) ∧
      ∀ x ∈ l, Rounded (frequency s r c low x.1 * 1000000) x.2 := by
  obtain ⟨h1, h2, h3, h4⟩ := total_eq hs hr hc hcard ho hgood he
  let kd : HandClass → HandKind := fun x => match x with
    | .straightFlush => .straightFlush | .fourKind => .fourKind | .fullHouse => .fullHouse | .flush => .flush
    | .straight => .straight | .threeKind => .threeKind | .twoPair => .twoPair | .pair => .pair | .highCard => .highCard
  have hkd : ∀ x, cls (kd x) = x := fun x => by cases x <;> rfl
  have hdk : ∀ k, kd (cls k) = k := fun k => by cases k <;> rfl
  refine ⟨e.table.rankedHands.map fun x =>
    (kd x, (roundHalfEven (((e.table.handDict x).suited : Rat) / e.total * 1000000)).toNat), ?_, ?_, ?_, ?_, ?_⟩
  · unfold Evaluator.str
    rw [join_eq, List.map_map]
    congr 1
    refine List.map_congr_left fun x _ => ?_
    simp only [Function.comp, entryText, percent4_eq]
    rw [← cls_name, hkd]
  · rw [List.map_map]
    refine List.map_congr_left fun x _ => ?_
    simp only [Function.comp]
    rw [← cls_name, hkd]
  · rw [List.map_map]
    refine h3.map fun a b hab => ?_
    simp only [Function.comp] at hab
    rw [← hkd a, ← hkd b, hab]
  · intro k hk
    rw [List.map_map]
    exact List.mem_map.2 ⟨cls k, h4 k hk, hdk k⟩
  · intro x hx
    obtain ⟨y, -, rfl⟩ := List.mem_map.1 hx
    simp only []
    have hq : ((e.table.handDict y).suited : Rat) / e.total * 1000000 = frequency s r c low (kd y) * 1000000 := by
      unfold frequency
      rw [h2, ← hkd y, h1, hkd y]
      push_cast
      rfl
    rw [hq]
    have h0 : 0 ≤ frequency s r c low (kd y) * 1000000 := by
      unfold frequency
      positivity
    have h5 := roundHalfEven_rounded (frequency s r c low (kd y) * 1000000)
    have h6 : 0 ≤ roundHalfEven (frequency s r c low (kd y) * 1000000) := by
      have h7 := abs_le.1 h5.1
      by_contra hneg
      have : ((roundHalfEven (frequency s r c low (kd y) * 1000000) : Int) : Rat) ≤ -1 := by
        exact_mod_cast (by omega : roundHalfEven (frequency s r c low (kd y) * 1000000) ≤ -1)
      linarith [h7.1, h7.2]
    have h8 : (((roundHalfEven (frequency s r c low (kd y) * 1000000)).toNat : Nat) : Int) =
        roundHalfEven (frequency s r c low (kd y) * 1000000) := Int.toNat_of_nonneg h6
    rw [h8]
    exact h5

end

/-! ## reading the text -/

theorem split_at {α : Type} {x : α} : ∀ {a b u v : List α}, x ∉ a → x ∉ b → a ++ x :: u = b ++ x :: v → a = b ∧ u = v
  | [], [], _, _, _, _, h => ⟨rfl, by simpa using h⟩
  | [], c :: b, _, _, _, hb, h => by
    simp only [List.nil_append, List.cons_append, List.cons.injEq] at h
    exact absurd (h.1 ▸ List.mem_cons_self) hb
  | c :: a, [], _, _, ha, _, h => by
    simp only [List.nil_append, List.cons_append, List.cons.injEq] at h
    exact absurd (h.1 ▸ List.mem_cons_self) ha
  | c :: a, d :: b, u, v, ha, hb, h => by
    simp only [List.cons_append, List.cons.injEq] at h
    have := split_at (fun hm => ha (List.mem_cons_of_mem _ hm)) (fun hm => hb (List.mem_cons_of_mem _ hm)) h.2
    exact ⟨by rw [h.1, this.1], this.2⟩

theorem name_no_paren (c : HandClass) : '(' ∉ c.name.toList ++ [' '] := by cases c <;> decide

theorem name_text_inj {c d : HandClass} (h : c.name.toList ++ [' '] = d.name.toList ++ [' ']) : c = d := by
  revert h; cases c <;> cases d <;> decide

theorem digit_table : ∀ n < 10, Nat.digitChar n ≠ ')' := by decide

theorem percentText_no_paren (n : Nat) : ')' ∉ percentText n := by
  have hd : ∀ n, digit n ≠ ')' := fun n => digit_table _ (by omega)
  intro hm
  unfold percentText at hm
  rcases List.mem_append.1 hm with hm | hm
  · have := Nat.isDigit_of_mem_toDigits (by decide) (by decide) hm
    exact absurd this (by decide)
  · simp only [List.mem_cons, List.not_mem_nil, or_false] at hm
    rcases hm with hm | hm | hm | hm | hm | hm
    · exact absurd hm (by decide)
    · exact hd _ hm.symm
    · exact hd _ hm.symm
    · exact hd _ hm.symm
    · exact hd _ hm.symm
    · exact absurd hm (by decide)

/-- the entries of a text, from the classes and the shares -/
theorem entries_inj (f g : HandClass → Rat) : ∀ l m : List HandClass,
    join " > ".toList (l.map fun c => c.name.toList ++ " (".toList ++ percent4 (f c) ++ ")".toList) =
      join " > ".toList (m.map fun c => c.name.toList ++ " (".toList ++ percent4 (g c) ++ ")".toList) → l = m := by
  have hd : ∀ (f : HandClass → Rat) c (l : List HandClass), ∃ rest,
      join " > ".toList ((c :: l).map fun c => c.name.toList ++ " (".toList ++ percent4 (f c) ++ ")".toList) =
        (c.name.toList ++ [' ']) ++ '(' :: (percent4 (f c) ++ ')' :: rest) ∧
      (l = [] ∧ rest = [] ∨ l ≠ [] ∧ rest = " > ".toList ++
        join " > ".toList (l.map fun c => c.name.toList ++ " (".toList ++ percent4 (f c) ++ ")".toList)) := by
    intro f c l
    cases l with
    | nil => exact ⟨[], by simp [join], .inl ⟨rfl, rfl⟩⟩
    | cons d l => exact ⟨_, by simp [join], .inr ⟨by simp, rfl⟩⟩
  intro l
  induction l with
  | nil =>
    intro m h
    cases m with
    | nil => rfl
    | cons d m =>
      obtain ⟨rest, h1, -⟩ := hd g d m
      rw [h1] at h
      simp [join] at h
  | cons c l ih =>
    intro m h
    cases m with
    | nil =>
      obtain ⟨rest, h1, -⟩ := hd f c l
      rw [h1] at h
      simp [join] at h
    | cons d m =>
      obtain ⟨r1, h1, k1⟩ := hd f c l
      obtain ⟨r2, h2, k2⟩ := hd g d m
      rw [h1, h2] at h
      obtain ⟨hn, hr⟩ := split_at (name_no_paren c) (name_no_paren d) h
      rw [percent4_eq, percent4_eq] at hr
      obtain ⟨-, hr⟩ := split_at (percentText_no_paren _) (percentText_no_paren _) hr
      rw [name_text_inj hn]
      rcases k1 with ⟨rfl, rfl⟩ | ⟨hl, rfl⟩ <;> rcases k2 with ⟨rfl, rfl⟩ | ⟨hm, rfl⟩
      · rfl
      · simp at hr
      · simp at hr
      · rw [ih m (List.append_cancel_left hr)]

/-- **C78**: two evaluators that say the same rank the same classes in the same order. -/
theorem C78_readable (e e' : Evaluator) (h : e.str = e'.str) : e.table.rankedHands = e'.table.rankedHands :=
  entries_inj _ _ _ _ h

/-! ## examples -/

/-- does the evaluator exist and say this? -/
def saysText (x : Except Err Evaluator) (t : String) : Bool :=
  match x with
  | .ok e => decide (e.str = t.toList)
  | .error _ => false

theorem saysText_iff {x : Except Err Evaluator} {t : String} (h : saysText x t = true) : ∃ e, x = .ok e ∧ e.str = t.toList := by
  cases x with
  | ok e => exact ⟨e, rfl, of_decide_eq_true h⟩
  | error _ => exact absurd h (by simp [saysText])

/-- a full deck and hands of five cards meet the conditions, and this is what their evaluator says -/
example : (∃ e, Evaluator.new 4 13 5 0 true none = .ok e ∧
    e.str = "straight flush (0.0015%) > four of a kind (0.0240%) > full house (0.1441%) > flush (0.1965%) > straight (0.3925%) > \
      three of a kind (2.1128%) > two pair (4.7539%) > pair (42.2569%) > high card (50.1177%)".toList) ∧
    GoodOrder 4 13 5 true none ∧ (4 = 1 ∨ (3 ≤ 5 ∧ 5 ≤ 13 ∧ ¬ (4 = 3 ∧ 4 ≤ 5))) :=
  ⟨saysText_iff (by decide +kernel), Or.inl rfl, by decide⟩

/-- **C78 fails for the shipped Leduc game** (two suits, three ranks, hands of two cards): of the 15 hands three are pairs, a fifth of
them, but the evaluator says it is a third. -/
theorem C78_false : (∃ e, Evaluator.new 2 3 2 0 true none = .ok e ∧ e.str = "pair (33.3333%) > high card (66.6667%)".toList) ∧
    frequency 2 3 2 true .pair = 1 / 5 := by
  refine ⟨saysText_iff (by decide +kernel), ?_⟩
  have h1 : numHands 2 3 2 true .pair = 3 := by
    rw [numHands_eq (by omega) (by omega) (by omega) (by omega) (by decide)]; decide +kernel
  unfold frequency
  rw [h1]
  norm_num [Nat.choose]

end Clubs

import Verif.Spec.Ascii
import Verif.Lemmas.Lists
import Verif.Lemmas.Deck

/-!
# Helper lemmas about decimal numbers and the picture
-/

namespace Clubs

open Spec

theorem digit_ne_comma {c : Char} (h : c.isDigit = true) : c ≠ ',' := by
  rintro rfl
  revert h
  decide

theorem digit_range {c : Char} (h : c.isDigit = true) : '0'.toNat ≤ c.toNat ∧ c.toNat ≤ '9'.toNat := by
  unfold Char.isDigit at h
  simp only [Bool.and_eq_true, decide_eq_true_eq, ge_iff_le] at h
  exact ⟨h.1, h.2⟩

theorem decimal_digit {n : Nat} {c : Char} (h : c ∈ decimal n) : c.isDigit = true :=
  Nat.isDigit_of_mem_toDigits (by decide) (by decide) h

theorem groupRev_filter (l : Str) (h : ∀ c ∈ l, c ≠ ',') : (groupRev l).filter (fun c => decide (c ≠ ',')) = l := by
  fun_induction groupRev l with
  | case1 a b c d rest ih =>
    have ih := ih (fun x hx => h x (by simp only [List.mem_cons] at hx ⊢; tauto))
    rw [List.filter_cons_of_pos (by simpa using h a (by simp)), List.filter_cons_of_pos (by simpa using h b (by simp)),
      List.filter_cons_of_pos (by simpa using h c (by simp)), List.filter_cons_of_neg (by simp), ih]
  | case2 l _ => exact List.filter_eq_self.2 (by simpa using h)

theorem groupRev_mem (l : Str) : ∀ c ∈ groupRev l, c = ',' ∨ c ∈ l := by
  fun_induction groupRev l with
  | case1 a b c d rest ih =>
    intro x hx
    simp only [List.mem_cons] at hx ih ⊢
    rcases hx with rfl | rfl | rfl | rfl | hx
    · simp
    · simp
    · simp
    · simp
    · rcases ih x hx with h | h <;> tauto
  | case2 l _ => intro x hx; exact .inr hx

theorem groupRev_comma (l : Str) (h : ∀ c ∈ l, c ≠ ',') :
    ∀ k, ∀ hk : k < (groupRev l).length, ((groupRev l)[k] = ',' ↔ k % 4 = 3) := by
  fun_induction groupRev l with
  | case1 a b c d rest ih =>
    have ih := ih (fun x hx => h x (by simp only [List.mem_cons] at hx ⊢; tauto))
    intro k hk
    match k, hk with
    | 0, _ => simpa using h a (by simp)
    | 1, _ => simpa using h b (by simp)
    | 2, _ => simpa using h c (by simp)
    | 3, _ => simp
    | k + 4, hk =>
      have := ih k (by simpa using hk)
      simp only [List.getElem_cons_succ]
      rw [this]
      omega
  | case2 l hl =>
    intro k hk
    have h3 : l.length ≤ 3 := by
      match l, hl with
      | [], _ => simp
      | [_], _ => simp
      | [_, _], _ => simp
      | [_, _, _], _ => simp
      | a :: b :: c :: d :: r, hl => exact absurd rfl (hl a b c d r)
    have := h l[k] (List.getElem_mem hk)
    constructor
    · intro hc; exact absurd hc this
    · intro hc; omega

theorem groupRev_last (l : Str) : (groupRev l).getLast? = l.getLast? := by
  fun_induction groupRev l with
  | case1 a b c d rest ih =>
    have : groupRev (d :: rest) ≠ [] := by
      intro hc
      have := congrArg List.getLast? hc
      rw [ih] at this
      simp at this
    rw [List.getLast?_cons_of_ne_nil (by simp), List.getLast?_cons_of_ne_nil (by simp),
      List.getLast?_cons_of_ne_nil (by simp), List.getLast?_cons_of_ne_nil this, ih]
    simp
  | case2 l _ => rfl

/-- no leading zeros -/
theorem decimal_head (n : Nat) : (decimal n).head? = some '0' → n = 0 := by
  unfold decimal
  induction n using Nat.strongRecOn with
  | _ n ih =>
    intro h
    rw [Nat.toDigits_eq_if (by decide)] at h
    split at h
    · rename_i hn
      simp only [List.head?_cons, Option.some.injEq] at h
      exact (by decide : ∀ m < 10, Nat.digitChar m = '0' → m = 0) n hn h
    · rename_i hn
      rw [List.head?_append_of_ne_nil _ Nat.toDigits_ne_nil] at h
      have := ih (n / 10) (by omega) h
      omega

theorem foldl_eq_ofDigitChars (l : Str) (k : Nat) :
    l.foldl (fun n c => 10 * n + (c.toNat - '0'.toNat)) k = Nat.ofDigitChars 10 l k := by
  rw [Nat.ofDigitChars_eq_foldl]

theorem commas_numeral (n : Nat) : Numeral (groupRev (decimal n).reverse).reverse n := by
  have hc : ∀ c ∈ (decimal n).reverse, c ≠ ',' := fun c hc => digit_ne_comma (decimal_digit (List.mem_reverse.1 hc))
  have hne : decimal n ≠ [] := Nat.toDigits_ne_nil
  have hl : (groupRev (decimal n).reverse).getLast? = (decimal n).head? := by
    rw [groupRev_last, List.getLast?_reverse]
  have hhead : ((groupRev (decimal n).reverse).reverse).head? = (decimal n).head? := by
    rw [List.head?_reverse, hl]
  refine ⟨?_, ?_, ?_, ?_, ?_, ?_⟩
  · intro h
    rw [h] at hhead
    simp only [List.head?_nil] at hhead
    exact hne (List.head?_eq_none_iff.1 hhead.symm)
  · intro c h
    rcases groupRev_mem _ c (List.mem_reverse.1 h) with h | h
    · exact .inl h
    · exact .inr (digit_range (decimal_digit (List.mem_reverse.1 h)))
  · unfold readNat
    rw [List.filter_reverse, groupRev_filter _ hc, List.reverse_reverse, foldl_eq_ofDigitChars]
    exact Nat.ofDigitChars_ten_toDigits
  · intro k hk
    have hk' : k < (groupRev (decimal n).reverse).length := by simpa using hk
    rw [← groupRev_comma _ hc k hk', List.getElem_reverse]
    simp only [List.length_reverse]
    have : (groupRev (decimal n).reverse).length - 1 - ((groupRev (decimal n).reverse).length - 1 - k) = k := by omega
    simp only [this]
  · rw [hhead]
    intro h
    have := List.mem_of_mem_head? (l := decimal n) (a := ',') h
    exact digit_ne_comma (decimal_digit this) rfl
  · rw [hhead]
    intro h
    have := decimal_head n h
    subst this
    rfl

theorem commaFmt_amount (i : Int) : Amount (commaFmt i) i := by
  unfold Amount commaFmt
  simp only []
  split
  · exact ⟨_, rfl, commas_numeral _⟩
  · exact commas_numeral _

/-! ## the fields of the picture -/

theorem lookup_append' (k : String) (l s : StrConfig) :
    List.lookup k (l ++ s) = (List.lookup k l).or (List.lookup k s) := by
  induction l with
  | nil => simp
  | cons x l ih =>
    obtain ⟨a, b⟩ := x
    rw [List.cons_append, List.lookup_cons, List.lookup_cons]
    split
    · simp
    · exact ih

theorem lookup_foldl_none {α : Type} (f : α → StrConfig) (k : String) (L : List α) (s : StrConfig)
    (h : ∀ x ∈ L, List.lookup k (f x) = none) :
    List.lookup k (L.foldl (fun s x => f x ++ s) s) = List.lookup k s := by
  induction L generalizing s with
  | nil => rfl
  | cons x L ih =>
    rw [List.foldl_cons, ih _ (fun y hy => h y (by simp [hy])), lookup_append', h x (by simp), Option.none_or]

theorem lookup_foldl_some {α : Type} (f : α → StrConfig) (k : String) (v : Str) (L : List α) (s : StrConfig) (x : α)
    (hx : x ∈ L) (hv : List.lookup k (f x) = some v)
    (h : ∀ y ∈ L, ∀ w, List.lookup k (f y) = some w → w = v) :
    List.lookup k (L.foldl (fun s x => f x ++ s) s) = some v := by
  induction L using List.reverseRecOn with
  | nil => simp at hx
  | append_singleton L y ih =>
    rw [List.foldl_append, List.foldl_cons, List.foldl_nil, lookup_append']
    cases hy : List.lookup k (f y) with
    | some w => rw [h y (by simp) w hy]; rfl
    | none =>
      rw [Option.none_or]
      apply ih
      · simp only [List.mem_append, List.mem_singleton] at hx
        rcases hx with hx | rfl
        · exact hx
        · rw [hv] at hy; cases hy
      · intro z hz
        exact h z (by simp [hz])

/-- the names of the fields of different seats differ -/
theorem keys_p : ∀ p < 10, ∀ q < 10, (("p" ++ toString p == "p" ++ toString q) = (p == q)) ∧
    (("p" ++ toString p == "p" ++ toString q ++ "c") = false) ∧ (("p" ++ toString p == "a" ++ toString q) = false) ∧
    (("p" ++ toString p ++ "c" == "p" ++ toString q ++ "c") = (p == q)) ∧
    (("p" ++ toString p ++ "c" == "p" ++ toString q) = false) ∧
    (("p" ++ toString p ++ "c" == "a" ++ toString q) = false) := by decide +kernel

theorem keys_ab : ∀ p < 10, ∀ q < 10, (("a" ++ toString p == "a" ++ toString q) = (p == q)) ∧
    (("a" ++ toString p == "p" ++ toString q ++ "c") = false) ∧ (("a" ++ toString p == "p" ++ toString q) = false) ∧
    (("a" ++ toString p == "b" ++ toString q) = false) ∧
    (("b" ++ toString p == "b" ++ toString q) = (p == q)) ∧ (("b" ++ toString p == "a" ++ toString q) = false) ∧
    (("b" ++ toString p == "p" ++ toString q ++ "c") = false) ∧
    (("b" ++ toString p == "p" ++ toString q) = false) := by decide +kernel

theorem keys_other : ∀ q < 10, ∀ k ∈ ["ccs", "pot", "win", "action"], ((k == "a" ++ toString q) = false) ∧
    ((k == "b" ++ toString q) = false) ∧ ((k == "p" ++ toString q) = false) ∧ ((k == "p" ++ toString q ++ "c") = false) ∧
    (("a" ++ toString q == k) = false) ∧ (("b" ++ toString q == k) = false) ∧ (("p" ++ toString q == k) = false) ∧
    (("p" ++ toString q ++ "c" == k) = false) := by decide +kernel

/-- the entries of one seat -/
def seatOf (done : Bool) (x : Str × Int × Nat × Bool) : StrConfig := seatEntries done x.1 x.2.1 x.2.2.1 x.2.2.2

/-- the payout entry of one seat -/
def payOf (x : Int × Nat) : StrConfig := [("p" ++ toString x.2 ++ "c", commaFmt x.1)]

/-- the entries before those of the seats -/
def topOf (v : Viewer) (c : RenderConfig) : StrConfig :=
  ("b" ++ toString (v.pos c.button), "D ".toList) ::
    ((if !c.done then
        [("a" ++ toString (v.pos (c.action.getD (v.playerPos.length - 1))), "X".toList), ("pot", commaFmt c.pot)]
      else [("pot", "0".toList)]) ++
      [("ccs", "[".toList ++ join ",".toList (c.communityCards.map Card.str ++
        List.replicate (v.numCommunityCards - (c.communityCards.map Card.str).length).toNat "--".toList) ++ "]".toList)])

/-- what there is about the seats -/
def seatsOf (v : Viewer) (c : RenderConfig) : List (Str × Int × Nat × Bool) :=
  (parsePlayers v c c.done c.action).zip (c.streetCommits.zip (v.playerPos.zip c.allIn))

theorem strConfig_eq (v : Viewer) (c : RenderConfig) : strConfig v c =
    ("win", parseWinString c c.done) :: ("action", parseActionString c c.done) ::
      (if c.done then (c.payouts.zip v.playerPos).foldl (fun s x => payOf x ++ s)
          ((seatsOf v c).foldl (fun s x => seatOf c.done x ++ s) (topOf v c))
        else (seatsOf v c).foldl (fun s x => seatOf c.done x ++ s) (topOf v c)) := by
  unfold strConfig topOf seatsOf
  cases c.done <;> rfl

/-- a picture has room for all seats -/
structure PicOk (v : Viewer) (c : RenderConfig) (n : Nat) : Prop where
  pos : v.playerPos.length = n
  nodup : v.playerPos.Nodup
  lt : ∀ p ∈ v.playerPos, p < 10
  hole : c.holeCards.length = n
  «stacks» : c.stacks.length = n
  active : c.active.length = n
  allIn : c.allIn.length = n
  street : c.streetCommits.length = n
  pays : c.payouts.length = n
  button : c.button < n
  action : ∀ a, c.action = some a → a < n

theorem PicOk.pos_lt {v : Viewer} {c : RenderConfig} {n : Nat} (h : PicOk v c n) {i : Nat} (hi : i < n) : v.pos i < 10 := by
  unfold Viewer.pos
  rw [getD_eq _ _ _ (by rw [h.pos]; exact hi)]
  exact h.lt _ (List.getElem_mem _)

theorem PicOk.pos_inj {v : Viewer} {c : RenderConfig} {n : Nat} (h : PicOk v c n) {i j : Nat} (hi : i < n) (hj : j < n)
    (he : v.pos i = v.pos j) : i = j := by
  unfold Viewer.pos at he
  rw [getD_eq _ _ _ (by rw [h.pos]; exact hi), getD_eq _ _ _ (by rw [h.pos]; exact hj)] at he
  exact (h.nodup.getElem_inj_iff).1 he

theorem parsePlayers_length {v : Viewer} {c : RenderConfig} {n : Nat} (h : PicOk v c n) (done : Bool) (a : Option Nat) :
    (parsePlayers v c done a).length = n := by
  simp [parsePlayers, h.hole, h.stacks, h.active]

theorem parsePlayers_get {v : Viewer} {c : RenderConfig} {n : Nat} (h : PicOk v c n) (done : Bool) (a : Option Nat) {i : Nat}
    (hi : i < n) : (parsePlayers v c done a).getD i [] =
      playerString v done a i (c.holeCards.getD i []) (c.stacks.getD i 0) (c.active.getD i false) := by
  rw [getD_eq _ _ _ (by rw [parsePlayers_length h]; exact hi), getD_eq _ _ _ (by rw [h.hole]; exact hi),
    getD_eq _ _ _ (by rw [h.stacks]; exact hi), getD_eq _ _ _ (by rw [h.active]; exact hi)]
  simp [parsePlayers]

/-- the entries of seat `i` -/
def seatAt (v : Viewer) (c : RenderConfig) (i : Nat) : Str × Int × Nat × Bool :=
  ((parsePlayers v c c.done c.action).getD i [], c.streetCommits.getD i 0, v.pos i, c.allIn.getD i false)

theorem seatsOf_mem {v : Viewer} {c : RenderConfig} {n : Nat} (h : PicOk v c n) (x : Str × Int × Nat × Bool) :
    x ∈ seatsOf v c ↔ ∃ i < n, x = seatAt v c i := by
  have hp := parsePlayers_length h c.done c.action
  have hlen : (seatsOf v c).length = n := by
    simp [seatsOf, hp, h.street, h.pos, h.allIn]
  have hget : ∀ i, ∀ hi : i < n, (seatsOf v c)[i]'(by omega) = seatAt v c i := by
    intro i hi
    unfold seatAt Viewer.pos
    rw [getD_eq _ _ _ (by omega), getD_eq _ _ _ (by rw [h.street]; exact hi), getD_eq _ _ _ (by rw [h.pos]; exact hi),
      getD_eq _ _ _ (by rw [h.allIn]; exact hi)]
    simp [seatsOf]
  rw [List.mem_iff_getElem]
  constructor
  · rintro ⟨i, hi, rfl⟩
    exact ⟨i, by omega, hget i (by omega)⟩
  · rintro ⟨i, hi, rfl⟩
    exact ⟨i, by omega, hget i hi⟩

theorem pays_mem {v : Viewer} {c : RenderConfig} {n : Nat} (h : PicOk v c n) (x : Int × Nat) :
    x ∈ c.payouts.zip v.playerPos ↔ ∃ i < n, x = (c.payouts.getD i 0, v.pos i) := by
  have hlen : (c.payouts.zip v.playerPos).length = n := by simp [h.pays, h.pos]
  have hget : ∀ i, ∀ hi : i < n, (c.payouts.zip v.playerPos)[i]'(by omega) = (c.payouts.getD i 0, v.pos i) := by
    intro i hi
    unfold Viewer.pos
    rw [getD_eq _ _ _ (by rw [h.pays]; exact hi), getD_eq _ _ _ (by rw [h.pos]; exact hi)]
    simp
  rw [List.mem_iff_getElem]
  constructor
  · rintro ⟨i, hi, rfl⟩
    exact ⟨i, by omega, hget i (by omega)⟩
  · rintro ⟨i, hi, rfl⟩
    exact ⟨i, by omega, hget i hi⟩

section fields

variable {v : Viewer} {c : RenderConfig} {n i : Nat}

/-- a field with a name like `p3` -/
theorem get_p (h : PicOk v c n) (hi : i < n) : (strConfig v c).get ("p" ++ toString (v.pos i)) =
    playerString v c.done c.action i (c.holeCards.getD i []) (c.stacks.getD i 0) (c.active.getD i false) := by
  have hp := h.pos_lt hi
  obtain ⟨-, -, -, -, -, -, k1, -⟩ := keys_other _ hp "win" (by simp)
  obtain ⟨-, -, -, -, -, -, k2, -⟩ := keys_other _ hp "action" (by simp)
  have look : ∀ j < n, List.lookup ("p" ++ toString (v.pos i)) (seatOf c.done (seatAt v c j)) =
      if i = j then some ((parsePlayers v c c.done c.action).getD j []) else none := by
    intro j hj
    obtain ⟨e1, e2, e3, -⟩ := keys_p _ hp _ (h.pos_lt hj)
    have hij : (v.pos i == v.pos j) = decide (i = j) := by
      by_cases hx : i = j
      · subst hx; simp
      · have : v.pos i ≠ v.pos j := fun he => hx (h.pos_inj hi hj he)
        simp [hx, this]
    rw [hij] at e1
    show List.lookup _ (seatEntries c.done ((parsePlayers v c c.done c.action).getD j []) (c.streetCommits.getD j 0)
      (v.pos j) (c.allIn.getD j false)) = _
    unfold seatEntries
    rw [lookup_append', List.lookup_cons, e2, List.lookup_cons, e1]
    by_cases ha : (c.allIn.getD j false && !c.done) = true
    · rw [if_pos ha, List.lookup_cons, e3]
      by_cases hx : i = j <;> simp [hx]
    · rw [if_neg ha]
      by_cases hx : i = j <;> simp [hx]
  have main : ∀ s, List.lookup ("p" ++ toString (v.pos i)) ((seatsOf v c).foldl (fun s x => seatOf c.done x ++ s) s) =
      some ((parsePlayers v c c.done c.action).getD i []) := by
    intro s
    apply lookup_foldl_some (seatOf c.done) _ _ _ _ (seatAt v c i) ((seatsOf_mem h _).2 ⟨i, hi, rfl⟩)
    · rw [look i hi, if_pos rfl]
    · intro y hy w hw
      obtain ⟨j, hj, rfl⟩ := (seatsOf_mem h _).1 hy
      rw [look j hj] at hw
      split at hw
      · rename_i hx; subst hx; cases hw; rfl
      · cases hw
  unfold StrConfig.get
  rw [strConfig_eq, List.lookup_cons, k1, List.lookup_cons, k2, ← parsePlayers_get h c.done c.action hi]
  simp only []
  split
  · rw [lookup_foldl_none payOf, main]; · rfl
    intro x hx
    obtain ⟨j, hj, rfl⟩ := (pays_mem h _).1 hx
    obtain ⟨-, e2, -⟩ := keys_p _ hp _ (h.pos_lt hj)
    unfold payOf
    rw [List.lookup_cons, e2]; rfl
  · rw [main]; rfl

/-- a field with a name like `p3c` -/
theorem get_pc (h : PicOk v c n) (hi : i < n) : (strConfig v c).get ("p" ++ toString (v.pos i) ++ "c") =
    commaFmt (if c.done then c.payouts.getD i 0 else c.streetCommits.getD i 0) := by
  have hp := h.pos_lt hi
  obtain ⟨-, -, -, -, -, -, -, k1⟩ := keys_other _ hp "win" (by simp)
  obtain ⟨-, -, -, -, -, -, -, k2⟩ := keys_other _ hp "action" (by simp)
  have key : ∀ j < n, (("p" ++ toString (v.pos i) ++ "c" == "p" ++ toString (v.pos j) ++ "c") = decide (i = j)) := by
    intro j hj
    obtain ⟨-, -, -, e4, -⟩ := keys_p _ hp _ (h.pos_lt hj)
    rw [e4]
    by_cases hx : i = j
    · subst hx; simp
    · have : v.pos i ≠ v.pos j := fun he => hx (h.pos_inj hi hj he)
      simp [hx, this]
  have look : ∀ j < n, List.lookup ("p" ++ toString (v.pos i) ++ "c") (seatOf c.done (seatAt v c j)) =
      if i = j then some (commaFmt (c.streetCommits.getD j 0)) else none := by
    intro j hj
    obtain ⟨-, -, -, -, e5, e6⟩ := keys_p _ hp _ (h.pos_lt hj)
    have e4 := key j hj
    show List.lookup _ (seatEntries c.done ((parsePlayers v c c.done c.action).getD j []) (c.streetCommits.getD j 0)
      (v.pos j) (c.allIn.getD j false)) = _
    unfold seatEntries
    rw [lookup_append', List.lookup_cons, e4, List.lookup_cons, e5]
    by_cases ha : (c.allIn.getD j false && !c.done) = true
    · rw [if_pos ha, List.lookup_cons, e6]
      by_cases hx : i = j <;> simp [hx]
    · rw [if_neg ha]
      by_cases hx : i = j <;> simp [hx]
  unfold StrConfig.get
  rw [strConfig_eq, List.lookup_cons, k1, List.lookup_cons, k2]
  simp only []
  split
  · have look2 : ∀ j < n, List.lookup ("p" ++ toString (v.pos i) ++ "c") (payOf (c.payouts.getD j 0, v.pos j)) =
        if i = j then some (commaFmt (c.payouts.getD j 0)) else none := by
      intro j hj
      unfold payOf
      rw [List.lookup_cons, key j hj]
      by_cases hx : i = j <;> simp [hx]
    rw [lookup_foldl_some payOf _ (commaFmt (c.payouts.getD i 0)) _ _ _ ((pays_mem h _).2 ⟨i, hi, rfl⟩)]
    · rfl
    · rw [look2 i hi, if_pos rfl]
    · intro y hy w hw
      obtain ⟨j, hj, rfl⟩ := (pays_mem h _).1 hy
      rw [look2 j hj] at hw
      split at hw
      · rename_i hx; subst hx; cases hw; rfl
      · cases hw
  · rw [lookup_foldl_some (seatOf c.done) _ (commaFmt (c.streetCommits.getD i 0)) _ _ _ ((seatsOf_mem h _).2 ⟨i, hi, rfl⟩)]
    · rfl
    · rw [look i hi, if_pos rfl]
    · intro y hy w hw
      obtain ⟨j, hj, rfl⟩ := (seatsOf_mem h _).1 hy
      rw [look j hj] at hw
      split at hw
      · rename_i hx; subst hx; cases hw; rfl
      · cases hw

/-- a name that no seat uses -/
theorem get_top (h : PicOk v c n) (k : String) (h1 : (k == "win") = false) (h2 : (k == "action") = false)
    (h3 : ∀ q < 10, ((k == "a" ++ toString q) = false) ∧ ((k == "p" ++ toString q) = false) ∧
      ((k == "p" ++ toString q ++ "c") = false)) :
    (strConfig v c).get k = StrConfig.get (topOf v c) k := by
  unfold StrConfig.get
  rw [strConfig_eq, List.lookup_cons, h1, List.lookup_cons, h2]
  simp only []
  have h4 : ∀ s, List.lookup k ((seatsOf v c).foldl (fun s x => seatOf c.done x ++ s) s) = List.lookup k s := by
    intro s
    apply lookup_foldl_none (seatOf c.done)
    intro x hx
    obtain ⟨j, hj, rfl⟩ := (seatsOf_mem h _).1 hx
    obtain ⟨e1, e2, e3⟩ := h3 _ (h.pos_lt hj)
    show List.lookup _ (seatEntries c.done ((parsePlayers v c c.done c.action).getD j []) (c.streetCommits.getD j 0)
      (v.pos j) (c.allIn.getD j false)) = _
    unfold seatEntries
    rw [lookup_append', List.lookup_cons, e3, List.lookup_cons, e2]
    split
    · rw [List.lookup_cons, e1]; rfl
    · rfl
  split
  · rw [lookup_foldl_none payOf, h4]
    intro x hx
    obtain ⟨j, hj, rfl⟩ := (pays_mem h _).1 hx
    obtain ⟨-, -, e3⟩ := h3 _ (h.pos_lt hj)
    unfold payOf
    rw [List.lookup_cons, e3]; rfl
  · rw [h4]

theorem get_b (h : PicOk v c n) (hi : i < n) :
    (strConfig v c).get ("b" ++ toString (v.pos i)) = if i = c.button then "D ".toList else [] := by
  have hp := h.pos_lt hi
  obtain ⟨-, -, -, -, -, k1, -, -⟩ := keys_other _ hp "win" (by simp)
  obtain ⟨-, -, -, -, -, k2, -, -⟩ := keys_other _ hp "action" (by simp)
  obtain ⟨-, -, -, -, -, k3, -, -⟩ := keys_other _ hp "pot" (by simp)
  obtain ⟨-, -, -, -, -, k4, -, -⟩ := keys_other _ hp "ccs" (by simp)
  rw [get_top h _ k1 k2 (fun q hq => ⟨(keys_ab _ hp q hq).2.2.2.2.2.1, (keys_ab _ hp q hq).2.2.2.2.2.2.2,
    (keys_ab _ hp q hq).2.2.2.2.2.2.1⟩)]
  unfold StrConfig.get topOf
  have e := (keys_ab _ hp _ (h.pos_lt h.button)).2.2.2.2.1
  have hij : (v.pos i == v.pos c.button) = decide (i = c.button) := by
    by_cases hx : i = c.button
    · subst hx; simp
    · have : v.pos i ≠ v.pos c.button := fun he => hx (h.pos_inj hi h.button he)
      simp [hx, this]
  rw [hij] at e
  rw [List.lookup_cons, e]
  by_cases hx : i = c.button
  · simp [hx]
  · simp only [hx, decide_false, if_false]
    rw [lookup_append', List.lookup_cons, k4]
    have hl : v.pos (c.action.getD (v.playerPos.length - 1)) < 10 := by
      cases ha : c.action with
      | some a => exact h.pos_lt (h.action a ha)
      | none => exact h.pos_lt (by show v.playerPos.length - 1 < n; rw [h.pos]; have := h.button; omega)
    have e2 := (keys_ab _ hp _ hl).2.2.2.2.2.1
    split
    · rw [List.lookup_cons, e2, List.lookup_cons, k3]; rfl
    · rw [List.lookup_cons, k3]; rfl

theorem get_a (h : PicOk v c n) (hi : i < n) : (strConfig v c).get ("a" ++ toString (v.pos i)) =
    if c.done then [] else if c.allIn.getD i false then "A".toList
    else if i = c.action.getD (n - 1) then "X".toList else [] := by
  have hp := h.pos_lt hi
  obtain ⟨-, -, -, -, k1, -, -, -⟩ := keys_other _ hp "win" (by simp)
  obtain ⟨-, -, -, -, k2, -, -, -⟩ := keys_other _ hp "action" (by simp)
  obtain ⟨-, -, -, -, k3, -, -, -⟩ := keys_other _ hp "pot" (by simp)
  obtain ⟨-, -, -, -, k4, -, -, -⟩ := keys_other _ hp "ccs" (by simp)
  have ha' : c.action.getD (n - 1) < n := by
    cases ha : c.action with
    | some a => exact h.action a ha
    | none => show n - 1 < n; have := h.button; omega
  have key : ∀ j < n, (("a" ++ toString (v.pos i) == "a" ++ toString (v.pos j)) = decide (i = j)) := by
    intro j hj
    rw [(keys_ab _ hp _ (h.pos_lt hj)).1]
    by_cases hx : i = j
    · subst hx; simp
    · have : v.pos i ≠ v.pos j := fun he => hx (h.pos_inj hi hj he)
      simp [hx, this]
  have look : ∀ j < n, List.lookup ("a" ++ toString (v.pos i)) (seatOf c.done (seatAt v c j)) =
      if i = j ∧ (c.allIn.getD j false && !c.done) = true then some "A".toList else none := by
    intro j hj
    obtain ⟨-, e2, e3, -⟩ := keys_ab _ hp _ (h.pos_lt hj)
    have e1 := key j hj
    show List.lookup _ (seatEntries c.done ((parsePlayers v c c.done c.action).getD j []) (c.streetCommits.getD j 0)
      (v.pos j) (c.allIn.getD j false)) = _
    unfold seatEntries
    rw [lookup_append', List.lookup_cons, e2, List.lookup_cons, e3]
    by_cases ha : (c.allIn.getD j false && !c.done) = true
    · rw [if_pos ha, List.lookup_cons, e1]
      by_cases hx : i = j
      · rw [if_pos ⟨hx, ha⟩]; simp [hx]
      · rw [if_neg (fun hh => hx hh.1)]; simp [hx]
    · rw [if_neg ha, if_neg (fun hh => ha hh.2)]
      rfl
  have htop : List.lookup ("a" ++ toString (v.pos i)) (topOf v c) =
      if c.done = false ∧ i = c.action.getD (n - 1) then some "X".toList else none := by
    have e := (keys_ab _ hp _ (h.pos_lt h.button)).2.2.2.1
    unfold topOf
    rw [List.lookup_cons, e]
    simp only []
    rw [lookup_append', List.lookup_cons, k4, h.pos]
    cases hd : c.done with
    | true =>
      simp only [Bool.not_true, Bool.false_eq_true, if_false]
      rw [List.lookup_cons, k3]
      simp
    | false =>
      simp only [Bool.not_false, if_true]
      rw [List.lookup_cons, key _ ha', List.lookup_cons, k3]
      by_cases hx : i = c.action.getD (n - 1) <;> simp [hx]
  unfold StrConfig.get
  rw [strConfig_eq, List.lookup_cons, k1, List.lookup_cons, k2]
  simp only []
  cases hd : c.done with
  | true =>
    simp only [if_true]
    rw [lookup_foldl_none payOf]
    · rw [lookup_foldl_none (seatOf true), htop, hd]
      · simp
      · intro x hx
        obtain ⟨j, hj, rfl⟩ := (seatsOf_mem h _).1 hx
        have := look j hj
        rw [hd] at this
        rw [this]
        simp
    · intro x hx
      obtain ⟨j, hj, rfl⟩ := (pays_mem h _).1 hx
      unfold payOf
      rw [List.lookup_cons, (keys_ab _ hp _ (h.pos_lt hj)).2.1]; rfl
  | false =>
    simp only [Bool.false_eq_true, if_false]
    rw [hd] at look
    by_cases ha : c.allIn.getD i false = true
    · rw [if_pos ha, lookup_foldl_some (seatOf false) _ "A".toList _ _ _ ((seatsOf_mem h _).2 ⟨i, hi, rfl⟩)]
      · rfl
      · rw [look i hi, if_pos ⟨rfl, by rw [ha]; rfl⟩]
      · intro y hy w hw
        obtain ⟨j, hj, rfl⟩ := (seatsOf_mem h _).1 hy
        rw [look j hj] at hw
        split at hw
        · cases hw; rfl
        · cases hw
    · rw [if_neg ha, lookup_foldl_none (seatOf false), htop, hd]
      · by_cases hx : i = c.action.getD (n - 1) <;> simp [hx]
      · intro x hx
        obtain ⟨j, hj, rfl⟩ := (seatsOf_mem h _).1 hx
        rw [look j hj, if_neg]
        rintro ⟨rfl, h2⟩
        simp only [Bool.not_false, Bool.and_true] at h2
        exact ha h2

theorem get_pot (h : PicOk v c n) :
    (strConfig v c).get "pot" = if c.done then "0".toList else commaFmt c.pot := by
  rw [get_top h "pot" (by decide) (by decide) (fun q hq => by
    obtain ⟨e1, -, e3, e4, -⟩ := keys_other q hq "pot" (by simp); exact ⟨e1, e3, e4⟩)]
  obtain ⟨-, e2, -⟩ := keys_other _ (h.pos_lt h.button) "pot" (by simp)
  have hl : v.pos (c.action.getD (v.playerPos.length - 1)) < 10 := by
    cases ha : c.action with
    | some a => exact h.pos_lt (h.action a ha)
    | none => exact h.pos_lt (by show v.playerPos.length - 1 < n; rw [h.pos]; have := h.button; omega)
  obtain ⟨e1, -⟩ := keys_other _ hl "pot" (by simp)
  unfold StrConfig.get topOf
  rw [List.lookup_cons, e2]
  cases c.done with
  | true => simp
  | false =>
    simp only [Bool.not_false, if_true, List.cons_append]
    rw [List.lookup_cons, e1]
    simp

theorem get_ccs (h : PicOk v c n) :
    (strConfig v c).get "ccs" = "[".toList ++ join ",".toList (c.communityCards.map Card.str ++
        List.replicate (v.numCommunityCards - (c.communityCards.map Card.str).length).toNat "--".toList) ++ "]".toList := by
  rw [get_top h "ccs" (by decide) (by decide) (fun q hq => by
    obtain ⟨e1, -, e3, e4, -⟩ := keys_other q hq "ccs" (by simp); exact ⟨e1, e3, e4⟩)]
  obtain ⟨-, e2, -⟩ := keys_other _ (h.pos_lt h.button) "ccs" (by simp)
  have hl : v.pos (c.action.getD (v.playerPos.length - 1)) < 10 := by
    cases ha : c.action with
    | some a => exact h.pos_lt (h.action a ha)
    | none => exact h.pos_lt (by show v.playerPos.length - 1 < n; rw [h.pos]; have := h.button; omega)
  obtain ⟨e1, -⟩ := keys_other _ hl "ccs" (by simp)
  unfold StrConfig.get topOf
  rw [List.lookup_cons, e2]
  cases c.done with
  | true => simp [List.lookup_cons]
  | false =>
    simp only [Bool.not_false, if_true, List.cons_append]
    rw [List.lookup_cons, e1]
    simp [List.lookup_cons]

/-- every field of the template is part of the picture -/
theorem format_infix (s : StrConfig) (key : String) (al : Align) (w : Nat) (T : List Seg) (h : Seg.field key al w ∈ T) :
    pad al w (s.get key) <:+: formatTable s T := by
  induction T with
  | nil => simp at h
  | cons x T ih =>
    simp only [List.mem_cons] at h
    rcases h with rfl | h
    · exact ⟨[], formatTable s T, by simp [formatTable]⟩
    · have := ih h
      cases x with
      | lit t => exact this.trans ⟨t.toList, [], by simp [formatTable]⟩
      | field k a m => exact this.trans ⟨pad a m (s.get k), [], by simp [formatTable]⟩

theorem infix_pad (al : Align) (w : Nat) (s : Str) : s <:+: pad al w s := by
  unfold pad
  cases al with
  | left => exact ⟨[], List.replicate (w - s.length) ' ', rfl⟩
  | right => exact ⟨List.replicate (w - s.length) ' ', [], by simp⟩
  | center => exact ⟨_, _, rfl⟩

end fields

end Clubs

import Verif.Lemmas.Ascii
import Verif.Lemmas.Config
import Verif.Lemmas.View
import Verif.Lemmas.Play
import Verif.Props.Dealing
import Verif.Props.Flow
import Verif.Props.Secrecy

/-!
# C49, C50, C55, C56, C57: the ASCII picture, exceptions of `step`
-/

namespace Clubs

open Spec

variable {S : List Int} {d d' : Dealer} {bet : PyNum} {out : StepOut} {s : Str}

/-! ## C49 -/

/-- **C49**: what is printed for an amount is its decimal representation, with a minus sign if it is negative, without
leading zeros, with a comma in front of every group of three digits and nowhere else. -/
theorem C49_amount (i : Int) : Amount (commaFmt i) i := commaFmt_amount i

/-- **C49**: a text is the representation of at most one amount. -/
theorem C49_unique {i j : Int} (hi : Amount s i) (hj : Amount s j) : i = j := by
  have noMinus : ∀ {t : Str} {n : Nat}, ¬ Numeral ('-' :: t) n := by
    intro t n h
    rcases h.chars '-' (by simp) with h | h
    · cases h
    · revert h; decide
  unfold Amount at hi hj
  split at hi <;> split at hj
  · obtain ⟨t, rfl, h1⟩ := hi
    obtain ⟨u, hu, h2⟩ := hj
    cases hu
    have := h1.value.symm.trans h2.value
    omega
  · obtain ⟨t, rfl, -⟩ := hi
    exact absurd hj noMinus
  · obtain ⟨t, rfl, -⟩ := hj
    exact absurd hi noMinus
  · have := hi.value.symm.trans hj.value
    omega

example : Amount "-1,234,567".toList (-1234567) := C49_amount (-1234567)

/-! ## C57 -/

theorem reachable_players (h : Reachable d) : 2 ≤ d.cfg.numPlayers ∧ d.cfg.numPlayers ≤ 10 := by
  induction h with
  | new hs h =>
    unfold Dealer.new at h
    simp only [bind, Except.bind, pure, Except.pure] at h
    repeat' (split at h; · simp at h)
    rename_i p hp
    simp only [Except.ok.injEq] at h
    subst h
    split at hp
    · rename_i q hq
      exact (posDict_iff _).1 ⟨q, hq⟩
    · cases hp
  | reset rb rs hs h ih => rw [reset_cfg]; exact ih
  | step bet h ih => rw [step_cfg]; exact ih
  | trick h hp ht ih => exact ih
  | untrick h ih => exact ih

theorem posDict_ok : ∀ n < 11, 2 ≤ n → ((dictGet POS_DICT n).getD []).length = n ∧ ((dictGet POS_DICT n).getD []).Nodup ∧
    ∀ p ∈ (dictGet POS_DICT n).getD [], p < 10 := by decide +kernel

theorem inHand_seated_hole (h : InHand S d) : Seated d ∧ d.holeCards.length = d.cfg.numPlayers := by
  rcases live_of_running h with ⟨hl, -⟩ | ⟨e, p, rfl, hl, hp, -⟩
  · exact ⟨hl.seated, hl.holeLen⟩
  · exact ⟨settle_seated hl.seated (payouts_length hl.seated hp), hl.holeLen⟩

theorem picOk (h : InHand S d) (hr : Reachable d) {c : RenderConfig} (hc : d.renderConfig = .ok c) :
    PicOk d.viewer c d.cfg.numPlayers := by
  obtain ⟨hs, hh⟩ := inHand_seated_hole h
  obtain ⟨h2, h10⟩ := reachable_players hr
  obtain ⟨p1, p2, p3⟩ := posDict_ok d.cfg.numPlayers (by omega) h2
  unfold Dealer.renderConfig at hc
  split at hc
  · cases hc
  · rename_i p hp
    cases hc
    exact ⟨p1, p2, p3, hh, hs.stacks, hs.active, by simp [hs.active, hs.stacks], hs.streetCommits, payouts_length hs hp,
      hs.button, hs.action⟩

theorem done_iff (hs : Seated d) : d.done.all id = true ↔ AllDone d := done_all_iff hs

/-- **C57**: in every state of a hand, the picture is the template filled in so that
* the two fields of a seat give its number, its cards if they may be seen, its stack, and its bet in this street (or, when
  nothing is left to decide, its payout);
* the dealer marker is at the seat of the button and only there;
* as long as something is to be decided, players who are in without chips are marked `A`, of the others the one to act is
  marked `X`, and nobody else has a marker; the pot is given;
* the board shows the community cards and a place for each one to come. -/
theorem C57_picture (h : InHand S d) (hr : Reachable d) (hs : d.str = .ok s) :
    ∃ (F : StrConfig) (pays : List Int), s = formatTable F TABLE ∧ d.payouts = .ok pays ∧
    (∀ i < d.cfg.numPlayers,
      SeatText d i (F.get ("p" ++ toString (d.viewer.pos i))) ∧
      (AllDone d → Amount (F.get ("p" ++ toString (d.viewer.pos i) ++ "c")) (pays.getD i 0)) ∧
      (¬ AllDone d → Amount (F.get ("p" ++ toString (d.viewer.pos i) ++ "c")) (streetBet d i)) ∧
      F.get ("b" ++ toString (d.viewer.pos i)) = (if i = d.button then "D ".toList else []) ∧
      (AllDone d → F.get ("a" ++ toString (d.viewer.pos i)) = []) ∧
      (∀ a, d.action = some a → ¬ AllDone d → F.get ("a" ++ toString (d.viewer.pos i)) =
        if isIn d i ∧ stack d i = 0 then "A".toList else if i = a then "X".toList else [])) ∧
    (¬ AllDone d → Amount (F.get "pot") d.pot) ∧ (AllDone d → F.get "pot" = "0".toList) ∧
    F.get "ccs" = "[".toList ++ join ",".toList (d.communityCards.map Card.str ++
      List.replicate (d.cfg.numCommunityCards.sum - d.communityCards.length).toNat "--".toList) ++ "]".toList := by
  obtain ⟨hst, hh⟩ := inHand_seated_hole h
  unfold Dealer.str at hs
  cases hc : d.renderConfig with
  | error x => rw [hc] at hs; cases hs
  | ok c =>
    rw [hc] at hs
    simp only [Except.ok.injEq] at hs
    have ok := picOk h hr hc
    unfold Dealer.renderConfig at hc
    split at hc
    · cases hc
    rename_i pays hp
    simp only [Except.ok.injEq] at hc
    have hdone : c.done = true ↔ AllDone d := by rw [← done_iff hst, ← hc]
    have c1 : c.action = d.action := by rw [← hc]
    have c2 : c.active = d.active := by rw [← hc]
    have c3 : c.holeCards = d.holeCards := by rw [← hc]
    have c4 : c.stacks = d.stacks := by rw [← hc]
    have c5 : c.payouts = pays := by rw [← hc]
    have c6 : c.streetCommits = d.streetCommits := by rw [← hc]
    have c7 : c.button = d.button := by rw [← hc]
    have c8 : c.pot = d.pot := by rw [← hc]
    have c9 : c.communityCards = d.communityCards := by rw [← hc]
    have c10 : c.allIn = List.zipWith (fun (active : Bool) stack => active && stack == 0) d.active d.stacks := by rw [← hc]
    refine ⟨strConfig d.viewer c, pays, hs.symm, hp, ?_, ?_, ?_, ?_⟩
    · intro i hi
      refine ⟨?_, ?_, ?_, ?_, ?_, ?_⟩
      · rw [get_p ok hi]
        unfold playerString
        rw [c1, c2, c3, c4]
        have hnum : intStr ((i : Int) + 1) = decimal (i + 1) := by
          unfold intStr
          rw [if_neg (by omega)]
          rfl
        by_cases hin : d.active.getD i false = true
        · rw [hin]
          simp only [Bool.not_true, Bool.false_eq_true, if_false]
          by_cases hsee : c.done = true ∨ some i = d.action
          · rw [if_pos hsee]
            refine ⟨_, _, ?_, .inr (.inl ⟨hin, ?_, rfl⟩), commaFmt_amount _⟩
            · simp only [List.append_assoc, hnum]
              rfl
            · rcases hsee with h1 | h1
              · exact .inl (hdone.1 h1)
              · exact .inr h1.symm
          · rw [if_neg hsee]
            refine ⟨_, _, ?_, .inr (.inr ⟨hin, ?_, ?_, rfl⟩), commaFmt_amount _⟩
            · simp only [List.append_assoc, hnum]
              rfl
            · intro hx; exact hsee (.inl (hdone.2 hx))
            · intro hx; exact hsee (.inr hx.symm)
        · have hf : d.active.getD i false = false := by simpa using hin
          rw [hf]
          simp only [Bool.not_false, if_true]
          refine ⟨_, _, ?_, .inl ⟨?_, rfl⟩, commaFmt_amount _⟩
          · simp only [List.append_assoc, hnum]
            rfl
          · unfold isIn; rw [hf]; simp
      · intro hd
        rw [get_pc ok hi, if_pos (hdone.2 hd), c5]
        exact commaFmt_amount _
      · intro hd
        rw [get_pc ok hi, if_neg (fun hx => hd (hdone.1 hx)), c6]
        exact commaFmt_amount _
      · rw [get_b ok hi, c7]
      · intro hd
        rw [get_a ok hi, if_pos (hdone.2 hd)]
      · intro a ha hd
        rw [get_a ok hi, if_neg (fun hx => hd (hdone.1 hx)), c1, ha, c10]
        have : (List.zipWith (fun (active : Bool) stack => active && stack == 0) d.active d.stacks).getD i false = true ↔
            isIn d i ∧ stack d i = 0 := by
          unfold isIn stack
          rw [getD_eq _ _ _ (by simp [hst.active, hst.stacks]; exact hi), getD_eq _ _ _ (by rw [hst.active]; exact hi),
            getD_eq _ _ _ (by rw [hst.stacks]; exact hi)]
          simp
        simp only [this, Option.getD_some]
    · intro hd
      rw [get_pot ok, if_neg (fun hx => hd (hdone.1 hx)), c8]
      exact commaFmt_amount _
    · intro hd
      rw [get_pot ok, if_pos (hdone.2 hd)]
    · rw [get_ccs ok, c9, List.length_map]
      rfl

/-- **C57**: the template has the fields of the layout, each one once. -/
theorem C57_template : TABLE.filterMap fieldKey = layout ∧ layout.Nodup := by decide +kernel

theorem exists_field {key : String} (T : List Seg) (h : key ∈ T.filterMap fieldKey) : ∃ al w, Seg.field key al w ∈ T := by
  obtain ⟨x, hx, hk⟩ := List.mem_filterMap.1 h
  cases x with
  | lit t => cases hk
  | field k al w => cases hk; exact ⟨al, w, hx⟩

/-- **C57**: the text of every field is a part of the picture. -/
theorem C57_shown (F : StrConfig) {key : String} (h : key ∈ layout) : F.get key <:+: formatTable F TABLE := by
  rw [← C57_template.1] at h
  obtain ⟨al, w, hf⟩ := exists_field TABLE h
  exact (infix_pad al w (F.get key)).trans (format_infix F key al w TABLE hf)

/-- **C57**: seats are placed clockwise, at different places of the layout. -/
theorem C57_places (hr : Reachable d) : ∀ i j, i < j → j < d.cfg.numPlayers →
    d.viewer.pos i < d.viewer.pos j ∧ d.viewer.pos j < 10 := by
  obtain ⟨h2, h10⟩ := reachable_players hr
  have key : ∀ n < 11, 2 ≤ n → ∀ j < n, ∀ i < j, ((dictGet POS_DICT n).getD []).getD i 0 < ((dictGet POS_DICT n).getD []).getD j 0 ∧
      ((dictGet POS_DICT n).getD []).getD j 0 < 10 := by decide +kernel
  intro i j hij hj
  exact key d.cfg.numPlayers (by omega) h2 j hj i hij

/-- the number of characters of the template -/
def segWidth : Seg → Nat
  | .lit t => t.toList.length
  | .field _ _ w => w

theorem pad_length (al : Align) (w : Nat) (t : Str) (h : t.length ≤ w) : (pad al w t).length = w := by
  unfold pad
  cases al <;> simp <;> omega

/-- **C57**: if every text fits into its field, the picture has the same size as the template, so nothing is shifted. -/
theorem C57_size (F : StrConfig) (h : ∀ key al w, Seg.field key al w ∈ TABLE → (F.get key).length ≤ w) :
    (formatTable F TABLE).length = (TABLE.map segWidth).sum := by
  have key : ∀ T : List Seg, (∀ key al w, Seg.field key al w ∈ T → (F.get key).length ≤ w) →
      (formatTable F T).length = (T.map segWidth).sum := by
    intro T
    induction T with
    | nil => intro _; rfl
    | cons x T ih =>
      intro hT
      have ih := ih (fun k al w hm => hT k al w (List.mem_cons_of_mem _ hm))
      cases x with
      | lit t =>
        rw [formatTable, List.length_append, ih]
        rfl
      | field k al w =>
        rw [formatTable, List.length_append, ih, pad_length _ _ _ (hT k al w (by simp))]
        rfl
  exact key TABLE h

/-! ## C50 -/

theorem winners_isWinners (ps : List Int) : IsWinners ps (winners ps) := by
  constructor
  · unfold winners
    refine List.Pairwise.filterMap (R := fun a b => a.2 < b.2) _ ?_ ?_
    · rintro ⟨p, i⟩ ⟨q, j⟩ hij b hb b' hb'
      simp only [Option.ite_none_right_eq_some, Option.some.injEq] at hb hb'
      obtain ⟨-, rfl⟩ := hb
      obtain ⟨-, rfl⟩ := hb'
      simpa using hij
    · rw [List.pairwise_iff_getElem]
      intro i j hi hj hij
      simpa using hij
  · intro i p
    unfold winners
    simp only [List.mem_filterMap, Prod.exists, List.mem_zipIdx_iff_getElem?, Option.ite_none_right_eq_some, Option.some.injEq,
      Prod.mk.injEq]
    constructor
    · rintro ⟨q, j, h1, h2, rfl, rfl⟩
      obtain ⟨h3, h4⟩ := List.getElem?_eq_some_iff.1 h1
      refine ⟨by omega, by omega, ?_, h2⟩
      rw [getD_eq _ _ _ (by omega)]
      simp only [Nat.add_sub_cancel]
      exact h4.symm
    · rintro ⟨h1, h2, h3, h4⟩
      refine ⟨p, i - 1, ?_, h4, by omega, rfl⟩
      rw [h3, getD_eq _ _ _ (by omega)]
      exact List.getElem?_eq_getElem _

theorem winners_length (ps : List Int) : (ps.filter fun p => decide (p > 0)).length = (winners ps).length := by
  have key : ∀ (l : List Int) (k : Nat), (l.filter fun p => decide (p > 0)).length =
      ((l.zipIdx k).filterMap fun (payout, player) => if payout > 0 then some (player + 1, payout) else none).length := by
    intro l
    induction l with
    | nil => intro k; rfl
    | cons a l ih =>
      intro k
      rw [List.zipIdx_cons]
      by_cases h : a > 0
      · rw [List.filter_cons_of_pos (by simpa using h), List.filterMap_cons_some (by simp [h]; rfl)]
        simp only [List.length_cons]
        rw [ih (k + 1)]
      · rw [List.filter_cons_of_neg (by simpa using h), List.filterMap_cons_none (by simp [h])]
        exact ih (k + 1)
  exact key ps 0

theorem intStr_nonneg {i : Int} (h : 0 ≤ i) : intStr i = decimal i.toNat := by
  unfold intStr
  rw [if_neg (by omega), show i.natAbs = i.toNat by omega]

theorem parseWinString_eq (c : RenderConfig) : parseWinString c true = winText (winners c.payouts) := by
  unfold parseWinString winText
  simp only [if_true]
  rw [winners_length]
  have h1 : ((winners c.payouts).map fun w => intStr w.1) = (winners c.payouts).map fun w => decimal w.1 := by
    apply List.map_congr_left
    intro w _
    rw [intStr_nonneg (by omega)]
    rfl
  have h2 : ((winners c.payouts).map fun w => intStr w.2) = (winners c.payouts).map fun w => decimal w.2.toNat := by
    apply List.map_congr_left
    intro w hw
    have := ((winners_isWinners c.payouts).2 w.1 w.2).1 hw
    rw [intStr_nonneg (by omega)]
  rw [h1, h2]

/-- **C50** (part): in every state of a hand the message under the table is empty while something is left to decide, and
otherwise lists the seats with a positive entry in what the table reports as payouts. -/
theorem C50_message (h : InHand S d) (hs : d.str = .ok s) :
    ∃ (F : StrConfig) (pays : List Int) (ws : List (Nat × Int)), s = formatTable F TABLE ∧ d.payouts = .ok pays ∧
      IsWinners pays ws ∧ (AllDone d → F.get "win" = winText ws) ∧ (¬ AllDone d → F.get "win" = []) := by
  unfold Dealer.str at hs
  cases hc : d.renderConfig with
  | error x => rw [hc] at hs; cases hs
  | ok c =>
    rw [hc] at hs
    simp only [Except.ok.injEq] at hs
    unfold Dealer.renderConfig at hc
    split at hc
    · cases hc
    rename_i pays hp
    simp only [Except.ok.injEq] at hc
    have hdone : c.done = true ↔ AllDone d := by rw [← done_iff (inHand_seated_hole h).1, ← hc]
    have hpay : c.payouts = pays := by rw [← hc]
    have hwin : (strConfig d.viewer c).get "win" = parseWinString c c.done := rfl
    refine ⟨strConfig d.viewer c, pays, winners pays, hs.symm, hp, winners_isWinners _, ?_, ?_⟩
    · intro hd
      rw [hwin, hdone.2 hd, parseWinString_eq, hpay]
    · intro hd
      rw [hwin]
      unfold parseWinString
      rw [if_neg (fun hx => hd (hdone.1 hx))]

/-- **C50** (partial: for hands that end with a showdown; for the others see `C50_false` and `C50_false_early`): after the
hand the message under the table lists exactly the seats whose payout was positive, with their payouts. -/
theorem C50_showdown_partial (h : InHand S d) (hn : NonNegative S d.cfg) (hr : d.action ≠ none)
    (hs : d.step bet = (d', .ok out)) (hend : d'.action = none) (htwo : 2 ≤ numIn d') (hst : d'.cfg.numStreets ≤ d'.street) :
    ∃ (F : StrConfig) (ws : List (Nat × Int)), d'.str = .ok (formatTable F TABLE) ∧ IsWinners out.2.1 ws ∧
      F.get "win" = winText ws := by
  have hpay : d'.payouts = .ok out.2.1 := by
    have h1 := (C43_showdown_partial h hn hr hs hend htwo hst (.fin 0)).1
    unfold Dealer.step at h1
    rw [hend] at h1
    simp only [] at h1
    split at h1
    · split at h1
      · simp at h1
      · rename_i p hp
        split at h1
        · simp at h1
        · simp only [Prod.mk.injEq, Except.ok.injEq, true_and] at h1
          rw [← h1]; exact hp
    · simp at h1
  have h' := InHand.step bet h
  rw [hs] at h'
  cases hstr : d'.str with
  | error x =>
    unfold Dealer.str Dealer.renderConfig at hstr
    rw [hpay] at hstr
    simp at hstr
  | ok s =>
    obtain ⟨F, pays, ws, h1, h2, h3, h4, -⟩ := C50_message h' hstr
    rw [hpay] at h2
    cases h2
    exact ⟨F, ws, by rw [h1], h3, h4 (.inl hst)⟩

/-- a showdown -/
example : ∃ S d d' out, InHand S d ∧ Reachable d ∧ d.step (.fin 10) = (d', .ok out) ∧ NonNegative S d.cfg ∧ d.action ≠ none ∧
    d'.action = none ∧ 2 ≤ numIn d' ∧ d'.cfg.numStreets ≤ d'.street ∧ out.2.1 = [-10, 10] :=
  step_exists (small 2 [1, 2] 10) [.bet 10] (.fin 10) (by decide +kernel)

/-- the last line of a picture, without the spaces around it -/
def lastLine (d : Dealer) : Option Str :=
  d.str.toOption.map fun s => (s.reverse.takeWhile (· ≠ '\n')).reverse.dropWhile (· = ' ') |>.reverse |>.dropWhile (· = ' ')
    |>.reverse

set_option maxRecDepth 100000 in
example : ∃ S d d' out, InHand S d ∧ Reachable d ∧ d.step (.fin 10) = (d', .ok out) ∧
    lastLine d' = some "Player 2 won 10".toList :=
  step_exists (small 2 [1, 2] 10) [.bet 10] (.fin 10) (by decide +kernel)

set_option maxRecDepth 100000 in
/-- **C50 is false** for hands that end because all others fold: player 2 won 1 chip, the message names nobody. -/
theorem C50_false : ∃ S d d' out, InHand S d ∧ Reachable d ∧ d.step (.fin (-1)) = (d', .ok out) ∧ NonNegative S d.cfg ∧
    d'.action = none ∧ out.2.1 = [-1, 1] ∧ lastLine d' = some "Player  won".toList :=
  step_exists (small 2 [1, 2] 10) [] (.fin (-1)) (by decide +kernel)

set_option maxRecDepth 100000 in
/-- **C50 is false** for hands that end too early (C28): there is no message. -/
theorem C50_false_early : ∃ S d d' out, InHand S d ∧ Reachable d ∧ d.step (.fin (-1)) = (d', .ok out) ∧ NonNegative S d.cfg ∧
    (d'.action = none ∧ 2 ≤ numIn d' ∧ d'.street < d'.cfg.numStreets) ∧ out.2.2 = [true, true, true] ∧ lastLine d' = some [] :=
  step_exists (small 3 [1, 2, 0] 2) [.bet 2] (.fin (-1)) (by decide +kernel)

/-! ## C55 -/

theorem str_action {c : RenderConfig} (hc : d.renderConfig = .ok c) :
    d.str = .ok (formatTable (strConfig d.viewer c) TABLE) ∧
    (strConfig d.viewer c).get "action" = parseActionString c c.done := by
  unfold Dealer.str
  rw [hc]
  exact ⟨rfl, rfl⟩

/-- **C55** (partial: if exactly the negative bets are folds; see `C55_false`): after a step that does not end the hand, the
line under the table says who moved, what they did and whose turn it is. -/
theorem C55_line_partial {a b : Nat} (h : InHand S d) (hn : NonNegative S d.cfg) (ha : d.action = some a) (h0 : 0 ≤ stack d a)
    (hs : d.step bet = (d', .ok out)) (hb : d'.action = some b) (hf : BelowZero bet ↔ ¬ isIn d' a) :
    ∃ (F : StrConfig) (t : Str), d'.str = .ok (formatTable F TABLE) ∧ DidText d d' a t ∧
      F.get "action" = "Player ".toList ++ decimal (a + 1) ++ " ".toList ++ t ++ "Action on Player ".toList ++ decimal (b + 1) := by
  rw [← isNeg_iff] at hf
  obtain ⟨⟨s, hstr⟩, -⟩ := C48_step hs hb (alike_refl d') rfl
  unfold Dealer.str at hstr
  cases hc : d'.renderConfig with
  | error x => rw [hc] at hstr; cases hstr
  | ok c =>
    obtain ⟨e1, e2⟩ := str_action hc
    have hhist : d'.history = d.history ++ [(a, moved d d' a, bet.isNeg)] := by
      obtain ⟨fl, e, hf⟩ := C38_history_partial h ha h0 hs
      rw [e, Bool.eq_iff_iff.2 (hf.trans (isNeg_iff bet).symm)]
    have hdone := step_notDone hs hb
    have hmv : 0 ≤ moved d d' a := by
      obtain ⟨b', c', lo, hi, x, p, v⟩ := step_view h ha hs
      have hl := (live_of_action h ha).1
      rw [v.moved hl.seated a (hl.seated.action a ha), seat_some ha, if_pos rfl]
      have h1 := nn_pot hl (nn_of_action h hn ha)
      have h2 := betOf_nonneg (b := b') hl.seated h1 v.sizes (fold := bet.isNeg)
      omega
    unfold Dealer.renderConfig at hc
    split at hc
    · cases hc
    simp only [Except.ok.injEq] at hc
    have c1 : c.done = false := by rw [← hc]; exact hdone
    have c2 : c.prevAction = some (a, moved d d' a, bet.isNeg) := by
      rw [← hc]
      show d'.history.getLast? = _
      rw [hhist, List.getLast?_append]
      rfl
    have c3 : c.action = some b := by rw [← hc]; exact hb
    have n1 : intStr ((a : Int) + 1) = decimal (a + 1) := by rw [intStr_nonneg (by omega)]; rfl
    have n2 : intStr ((b : Int) + 1) = decimal (b + 1) := by rw [intStr_nonneg (by omega)]; rfl
    refine ⟨_, if bet.isNeg = true then "folded ".toList else if moved d d' a ≠ 0 then
      "bet ".toList ++ intStr (moved d d' a) ++ " ".toList else "checked ".toList, e1, ?_, ?_⟩
    · unfold DidText
      by_cases hneg : bet.isNeg = true
      · rw [if_pos hneg]
        exact .inl ⟨hf.1 hneg, rfl⟩
      · have hin : isIn d' a := by
          by_contra hx
          exact hneg (hf.2 hx)
        rw [if_neg hneg]
        by_cases hm : moved d d' a = 0
        · rw [if_neg (by simpa using hm)]
          exact .inr (.inl ⟨hin, hm, rfl⟩)
        · rw [if_pos hm, intStr_nonneg hmv]
          exact .inr (.inr ⟨hin, by omega, rfl⟩)
    · rw [e2, c1]
      unfold parseActionString
      rw [c2, c3]
      simp only [Bool.false_eq_true, if_false, actionNumber, n1, n2]

/-- **C55**: after a deal that leaves somebody with chips, the line under the table says whose turn it is. -/
theorem C55_dealt {rb rs : Bool} {shuf : Shuffle} {obs : Observation} (hd : Seated d) (hsh : IsShuffle shuf)
    (hr : d.reset rb rs shuf = (d', .ok obs)) (hc : ∃ i, isIn d' i ∧ stack d' i ≠ 0) :
    ∃ (F : StrConfig) (b : Nat), d'.action = some b ∧ d'.str = .ok (formatTable F TABLE) ∧
      F.get "action" = "Action on Player ".toList ++ decimal (b + 1) := by
  have hin := InHand.dealt hd hsh hr
  obtain ⟨hl, hl2, hl3⟩ := dealt_live hd hr
  obtain ⟨b, hb, -⟩ := hl.action
  have hrun : Running d' := by
    refine ⟨⟨b, hb⟩, ?_⟩
    have := hl.oneStreet
    omega
  obtain ⟨⟨s, hstr⟩, -⟩ := C48_running_partial hin hrun hc (alike_refl d') (fun _ _ => rfl)
  unfold Dealer.str at hstr
  cases hcfg : d'.renderConfig with
  | error x => rw [hcfg] at hstr; cases hstr
  | ok c =>
    obtain ⟨e1, e2⟩ := str_action hcfg
    refine ⟨_, b, hb, e1, ?_⟩
    unfold Dealer.renderConfig at hcfg
    split at hcfg
    · cases hcfg
    simp only [Except.ok.injEq] at hcfg
    have c1 : c.done = false := by
      rw [← hcfg]
      have h2 := (done_iff hl.seated).not
      by_contra hx
      have h3 := (done_iff hl.seated).1 (by simpa using hx)
      rcases h3 with h3 | h3 | h3
      · have := hrun.2; omega
      · have := (live_of_action hin hb).2 hrun.2
        have h6 : countTrue d'.active ≤ 1 := h3
        omega
      · obtain ⟨i, h4, h5⟩ := hc
        refine h5 (h3 i ?_ h4)
        by_contra hi
        unfold isIn at h4
        rw [getD_out _ _ _ (by rw [hl.seated.active]; omega)] at h4
        cases h4
    have c2 : c.prevAction = none := by
      rw [← hcfg]
      show d'.history.getLast? = none
      rw [C38_empty hr]
      rfl
    have c3 : c.action = some b := by rw [← hcfg]; exact hb
    have n2 : intStr ((b : Int) + 1) = decimal (b + 1) := by rw [intStr_nonneg (by omega)]; rfl
    rw [e2, c1]
    unfold parseActionString
    rw [c2, c3]
    rw [if_neg Bool.false_ne_true, ← n2]
    show [] ++ "Action on Player ".toList ++ intStr ((b : Int) + 1) = _
    rw [List.nil_append]

/-- the last line but one of a picture, without the spaces around it -/
def actionLine (d : Dealer) : Option Str :=
  d.str.toOption.map fun s => (((s.reverse.dropWhile (· ≠ '\n')).drop 1).takeWhile (· ≠ '\n')).reverse.dropWhile (· = ' ')
    |>.reverse |>.dropWhile (· = ' ') |>.reverse

set_option maxRecDepth 100000 in
example : ∃ S d d' out, InHand S d ∧ Reachable d ∧ d.step (.fin 5) = (d', .ok out) ∧ NonNegative S d.cfg ∧ d.action = some 0 ∧
    0 ≤ stack d 0 ∧ d'.action = some 1 ∧ isIn d' 0 ∧ actionLine d' = some "Player 1 bet 5 Action on Player 2".toList :=
  step_exists (small 3 [1, 2, 0] 20) [] (.fin 5) (by decide +kernel)

set_option maxRecDepth 100000 in
/-- **C55 is false** in general: of a player who folds by betting 0 it is said that they checked, and of a player who stays
in with a bet of −1 that they folded. -/
theorem C55_false : (∃ S d d' out, InHand S d ∧ Reachable d ∧ d.step (.fin 0) = (d', .ok out) ∧ d.action = some 0 ∧
      ¬ isIn d' 0 ∧ actionLine d' = some "Player 1 checked Action on Player 2".toList) ∧
    ∃ S d d' out, InHand S d ∧ Reachable d ∧ d.step (.fin (-1)) = (d', .ok out) ∧ d.action = some 2 ∧
      isIn d' 2 ∧ actionLine d' = some "Player 3 folded Action on Player 2".toList :=
  ⟨step_exists (small 3 [1, 2, 0] 20) [] (.fin 0) (by decide +kernel),
    step_exists (small 3 [1, 2, 0] 20) [.bet 2, .bet 1] (.fin (-1)) (by decide +kernel)⟩

/-! ## C56 -/

/-- **C56**: bets that are not finite numbers are refused and change nothing. -/
theorem C56_not_finite (ha : d.action ≠ none) : d.step .posInf = (d, .error .overflowError) ∧
    d.step .negInf = (d, .error .overflowError) ∧ d.step .nan = (d, .error .valueError) := by
  cases h : d.action with
  | none => exact absurd h ha
  | some a =>
    unfold Dealer.step
    rw [h]
    exact ⟨rfl, rfl, rfl⟩

/-- **C56**: a finite bet in a running hand raises an exception only when the hands of at least two players are compared at
the end; then all further bets raise exceptions and change nothing. -/
theorem C56_finite (h : InHand S d) (hr : Running d) {q : Rat} {e : Err} (hs : d.step (.fin q) = (d', .error e)) :
    d'.cfg.numStreets ≤ d'.street ∧ 2 ≤ numIn d' ∧ d'.action ≠ none ∧
    ∀ bet, ∃ e', d'.step bet = (d', .error e') := by
  obtain ⟨⟨a, ha⟩, hst⟩ := hr
  obtain ⟨hl, hc2⟩ := live_of_action h ha
  have two := hc2 hst
  cases step_cases h ha (.fin q) with
  | refused e2 h1 h2 =>
    rcases h2 with h2 | h2
    · cases h2
    · obtain ⟨c, lo, hi, h3⟩ := betSizes_ok hl.seated hst
      rw [h3] at h2
      cases h2
  | goesOn b c lo hi p x obs hb hs' hx hlx hp hd ho h1 => rw [hs] at h1; simp at h1
  | ended b c lo hi p x obs hb hs' hx hlx hp hd ho h1 => rw [hs] at h1; simp at h1
  | stuck b c lo hi e2 x hb hs' hx hlx hp h1 =>
    rw [hs] at h1
    simp only [Prod.mk.injEq, Except.error.injEq] at h1
    obtain ⟨rfl, rfl⟩ := h1
    have h3 : ¬ countTrue d'.active = 1 ∧ d'.street ≥ d'.cfg.numStreets := by
      unfold Dealer.payouts at hp
      simp only [] at hp
      split at hp
      · cases hp
      · split at hp
        · exact ⟨by assumption, by assumption⟩
        · cases hp
    obtain ⟨t, ht, -⟩ := hlx.action
    have h4 := hlx.one
    refine ⟨h3.2, show 2 ≤ countTrue d'.active by omega, by rw [ht]; simp, ?_⟩
    intro bet
    unfold Dealer.step
    rw [ht]
    simp only []
    cases pyRound bet with
    | error e => exact ⟨e, rfl⟩
    | ok b =>
      simp only []
      rw [betSizes_error hlx.seated h3.2]
      exact ⟨_, rfl⟩

/-- such an exception (the code does not find a seat for the odd chips, C27) -/
example : ∃ S d, InHand S d ∧ Running d ∧ (match (d.step (.fin 0)).2 with | .error .indexError => true | _ => false) = true := by
  obtain ⟨S, d, h1, -, h2⟩ := hand_exists (ties 3 [1, 2, 0] 10)
    [.bet (-1), .bet (-1), .deal, .bet 2, .bet (-1), .bet 0, .bet 0]
    (P := fun S d => Running d ∧ (match (d.step (.fin 0)).2 with | .error .indexError => true | _ => false) = true)
    (by decide +kernel)
  exact ⟨S, d, h1, h2⟩

/-! ## C57: an example -/

/-- some line of a picture -/
def line (d : Dealer) (k : Nat) : Option Str :=
  d.str.toOption.map fun s => (Nat.repeat (fun s => (s.dropWhile (· ≠ '\n')).drop 1) k s).takeWhile (· ≠ '\n')

set_option maxRecDepth 100000 in
/-- Player 1 has raised to 1500, player 2 has folded, it is the turn of player 3. -/
example : ∃ S d, InHand S d ∧ Reachable d ∧
    line d 1 = some "      /   1. ?? 500                                         \\".toList ∧
    line d 2 = some "     /   1,500     D                                         \\".toList ∧
    line d 7 = some "|                                                    2. -- 1,999  |".toList ∧
    line d 8 = some "|                                                             1   |".toList ∧
    line d 9 = some "|                     []                     1,503                |".toList ∧
    line d 14 = some "    \\   3. J♠ 1,998                                           /".toList ∧
    line d 15 = some "     \\   2            X                                      /".toList :=
  hand_exists (small 3 [1, 2, 0] 2000) [.bet 1500, .bet (-1)] (by decide +kernel)

end Clubs

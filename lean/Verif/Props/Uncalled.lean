import Verif.Spec.Uncalled
import Verif.Props.Sure
import Verif.Props.Stuck
import Verif.Lemmas.NumpyDivision

/-!
# C105: chips that nobody matched come back

Whoever is in when a hand is over has lost at most as many chips as one of the others put in.
-/

namespace Clubs

open Spec Finset

variable {S : List Int} {d : Dealer} {i : Nat} {m : Int} {n : Nat} {act : Nat → Bool} {c s : Nat → Int}

/-! ## the division of the pot -/

theorem before_ne {k : Nat} (h : Before act c s k i) : k ≠ i := by
  rintro rfl
  rcases h with ⟨h1, h2⟩ | ⟨-, h2 | h2⟩
  · exact lt_irrefl _ (h2 h1)
  · exact lt_irrefl _ h2
  · exact lt_irrefl _ h2.2

/-- when it is the turn of player `i`, their own chips above those of everybody else are given out -/
theorem piece_uncalled (hi : i < n) (h0 : 0 ≤ m) (hm : ∀ k < n, k ≠ i → c k ≤ m) : c i - m ≤ piece n act c s i := by
  have hr : reached n act c s i ≤ m := reached_le h0 fun k hk hb => hm k hk (before_ne hb)
  have h1 : min (c i) (max (c i) (reached n act c s i)) - min (c i) (reached n act c s i) ≤ piece n act c s i :=
    Finset.single_le_sum (f := fun k => min (c k) (max (c i) (reached n act c s i)) - min (c k) (reached n act c s i))
      (fun k _ => by omega) (mem_range.2 hi)
  omega

theorem shares_uncalled (hi : i < n) (ha : act i = true) (h0 : 0 ≤ m) (hm : ∀ k < n, k ≠ i → c k ≤ m) (hlt : m < c i)
    (ht : ∀ k < n, k ≠ i → act k = true → s k = s i → Served n act c s k) : c i - m ≤ shares n act c s i := by
  have hset : sharers n act c s i = {i} := by
    unfold sharers
    ext k
    rw [mem_filter, mem_range, mem_singleton, if_pos ha]
    constructor
    · rintro ⟨hk, h1, h2, h3⟩
      by_contra hne
      exact h3 ⟨.inr ⟨⟨by rw [h1, ha], fun _ => h2⟩, .inl (by have := hm k hk hne; omega)⟩, ht k hk hne h1 h2⟩
    · rintro rfl
      exact ⟨hi, ha, rfl, fun h => before_ne h.1 rfl⟩
  have h1 := Finset.single_le_sum
    (f := fun j => if i ∈ sharers n act c s j then piece n act c s j / ((sharers n act c s j).card : Int) else 0)
    (fun j _ => by
      split
      · exact Int.ediv_nonneg (piece_nonneg j) (by omega)
      · exact le_refl _) (mem_range.2 hi)
  rw [hset, if_pos (mem_singleton.2 rfl), card_singleton, Nat.cast_one, Int.ediv_one] at h1
  exact le_trans (piece_uncalled hi h0 hm) h1

theorem arrayShares_uncalled (hi : i < n) (ha : act i = true) (h0 : 0 ≤ m) (hm : ∀ k < n, k ≠ i → c k ≤ m) (hlt : m < c i) :
    c i - m ≤ arrayShares n act c s i := by
  have hset : arraySharers n act c s i = {i} := by
    unfold arraySharers
    ext k
    rw [mem_filter, mem_range, mem_singleton]
    constructor
    · rintro ⟨hk, h⟩
      obtain ⟨h1, h2, h3⟩ := h ha
      by_contra hne
      exact h3 (.inr ⟨⟨by rw [h1, ha], fun _ => h2⟩, .inl (by have := hm k hk hne; omega)⟩)
    · rintro rfl
      exact ⟨hi, fun _ => ⟨ha, rfl, fun h => before_ne h rfl⟩⟩
  have h1 := Finset.single_le_sum
    (f := fun j => if i ∈ arraySharers n act c s j then piece n act c s j / ((arraySharers n act c s j).card : Int) else 0)
    (fun j _ => by
      split
      · exact Int.ediv_nonneg (piece_nonneg j) (by omega)
      · exact le_refl _) (mem_range.2 hi)
  rw [hset, if_pos (mem_singleton.2 rfl), card_singleton, Nat.cast_one, Int.ediv_one] at h1
  exact le_trans (piece_uncalled hi h0 hm) h1

/-! ## hands -/

/-- **C105**: whoever is in when a hand is over has lost at most as many chips as one of the others put in, unless there was a showdown at which
somebody with an equally good hand did not find any chips. -/
theorem C105_uncalled_partial (h : InHand S d) (hn : NonNegative S d.cfg) (he : d.action = none) (hi : i < d.cfg.numPlayers) (hin : isIn d i)
    (hm : OthersPut d i m) (ht : AtShowdown d → ∀ s, Ranks d s → TiedServed d s i) : S.getD i 0 - m ≤ stack d i := by
  obtain ⟨h0, hm⟩ := hm
  rcases nn_of_inHand h hn with ⟨-, hl, -⟩ | ⟨e, p, rfl, hnn, hl, hp, -⟩
  · obtain ⟨a, ha, -⟩ := hl.action
    rw [he] at ha; cases ha
  change i < e.cfg.numPlayers at hi
  change isIn e i at hin
  change AtShowdown e → ∀ s, Ranks e s → TiedServed e s i at ht
  change ∀ k < e.cfg.numPlayers, k ≠ i → contribution e k ≤ m at hm
  have hlp : i < e.potCommits.length := by rw [hl.seated.potCommits]; exact hi
  have hla : i < e.active.length := by rw [hl.seated.active]; exact hi
  have hlost : (lostList e).getD i 0 = 0 := by
    have : (lostList e).getD i 0 = if e.active.getD i false then 0 else -1 * contribution e i := getD_zipWith _ _ _ _ 0 false _ hlp hla
    rw [this, if_pos (show e.active.getD i false = true from hin)]
  have hmoney := hl.money i hi
  rw [settle_stack hl.seated (payouts_length hl.seated hp) i hi]
  have key : -m ≤ p.getD i 0 := by
    by_cases hlt : m < contribution e i
    swap
    · have := pays_ge hl hnn hp hi
      omega
    rcases payouts_cases hp with ⟨-, rfl⟩ | ⟨h1, h2, q, hq, -⟩ | ⟨-, -, rfl⟩
    · rw [getD_zipWith _ _ _ _ 0 0 _ (by simp [lostList, hlp, hla]) (by simp [hlp, hla]), getD_zipWith _ _ _ _ false 0 _ hla hlp, hlost,
        if_pos (show e.active.getD i false = true from hin)]
      have hle : contribution e i ≤ e.pot := by
        rw [hl.pot]
        exact List.single_le_sum (fun x hx => by
          obtain ⟨j, hj, rfl⟩ := (mem_getD 0).1 hx
          exact hnn.contrib j (by rw [← hl.seated.potCommits]; exact hj)) _ ((mem_getD 0).2 ⟨i, hlp, rfl⟩)
      show -m ≤ 0 + (e.pot - contribution e i)
      omega
    · obtain ⟨T, hT, -⟩ := evalRound_cases hq
      have hr := ranks_of_evalHands hl.holeLen hT
      have h3 := hl.one
      have h4 := shares_uncalled hi (show inB e i = true from hin) h0 hm hlt (ht ⟨h2, by unfold numIn countTrue at *; omega⟩ _ hr)
      obtain ⟨g1, g2, -⟩ := showdown_paidOut hl.seated hl.holeLen hl.pot hnn.contrib hr h1 h2
      have h5 : sharesAt e (fun i => T.getD i 0) i ≤ received e p i := by
        cases g1 with
        | even p' h6 _ h7 =>
          rw [hp] at h6
          obtain rfl : p = p' := by simpa using h6
          exact le_of_eq (h7 i hi).symm
        | odd p' w h6 _ _ _ _ _ h7 =>
          rw [hp] at h6
          obtain rfl : p = p' := by simpa using h6
          rw [h7 i hi]
          split <;> omega
        | raises h6 => rw [hp] at h6; cases h6
      unfold received at h5
      unfold sharesAt at h5
      omega
    · rw [hlost]; omega
  show S.getD i 0 - m ≤ stack e i + p.getD i 0 + contribution e i
  omega

instance (d : Dealer) (i : Nat) (m : Int) : Decidable (OthersPut d i m) := by unfold OthersPut; infer_instance
instance (d : Dealer) (s : Nat → Int) (i : Nat) : Decidable (TiedServed d s i) := by unfold TiedServed; infer_instance

/-- **C105 is false in general**: three equally good hands; seats 0 and 1 are all in with 8 chips each, seat 2 put in 14. Nobody matched its last 6
chips, but it gets back only 3 of them and ends with 11 chips. -/
theorem C105_false : ∃ S d, InHand S d ∧ Reachable d ∧ NonNegative S d.cfg ∧ Covers S d.cfg ∧ CloseAntes d.cfg ∧ d.action = none ∧ isIn d 2 ∧
    OthersPut d 2 8 ∧ contribution d 2 = 14 ∧ AtShowdown d ∧ Ranks d (fun _ => 1) ∧ S.getD 2 0 = 14 ∧ stack d 2 = 11 := by
  exact hand_exists (ties 3 [1, 2, 0] 10) [.bet 2, .bet 1, .bet 4, .bet (-1), .bet (-1), .deal, .bet 8, .bet 13, .bet 6] (by decide +kernel)

/-- the hypotheses of `C105_uncalled_partial`: three players all in with 62, 20 and 8 chips; the first has the worst hand, loses 20 chips and keeps
the 42 that nobody matched -/
example : ∃ S d, InHand S d ∧ NonNegative S d.cfg ∧ d.action = none ∧ 0 < d.cfg.numPlayers ∧ isIn d 0 ∧ OthersPut d 0 20 ∧ AtShowdown d ∧
    (∀ s, Ranks d s → TiedServed d s 0) ∧ contribution d 0 = 62 ∧ S.getD 0 0 - 20 = stack d 0 := by
  obtain ⟨S, d, h1, -, h2, h3, h4, h5, h6, h7, h8, h9, h10, h11⟩ := hand_exists (small 3 [1, 2, 0] 30)
    [.bet 10, .bet 9, .bet 20, .bet 20, .bet (-1), .bet (-1), .deal, .bet 20, .bet 7, .bet 60]
    (P := fun S d => NonNegative S d.cfg ∧ d.action = none ∧ 0 < d.cfg.numPlayers ∧ isIn d 0 ∧ OthersPut d 0 20 ∧ AtShowdown d ∧
      Ranks d (strength [5, 4, 3]) ∧ (∀ k < d.cfg.numPlayers, k ≠ 0 → strength [5, 4, 3] k ≠ strength [5, 4, 3] 0) ∧ contribution d 0 = 62 ∧
      S.getD 0 0 - 20 = stack d 0) (by decide +kernel)
  refine ⟨S, d, h1, h2, h3, h4, h5, h6, h7, fun s hr k hk hne hin e => ?_, h10, h11⟩
  rw [ranks_inj hr h8 k hk hin, ranks_inj hr h8 0 h4 h5] at e
  exact absurd e (h9 k hk hne)

end Clubs

namespace Clubs.Numpy

open Spec Finset

variable {S : List Int} {d : Dealer} {i : Nat} {m : Int}

/-- **C105** for the array engine, without exceptions: whoever is in when a hand is over has lost at most as many chips as one of the others
put in. -/
theorem C105_uncalled (h : ArrayInHand S d) (hn : NonNegative S d.cfg) (hz : SizesOk d.cfg) (he : d.action = none) (hi : i < d.cfg.numPlayers)
    (hin : isIn d i) (hm : OthersPut d i m) : S.getD i 0 - m ≤ stack d i := by
  obtain ⟨h0, hm⟩ := hm
  rcases sound_of h hn hz with ⟨-, hl, -⟩ | ⟨e, p, rfl, hsd, hl, hp, -⟩
  · obtain ⟨a, ha, -⟩ := hl.action
    rw [show (atSeat d).action = d.action from rfl, he] at ha; cases ha
  change i < e.cfg.numPlayers at hi
  change isIn e i at hin
  change ∀ k < e.cfg.numPlayers, k ≠ i → contribution e k ≤ m at hm
  have hnn := hsd.nn
  have hlp : i < e.potCommits.length := by rw [show e.potCommits.length = _ from hl.seated.potCommits]; exact hi
  have hla : i < e.active.length := by rw [show e.active.length = _ from hl.seated.active]; exact hi
  have hlost : (lostList e).getD i 0 = 0 := by
    have : (lostList e).getD i 0 = if e.active.getD i false then 0 else -1 * contribution e i := getD_zipWith _ _ _ _ 0 false _ hlp hla
    rw [this, if_pos (show e.active.getD i false = true from hin)]
  have hmoney : stack e i + contribution e i = S.getD i 0 := hl.money i hi
  have hset : stack (e.settle p) i = _ := settle_stack (d := atSeat e) hl.seated (payouts_length hl.seated hp) i hi
  rw [hset]
  have key : -m ≤ p.getD i 0 := by
    by_cases hlt : m < contribution e i
    swap
    · have := pays_ge hl hnn hp hi
      omega
    rcases payouts_cases hp with ⟨-, rfl⟩ | ⟨h1, h2, q, hq, -⟩ | ⟨-, -, rfl⟩
    · rw [getD_zipWith _ _ _ _ 0 0 _ (by simp [lostList, hlp, hla]) (by simp [hlp, hla]), getD_zipWith _ _ _ _ false 0 _ hla hlp, hlost,
        if_pos (show e.active.getD i false = true from hin)]
      have hle : contribution e i ≤ e.pot := by
        rw [show e.pot = _ from hl.pot]
        exact List.single_le_sum (fun x hx => by
          obtain ⟨j, hj, rfl⟩ := (mem_getD 0).1 hx
          exact hnn.contrib j (by rw [← hl.seated.potCommits]; exact hj)) _ ((mem_getD 0).2 ⟨i, hlp, rfl⟩)
      show -m ≤ 0 + (e.pot - contribution e i)
      omega
    · obtain ⟨T, hT, -⟩ := evalRound_cases hq
      have hr := ranks_of_evalHands hl.holeLen hT
      have h4 := arrayShares_uncalled (s := fun i => T.getD i 0) hi (show inB e i = true from hin) h0 hm hlt
      obtain ⟨g1, g2, -⟩ := showdown_paidOut hl.seated hl.holeLen hl.pot hnn.contrib hr h1 h2
      have h5 : arraySharesAt e (fun i => T.getD i 0) i ≤ received e p i := by
        cases g1 with
        | even p' h6 _ h7 =>
          rw [hp] at h6
          obtain rfl : p = p' := by simpa using h6
          exact le_of_eq (h7 i hi).symm
        | odd p' w h6 _ _ _ _ h7 =>
          rw [hp] at h6
          obtain rfl : p = p' := by simpa using h6
          rw [h7 i hi]
          split <;> omega
        | raises h6 => rw [hp] at h6; cases h6
      unfold received at h5
      unfold arraySharesAt at h5
      omega
    · rw [hlost]; omega
  show S.getD i 0 - m ≤ stack e i + p.getD i 0 + contribution e i
  omega

/-- the case of `C105_false`: seat 2 gets back all the chips that nobody matched -/
example : ∃ S d, ArrayInHand S d ∧ NonNegative S d.cfg ∧ SizesOk d.cfg ∧ d.action = none ∧ isIn d 2 ∧ OthersPut d 2 8 ∧ contribution d 2 = 14 ∧
    S.getD 2 0 = 14 ∧ stack d 2 = 14 := by
  obtain ⟨S, d, h1, -, h2⟩ := hand_exists (ties 3 [1, 2, 0] 10)
    [.bet 2, .bet 1, .bet 4, .bet (-1), .bet (-1), .deal, .bet 8, .bet 13, .bet 6]
    (P := fun S d => NonNegative S d.cfg ∧ SizesOk d.cfg ∧ d.action = none ∧ isIn d 2 ∧ OthersPut d 2 8 ∧ contribution d 2 = 14 ∧
      S.getD 2 0 = 14 ∧ stack d 2 = 14) (by decide +kernel)
  exact ⟨S, d, h1, h2⟩

end Clubs.Numpy

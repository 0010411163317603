import Verif.Lemmas.Exchange
import Verif.Props.Better
import Verif.Props.NumpyBetter

/-!
# C110: who exchanges the cards exchanges the winnings
-/

namespace Clubs.Spec

/-- The seats that `f` moves are alike: whoever moves to another seat finds it in the hand or not, as their own, and with as many chips put
in. -/
structure EqualSeats (f : Equiv.Perm Nat) (d : Dealer) : Prop where
  seat : ∀ i, f i < d.cfg.numPlayers ↔ i < d.cfg.numPlayers
  still : ∀ i < d.cfg.numPlayers, isIn d (f i) ↔ isIn d i
  chips : ∀ i < d.cfg.numPlayers, contribution d (f i) = contribution d i

/-- Everybody who is in at `d` has their cards at `e` in the seat to which `f` moves them; the cards on the board are the same. -/
structure Exchanged (f : Equiv.Perm Nat) (d e : Dealer) : Prop where
  board : e.communityCards = d.communityCards
  cards : ∀ i < d.cfg.numPlayers, isIn d i → e.holeCards.getD (f i) [] = d.holeCards.getD i []

end Clubs.Spec

namespace Clubs

open Spec

variable {S : List Int} {d e d' e' d0 : Dealer} {bet : PyNum} {s : Nat → Int} {j : Nat} {res res' : Except Err StepOut}
  {f : Equiv.Perm Nat}

theorem equalSeats_invariant (h : EqualSeats f d) : Invariant d.cfg.numPlayers (inB d) (contribution d) f := by
  refine ⟨h.seat, fun i hi => ?_, h.chips⟩
  have := h.still i hi
  unfold isIn at this
  unfold inB
  rcases h1 : d.active.getD (f i) false <;> rcases h2 : d.active.getD i false <;> simp_all

theorem moved (f : Equiv.Perm Nat) (s : Nat → Int) (i : Nat) : (fun k => s (f.symm k)) (f i) = s i := by simp

/-- the ranks of the hands move with them -/
theorem exchanged_ranks (hsame : SameHand d e) (ha : EqualSeats f d) (hx : Exchanged f d e) (hr : Ranks d s) :
    Ranks e fun k => s (f.symm k) := by
  intro k hk hin
  obtain ⟨i, rfl⟩ := f.surjective k
  rw [hsame.cfg, ha.seat] at hk
  have hi : isIn d i := by
    rw [← ha.still i hk]
    unfold isIn at hin ⊢
    rwa [hsame.active] at hin
  rw [hsame.cfg, hx.board, hx.cards i hk hi, moved f s i]
  exact hr i hk hi

theorem clear_map (hsame : SameHand d e) (ha : EqualSeats f d) (hc : ClearPot d s) : ClearPot e fun k => s (f.symm k) := by
  have hi := equalSeats_invariant ha
  have back : ∀ p < d.cfg.numPlayers, ∃ i < d.cfg.numPlayers, p = f i := by
    intro p hp
    obtain ⟨i, rfl⟩ := f.surjective p
    exact ⟨i, (hi.seat i).1 hp, rfl⟩
  constructor
  · rw [hsame.cfg, hsame.inB, hsame.contribution]; exact hc.folds
  · rw [hsame.cfg, hsame.inB, hsame.contribution]
    intro p hp q hq ap aq hs hpq hbest
    obtain ⟨i, hin, rfl⟩ := back p hp
    obtain ⟨k, hkn, rfl⟩ := back q hq
    rw [hi.act i hin] at ap
    rw [hi.act k hkn] at aq
    rw [hi.chips i hin, hi.chips k hkn] at hpq
    simp only [Equiv.symm_apply_apply] at hs hbest ⊢
    have := hc.ties i hin k hkn ap aq hs hpq (fun r hr ar hlt => by
      have := hbest (f r) ((hi.seat r).2 hr) (by rw [hi.act r hr]; exact ar) (by rwa [Equiv.symm_apply_apply])
      rwa [hi.chips r hr, hi.chips k hkn] at this)
    rw [hi.chips i hin]
    refine ⟨this.1, fun r hr ar hne => ?_⟩
    obtain ⟨l, hln, rfl⟩ := back r hr
    rw [hi.act l hln] at ar
    rw [hi.chips l hln, Equiv.symm_apply_apply]
    exact this.2 l hln ar fun h => hne (by rw [h])

theorem due_exchanged (hsame : SameHand d e) (ha : EqualSeats f d) (s : Nat → Int) (j : Nat) :
    dueAt e (fun k => s (f.symm k)) (f j) = dueAt d s j := by
  unfold dueAt
  rw [hsame.cfg, hsame.inB, hsame.contribution]
  exact due_map (equalSeats_invariant ha) (fun i _ _ => moved f s i) j

theorem odd_exchanged (hsame : SameHand d e) (ha : EqualSeats f d) (s : Nat → Int) :
    oddAt e (fun k => s (f.symm k)) = oddAt d s := by
  unfold oddAt
  rw [hsame.cfg, hsame.inB, hsame.contribution]
  exact odd_map (equalSeats_invariant ha) fun i _ _ => moved f s i

/-- the payouts from what the seats receive -/
theorem pays_exchanged {p p' : List Int} {a b : Int} (hsame : SameHand d e) (ha : EqualSeats f d) (hj : j < d.cfg.numPlayers)
    (h1 : received d p j = a) (h2 : received e p' (f j) = b) : p'.getD (f j) 0 - p.getD j 0 = b - a := by
  unfold received at h1 h2
  rw [hsame.contribution, ha.chips j hj] at h2
  omega

/-- **C110** (part: for clear pots without odd chips, see `C110_false`): two tables differ in nothing but the cards, and at the showdown
after the same bet players who put in as many chips hold each other's cards. Then they get each other's payouts, and everybody else gets the
same. -/
theorem C110_even_partial (h : InHand S d) (h' : InHand S e) (hc : SameButCards d e) (hn : NonNegative S d.cfg) (hrun : Running d)
    (hs : d.step bet = (d', res)) (hs' : e.step bet = (e', res')) (hsh : AtShowdown d') (hr : Ranks d' s) (hcl : ClearPot d' s)
    (h0 : oddAt d' s = 0) (ha : EqualSeats f d') (hx : Exchanged f d' e') :
    ∃ obs pays done obs' pays' done', res = .ok (obs, pays, done) ∧ res' = .ok (obs', pays', done') ∧
      ∀ j < d.cfg.numPlayers, pays'.getD (f j) 0 = pays.getD j 0 := by
  have hsame : SameHand d' e' := by
    have := step_hand hc (by obtain ⟨⟨a, ha⟩, -⟩ := hrun; rw [ha]; simp) bet
    rwa [hs, hs'] at this
  have hcfg : d'.cfg = d.cfg := by have := step_cfg d bet; rwa [hs] at this
  have hrun' : Running e := by obtain ⟨C, D, H, rfl⟩ := sameButCards_iff.1 hc; exact hrun
  have hn' : NonNegative S e.cfg := by obtain ⟨C, D, H, rfl⟩ := sameButCards_iff.1 hc; exact hn
  obtain ⟨obs, pays, done, h1, h2⟩ := C27_even h hn hrun hs hsh hr hcl h0
  obtain ⟨obs', pays', done', h1', h2'⟩ := C27_even h' hn' hrun' hs' (hsame.showdown hsh) (exchanged_ranks hsame ha hx hr)
    (clear_map hsame ha hcl) (by rw [odd_exchanged hsame ha]; exact h0)
  refine ⟨obs, pays, done, obs', pays', done', h1, h1', fun j hj => ?_⟩
  rw [← hcfg] at hj
  have := pays_exchanged hsame ha hj (h2 j hj) (h2' (f j) (by rw [hsame.cfg, ha.seat]; exact hj))
  rw [due_exchanged hsame ha] at this
  omega

/-- **C110** (part: for clear pots): with odd chips, when both hands are paid out, the payouts are exchanged up to the odd chips. -/
theorem C110_odd_partial {obs obs' : Observation} {pays pays' : List Int} {done done' : List Bool} (h : InHand S d) (h' : InHand S e)
    (hc : SameButCards d e) (hn : NonNegative S d.cfg) (hrun : Running d) (hs : d.step bet = (d', .ok (obs, pays, done)))
    (hs' : e.step bet = (e', .ok (obs', pays', done'))) (hsh : AtShowdown d') (hr : Ranks d' s) (hcl : ClearPot d' s) (ha : EqualSeats f d')
    (hx : Exchanged f d' e') (hj : j < d.cfg.numPlayers) : |pays'.getD (f j) 0 - pays.getD j 0| ≤ oddAt d' s := by
  have hsame : SameHand d' e' := by
    have := step_hand hc (by obtain ⟨⟨a, ha⟩, -⟩ := hrun; rw [ha]; simp) bet
    rwa [hs, hs'] at this
  have hcfg : d'.cfg = d.cfg := by have := step_cfg d bet; rwa [hs] at this
  have hrun' : Running e := by obtain ⟨C, D, H, rfl⟩ := sameButCards_iff.1 hc; exact hrun
  have hn' : NonNegative S e.cfg := by obtain ⟨C, D, H, rfl⟩ := sameButCards_iff.1 hc; exact hn
  obtain ⟨k, -, h2⟩ := C25_shares_partial h hn hrun hs hsh hr hcl
  obtain ⟨k', -, h2'⟩ := C25_shares_partial h' hn' hrun' hs' (hsame.showdown hsh) (exchanged_ranks hsame ha hx hr)
    (clear_map hsame ha hcl)
  rw [← hcfg] at hj
  have := pays_exchanged hsame ha hj (h2 j hj).1 (h2' (f j) (by rw [hsame.cfg, ha.seat]; exact hj)).1
  rw [due_exchanged hsame ha, odd_exchanged hsame ha] at this
  have o1 : 0 ≤ oddAt d' s := odd_nonneg
  rw [this, abs_le]
  constructor <;> split_ifs <;> omega

/-- **C110**: complete for showdowns between different hands, at tables whose antes differ by at most one chip and where nobody has too few
chips for blind and ante: side pots included, who exchanges the cards exchanges the payouts. -/
theorem C110_distinct (h : InHand S d) (h' : InHand S e) (hc : SameButCards d e) (hn : NonNegative S d.cfg) (hcov : Covers S d.cfg)
    (hca : CloseAntes d.cfg) (hrun : Running d) (hs : d.step bet = (d', res)) (hs' : e.step bet = (e', res')) (hsh : AtShowdown d')
    (hr : Ranks d' s) (ht : NoTies d' s) (ha : EqualSeats f d') (hx : Exchanged f d' e') :
    ∃ obs pays done obs' pays' done', res = .ok (obs, pays, done) ∧ res' = .ok (obs', pays', done') ∧
      ∀ j < d.cfg.numPlayers, pays'.getD (f j) 0 = pays.getD j 0 := by
  have hsame : SameHand d' e' := by
    have := step_hand hc (by obtain ⟨⟨a, ha⟩, -⟩ := hrun; rw [ha]; simp) bet
    rwa [hs, hs'] at this
  have hcfg : d'.cfg = d.cfg := by have := step_cfg d bet; rwa [hs] at this
  have hrun' : Running e := by obtain ⟨C, D, H, rfl⟩ := sameButCards_iff.1 hc; exact hrun
  have he : e.cfg = d.cfg := by obtain ⟨C, D, H, rfl⟩ := sameButCards_iff.1 hc; rfl
  have ht' : NoTies e' fun k => s (f.symm k) := by
    intro p hp q hq ip iq heq
    obtain ⟨i, rfl⟩ := f.surjective p
    obtain ⟨k, rfl⟩ := f.surjective q
    rw [hsame.cfg, ha.seat] at hp hq
    have tr : ∀ i < d'.cfg.numPlayers, isIn e' (f i) → isIn d' i := fun i hi h => by
      rw [← ha.still i hi]
      unfold isIn at h ⊢
      rwa [hsame.active] at h
    simp only [Equiv.symm_apply_apply] at heq
    rw [ht i hp k hq (tr i hp ip) (tr k hq iq) heq]
  obtain ⟨obs, pays, done, h1, h2⟩ := C25_distinct_partial h hn hcov hca hrun hs hsh hr ht
  obtain ⟨obs', pays', done', h1', h2'⟩ := C25_distinct_partial h' (by rw [he]; exact hn) (by rw [he]; exact hcov) (by rw [he]; exact hca)
    hrun' hs' (hsame.showdown hsh) (exchanged_ranks hsame ha hx hr) ht'
  refine ⟨obs, pays, done, obs', pays', done', h1, h1', fun j hj => ?_⟩
  rw [← hcfg] at hj
  have a := h2 j hj
  have b := h2' (f j) (by rw [hsame.cfg, ha.seat]; exact hj)
  rw [hsame.cfg, hsame.inB, hsame.contribution, fair_map (equalSeats_invariant ha) (fun i _ _ => moved f s i), ← a] at b
  have b : received e' pays' (f j) = received d' pays j := by exact_mod_cast b
  have := pays_exchanged (p := pays) hsame ha hj rfl b
  omega

/-- **C110**: complete for two players with chips and equal antes who put in the same: each gets what the other would get with these cards. -/
theorem C110_two_players (h : InHand S d) (h' : InHand S e) (hc : SameButCards d e) (hn : NonNegative S d.cfg) (hcov : Covers S d.cfg)
    (hea : EqualAntes d.cfg) (h2 : d.cfg.numPlayers = 2) (hpos : ∀ x ∈ S, 0 < x) (hrun : Running d) (hs : d.step bet = (d', res))
    (hs' : e.step bet = (e', res')) (hsh : AtShowdown d') (hr : Ranks d' s) (ha : EqualSeats f d') (hx : Exchanged f d' e') :
    ∃ obs pays done obs' pays' done', res = .ok (obs, pays, done) ∧ res' = .ok (obs', pays', done') ∧
      ∀ j < 2, pays'.getD (f j) 0 = pays.getD j 0 := by
  have hin : InHand S d' := by have := InHand.step bet h; rwa [hs] at this
  have hcfg : d'.cfg = d.cfg := by have := step_cfg d bet; rwa [hs] at this
  obtain ⟨x, hd, -, -, -, -, -, e1, e2, -⟩ := step_showdown h hn hrun hs hsh
  have hact : d'.active.length = 2 := by rw [e2, hd.active, ← e1, hcfg, h2]
  obtain ⟨hcl, h0⟩ := heads_up_clear hin (by rw [hcfg]; exact hn) (by rw [hcfg]; exact hcov) (by rw [hcfg]; exact hea)
    (by rw [hcfg]; exact h2) hpos hact hsh s
  have := C110_even_partial h h' hc hn hrun hs hs' hsh hr hcl h0 ha hx
  rwa [h2] at this

/-! ## witnesses -/

/-- two players who are in and put in as many chips are alike -/
theorem equalSeats_swap {i k : Nat} (hi : i < d.cfg.numPlayers) (hk : k < d.cfg.numPlayers) (h1 : isIn d i) (h2 : isIn d k)
    (h3 : contribution d i = contribution d k) : EqualSeats (Equiv.swap i k) d := by
  refine ⟨fun x => ?_, fun x _ => ?_, fun x _ => ?_⟩ <;> rw [Equiv.swap_apply_def] <;> split_ifs with hx hy <;> simp_all

instance {i k : Nat} {d e : Dealer} : Decidable (Exchanged (Equiv.swap i k) d e) :=
  decidable_of_iff (e.communityCards = d.communityCards ∧
      ∀ x < d.cfg.numPlayers, isIn d x → e.holeCards.getD (Equiv.swap i k x) [] = d.holeCards.getD x [])
    ⟨fun h => ⟨h.1, h.2⟩, fun h => ⟨h.board, h.cards⟩⟩

/-- two deals that differ in the cards of the seats 0 and 2 -/
def dealOne : Shuffle
  | x0 :: x1 :: x2 :: x3 :: x4 :: x5 :: l => x3 :: x4 :: x0 :: x5 :: x1 :: x2 :: l
  | l => l

def dealTwo : Shuffle
  | x0 :: x1 :: x2 :: x3 :: x4 :: x5 :: l => x0 :: x4 :: x3 :: x5 :: x1 :: x2 :: l
  | l => l

theorem isShuffle_dealOne : IsShuffle dealOne := by
  intro l
  unfold dealOne
  split
  · rw [List.perm_iff_count]
    intro a
    simp only [List.count_cons]
    omega
  · exact .refl _

theorem isShuffle_dealTwo : IsShuffle dealTwo := by
  intro l
  unfold dealTwo
  split
  · rw [List.perm_iff_count]
    intro a
    simp only [List.count_cons]
    omega
  · exact .refl _

theorem isShuffle_reverse {sh : Shuffle} (h : IsShuffle sh) : IsShuffle fun l => sh l.reverse :=
  fun l => (h l.reverse).trans l.reverse_perm

set_option synthInstance.maxSize 1024 in
/-- **C110 is false in general**: seats 0, 1 and 2 are all in with 9 chips, seat 3 put in 13. All but seat 2 have an ace, seat 2 has a king;
seat 0 wins 3 chips. With the cards of seats 0 and 2 exchanged, seat 2 wins 5. And seat 1, whose cards are the same, wins 5 in the first
case and 3 in the second. No chips are odd. -/
theorem C110_false : ∃ S d e d' e' res res', InHand S d ∧ InHand S e ∧ SameButCards d e ∧ d.step (.fin 12) = (d', res) ∧
    e.step (.fin 12) = (e', res') ∧ Running d ∧ (NonNegative S d.cfg ∧ Covers S d.cfg ∧ EqualAntes d.cfg) ∧ AtShowdown d' ∧
    Ranks d' (strength [0, 0, 1, 0]) ∧ oddAt d' (strength [0, 0, 1, 0]) = 0 ∧ d'.potCommits = [9, 9, 9, 13] ∧
    EqualSeats (Equiv.swap 0 2) d' ∧ Exchanged (Equiv.swap 0 2) d' e' ∧ res.map (·.2.1) = .ok [3, 5, -9, 1] ∧
    res'.map (·.2.1) = .ok [-9, 3, 5, 1] := by
  obtain ⟨S, d, e, d', e', res, res', h1, h2, h3, h4, h5, h6, h7, h8, h9, h10, h11, ⟨a1, a2, a3, a4, a5⟩, h12⟩ :=
    two_exist (mixed 4 3 2 [1, 1, 1, 1] [0, 0, 0, 0] 10) [.bet 9, .bet (-1), .bet (-1), .bet (-1)] isShuffle_dealOne isShuffle_dealTwo
      [.fin 8, .fin 8, .fin 8] (.fin 12)
      (P := fun S d d' r e' r' => (NonNegative S d.cfg ∧ Covers S d.cfg ∧ EqualAntes d.cfg) ∧ AtShowdown d' ∧
        Ranks d' (strength [0, 0, 1, 0]) ∧ oddAt d' (strength [0, 0, 1, 0]) = 0 ∧ d'.potCommits = [9, 9, 9, 13] ∧
        (0 < d'.cfg.numPlayers ∧ 2 < d'.cfg.numPlayers ∧ isIn d' 0 ∧ isIn d' 2 ∧ contribution d' 0 = contribution d' 2) ∧
        Exchanged (Equiv.swap 0 2) d' e' ∧ r = .ok [3, 5, -9, 1] ∧ r' = .ok [-9, 3, 5, 1]) (by decide +kernel)
  exact ⟨S, d, e, d', e', res, res', h1, h2, h3, h4, h5, h6, h7, h8, h9, h10, h11, equalSeats_swap a1 a2 a3 a4 a5, h12⟩

set_option synthInstance.maxSize 1024 in
/-- the hypotheses of `C110_even_partial`: the same cards, and nobody puts in more than 9 chips -/
example : ∃ S d e d' e' res res', InHand S d ∧ InHand S e ∧ SameButCards d e ∧ d.step (.fin 8) = (d', res) ∧
    e.step (.fin 8) = (e', res') ∧ Running d ∧ (NonNegative S d.cfg ∧ ClearPot d' (strength [0, 0, 1, 0]) ∧ oddAt d' (strength [0, 0, 1, 0]) = 0) ∧
    AtShowdown d' ∧ Ranks d' (strength [0, 0, 1, 0]) ∧
    EqualSeats (Equiv.swap 0 2) d' ∧ Exchanged (Equiv.swap 0 2) d' e' ∧ res.map (·.2.1) = .ok [3, 3, -9, 3] ∧
    res'.map (·.2.1) = .ok [-9, 3, 3, 3] := by
  obtain ⟨S, d, e, d', e', res, res', h1, h2, h3, h4, h5, h6, h7, h8, h9, ⟨a1, a2, a3, a4, a5⟩, h10⟩ :=
    two_exist (mixed 4 3 2 [1, 1, 1, 1] [0, 0, 0, 0] 10) [.bet 9, .bet (-1), .bet (-1), .bet (-1)] isShuffle_dealOne isShuffle_dealTwo
      [.fin 8, .fin 8, .fin 8] (.fin 8)
      (P := fun S d d' r e' r' => (NonNegative S d.cfg ∧ ClearPot d' (strength [0, 0, 1, 0]) ∧ oddAt d' (strength [0, 0, 1, 0]) = 0) ∧
        AtShowdown d' ∧ Ranks d' (strength [0, 0, 1, 0]) ∧
        (0 < d'.cfg.numPlayers ∧ 2 < d'.cfg.numPlayers ∧ isIn d' 0 ∧ isIn d' 2 ∧ contribution d' 0 = contribution d' 2) ∧
        Exchanged (Equiv.swap 0 2) d' e' ∧ r = .ok [3, 3, -9, 3] ∧ r' = .ok [-9, 3, 3, 3]) (by decide +kernel)
  exact ⟨S, d, e, d', e', res, res', h1, h2, h3, h4, h5, h6, h7, h8, h9, equalSeats_swap a1 a2 a3 a4 a5, h10⟩

set_option synthInstance.maxSize 1024 in
/-- the hypotheses of `C110_distinct`, with a side pot -/
example : ∃ S d e d' e' res res', InHand S d ∧ InHand S e ∧ SameButCards d e ∧ d.step (.fin 12) = (d', res) ∧
    e.step (.fin 12) = (e', res') ∧ Running d ∧ (NonNegative S d.cfg ∧ Covers S d.cfg ∧ CloseAntes d.cfg ∧ NoTies d' (strength [3, 4, 0, 5])) ∧
    AtShowdown d' ∧ Ranks d' (strength [3, 4, 0, 5]) ∧
    EqualSeats (Equiv.swap 0 2) d' ∧ Exchanged (Equiv.swap 0 2) d' e' ∧ res.map (·.2.1) = .ok [-9, -9, 27, -9] ∧
    res'.map (·.2.1) = .ok [27, -9, -9, -9] := by
  obtain ⟨S, d, e, d', e', res, res', h1, h2, h3, h4, h5, h6, h7, h8, h9, ⟨a1, a2, a3, a4, a5⟩, h10⟩ :=
    two_exist (mixed 4 1 7 [1, 1, 1, 1] [0, 0, 0, 0] 10) [.bet 9, .bet (-1), .bet (-1), .bet (-1)] (isShuffle_reverse isShuffle_dealOne) (isShuffle_reverse isShuffle_dealTwo)
      [.fin 8, .fin 8, .fin 8] (.fin 12)
      (P := fun S d d' r e' r' => (NonNegative S d.cfg ∧ Covers S d.cfg ∧ CloseAntes d.cfg ∧ NoTies d' (strength [3, 4, 0, 5])) ∧
        AtShowdown d' ∧ Ranks d' (strength [3, 4, 0, 5]) ∧
        (0 < d'.cfg.numPlayers ∧ 2 < d'.cfg.numPlayers ∧ isIn d' 0 ∧ isIn d' 2 ∧ contribution d' 0 = contribution d' 2) ∧
        Exchanged (Equiv.swap 0 2) d' e' ∧ r = .ok [-9, -9, 27, -9] ∧ r' = .ok [27, -9, -9, -9]) (by decide +kernel)
  exact ⟨S, d, e, d', e', res, res', h1, h2, h3, h4, h5, h6, h7, h8, h9, equalSeats_swap a1 a2 a3 a4 a5, h10⟩

set_option synthInstance.maxSize 1024 in
/-- the hypotheses of `C110_two_players` -/
example : ∃ S d e d' e' res res', InHand S d ∧ InHand S e ∧ SameButCards d e ∧ d.step (.fin 0) = (d', res) ∧
    e.step (.fin 0) = (e', res') ∧ Running d ∧ (NonNegative S d.cfg ∧ Covers S d.cfg ∧ EqualAntes d.cfg ∧ d.cfg.numPlayers = 2 ∧ ∀ x ∈ S, 0 < x) ∧
    AtShowdown d' ∧ Ranks d' (strength [1, 0]) ∧
    EqualSeats (Equiv.swap 0 1) d' ∧ Exchanged (Equiv.swap 0 1) d' e' ∧ res.map (·.2.1) = .ok [-2, 2] ∧ res'.map (·.2.1) = .ok [2, -2] := by
  obtain ⟨S, d, e, d', e', res, res', h1, h2, h3, h4, h5, h6, h7, h8, h9, ⟨a1, a2, a3, a4, a5⟩, h10⟩ :=
    two_exist (mixed 2 1 2 [0, 0] [1, 2] 10) [.bet (-1)] isShuffle_id (isShuffle_reverse isShuffle_id) [.fin 1, .fin 0, .fin 0] (.fin 0)
      (P := fun S d d' r e' r' => (NonNegative S d.cfg ∧ Covers S d.cfg ∧ EqualAntes d.cfg ∧ d.cfg.numPlayers = 2 ∧ ∀ x ∈ S, 0 < x) ∧
        AtShowdown d' ∧ Ranks d' (strength [1, 0]) ∧
        (0 < d'.cfg.numPlayers ∧ 1 < d'.cfg.numPlayers ∧ isIn d' 0 ∧ isIn d' 1 ∧ contribution d' 0 = contribution d' 1) ∧
        Exchanged (Equiv.swap 0 1) d' e' ∧ r = .ok [-2, 2] ∧ r' = .ok [2, -2]) (by decide +kernel)
  exact ⟨S, d, e, d', e', res, res', h1, h2, h3, h4, h5, h6, h7, h8, h9, equalSeats_swap a1 a2 a3 a4 a5, h10⟩

set_option synthInstance.maxSize 1024 in
/-- the hypotheses of `C110_odd_partial`: seats 0 and 2 exchange a king and an ace. Seat 3, with an ace, gets the odd chip in one case only. -/
example : ∃ S d e d' e' res res', InHand S d ∧ InHand S e ∧ SameButCards d e ∧ d.step (.fin 0) = (d', res) ∧
    e.step (.fin 0) = (e', res') ∧ Running d ∧ (NonNegative S d.cfg ∧ ClearPot d' (strength [1, 0, 0, 0]) ∧ oddAt d' (strength [1, 0, 0, 0]) = 1 ∧ d'.potCommits = [2, 1, 2, 2]) ∧
    AtShowdown d' ∧ Ranks d' (strength [1, 0, 0, 0]) ∧ EqualSeats (Equiv.swap 0 2) d' ∧ Exchanged (Equiv.swap 0 2) d' e' ∧
    res.map (·.2.1) = .ok [-2, -1, 2, 1] ∧ res'.map (·.2.1) = .ok [1, -1, -2, 2] := by
  obtain ⟨S, d, e, d', e', res, res', h1, h2, h3, h4, h5, h6, h7, h8, h9, ⟨a1, a2, a3, a4, a5⟩, h10⟩ :=
    two_exist (mixed 4 3 2 [0, 0, 0, 0] [1, 2, 0, 0] 100)
      [.bet (-1), .bet (-1), .bet (-1), .deal, .bet (-1), .bet (-1), .bet (-1), .deal, .bet (-1), .bet (-1), .bet (-1), .deal, .bet (-1),
        .bet (-1), .bet (-1)] isShuffle_dealTwo isShuffle_dealOne [.fin 2, .fin 2, .fin (-1), .fin 0, .fin 0, .fin 0] (.fin 0)
      (P := fun S d d' r e' r' => (NonNegative S d.cfg ∧ ClearPot d' (strength [1, 0, 0, 0]) ∧ oddAt d' (strength [1, 0, 0, 0]) = 1 ∧ d'.potCommits = [2, 1, 2, 2]) ∧
        AtShowdown d' ∧ Ranks d' (strength [1, 0, 0, 0]) ∧
        (0 < d'.cfg.numPlayers ∧ 2 < d'.cfg.numPlayers ∧ isIn d' 0 ∧ isIn d' 2 ∧ contribution d' 0 = contribution d' 2) ∧
        Exchanged (Equiv.swap 0 2) d' e' ∧ r = .ok [-2, -1, 2, 1] ∧ r' = .ok [1, -1, -2, 2]) (by decide +kernel)
  exact ⟨S, d, e, d', e', res, res', h1, h2, h3, h4, h5, h6, h7, h8, h9, equalSeats_swap a1 a2 a3 a4 a5, h10⟩

end Clubs

namespace Clubs.Numpy

open Spec

variable {S : List Int} {d e d' e' d0 : Dealer} {bet : PyNum} {s : Nat → Int} {j : Nat} {res res' : Except Err StepOut}
  {f : Equiv.Perm Nat}

/-- **C110** for the array engine, with side pots and ties: who exchanges the cards exchanges the payouts, up to the odd chips. -/
theorem C110_exchange (h : ArrayInHand S d) (h' : ArrayInHand S e) (hc : SameButCards d e) (hn : NonNegative S d.cfg) (hz : SizesOk d.cfg)
    (hcov : Covers S d.cfg) (hca : CloseAntes d.cfg) (hrun : Running d) (hs : step d bet = (d', res)) (hs' : step e bet = (e', res'))
    (hsh : AtShowdown d') (hr : Ranks d' s) (ha : EqualSeats f d') (hx : Exchanged f d' e') :
    ∃ obs pays done obs' pays' done', res = .ok (obs, pays, done) ∧ res' = .ok (obs', pays', done') ∧
      ∀ j < d.cfg.numPlayers, |pays'.getD (f j) 0 - pays.getD j 0| ≤ oddAt d' s := by
  have hsame : SameHand d' e' := by
    have := step_hand hc (by obtain ⟨⟨a, ha⟩, -⟩ := hrun; rw [ha]; simp) bet
    rwa [hs, hs'] at this
  have hcfg : d'.cfg = d.cfg := by have := step_cfg d bet; rwa [hs] at this
  have hrun' : Running e := by obtain ⟨C, D, H, rfl⟩ := sameButCards_iff.1 hc; exact hrun
  have he : e.cfg = d.cfg := by obtain ⟨C, D, H, rfl⟩ := sameButCards_iff.1 hc; rfl
  obtain ⟨obs, pays, done, h1, -, w, -, h2⟩ := C71_fair h hn hz hcov hca hrun hs hsh hr
  obtain ⟨obs', pays', done', h1', -, w', -, h2'⟩ := C71_fair h' (by rw [he]; exact hn) (by rw [he]; exact hz) (by rw [he]; exact hcov)
    (by rw [he]; exact hca) hrun' hs' (hsame.showdown hsh) (exchanged_ranks hsame ha hx hr)
  refine ⟨obs, pays, done, obs', pays', done', h1, h1', fun j hj => ?_⟩
  rw [← hcfg] at hj
  have := pays_exchanged hsame ha hj (h2 j hj).1 (h2' (f j) (by rw [hsame.cfg, ha.seat]; exact hj)).1
  rw [due_exchanged hsame ha, odd_exchanged hsame ha] at this
  have o1 : 0 ≤ oddAt d' s := odd_nonneg
  rw [this, abs_le]
  constructor <;> split_ifs <;> omega

set_option synthInstance.maxSize 1024 in
/-- the hypotheses of `C110_exchange`: the hand of `Clubs.C110_false` -/
example : ∃ S d e d' e' res res', ArrayInHand S d ∧ ArrayInHand S e ∧ SameButCards d e ∧ step d (.fin 12) = (d', res) ∧
    step e (.fin 12) = (e', res') ∧ Running d ∧ (NonNegative S d.cfg ∧ SizesOk d.cfg ∧ Covers S d.cfg ∧ CloseAntes d.cfg ∧ oddAt d' (strength [0, 0, 1, 0]) = 0) ∧
    AtShowdown d' ∧ Ranks d' (strength [0, 0, 1, 0]) ∧
    EqualSeats (Equiv.swap 0 2) d' ∧ Exchanged (Equiv.swap 0 2) d' e' ∧ res.map (·.2.1) = .ok [3, 3, -9, 3] ∧
    res'.map (·.2.1) = .ok [-9, 3, 3, 3] := by
  obtain ⟨S, d, e, d', e', res, res', h1, h2, h3, h4, h5, h6, h7, h8, h9, ⟨a1, a2, a3, a4, a5⟩, h10⟩ :=
    two_exist (mixed 4 3 2 [1, 1, 1, 1] [0, 0, 0, 0] 10) [.bet 9, .bet (-1), .bet (-1), .bet (-1)] isShuffle_dealOne isShuffle_dealTwo
      [.fin 8, .fin 8, .fin 8] (.fin 12)
      (P := fun S d d' r e' r' => (NonNegative S d.cfg ∧ SizesOk d.cfg ∧ Covers S d.cfg ∧ CloseAntes d.cfg ∧ oddAt d' (strength [0, 0, 1, 0]) = 0) ∧
        AtShowdown d' ∧ Ranks d' (strength [0, 0, 1, 0]) ∧
        (0 < d'.cfg.numPlayers ∧ 2 < d'.cfg.numPlayers ∧ isIn d' 0 ∧ isIn d' 2 ∧ contribution d' 0 = contribution d' 2) ∧
        Exchanged (Equiv.swap 0 2) d' e' ∧ r = .ok [3, 3, -9, 3] ∧ r' = .ok [-9, 3, 3, 3]) (by decide +kernel)
  exact ⟨S, d, e, d', e', res, res', h1, h2, h3, h4, h5, h6, h7, h8, h9, equalSeats_swap a1 a2 a3 a4 a5, h10⟩

end Clubs.Numpy

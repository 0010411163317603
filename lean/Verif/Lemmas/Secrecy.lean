import Verif.Spec.Secrecy
import Verif.Lemmas.Dealing
import Verif.Lemmas.Steps

/-!
# Helper lemmas: nothing but the showdown looks at hole cards
-/

namespace Clubs

open Spec

/-- the same table with other hole cards and another deck -/
def Dealer.swap (d : Dealer) (H : List (List Card)) (D : Deck) : Dealer := { d with holeCards := H, deck := D }

theorem Spec.Alike.eq_swap {d e : Dealer} (h : Alike d e) : e = d.swap e.holeCards e.deck := h.visible

theorem swap_betSizes (d : Dealer) (H : List (List Card)) (D : Deck) : (d.swap H D).betSizes = d.betSizes := rfl

theorem swap_moveAction (d : Dealer) (H : List (List Card)) (D : Deck) :
    (d.swap H D).moveAction = d.moveAction.swap H D := rfl

theorem swap_act (d : Dealer) (H : List (List Card)) (D : Deck) (f : Bool) (c b : Int) :
    (d.swap H D).act f c b = (d.act f c b).swap H D := by
  rw [act_eq, act_eq]
  rfl

theorem swap_done (d : Dealer) (H : List (List Card)) (D : Deck) : (d.swap H D).done = d.done := rfl

theorem sum_drop (l : List Int) (k : Nat) :
    ((l.drop k).map Int.toNat).sum = (l.getD k 0).toNat + ((l.drop (k + 1)).map Int.toNat).sum := by
  by_cases h : k < l.length
  · rw [List.drop_eq_getElem_cons h, List.map_cons, List.sum_cons, getD_eq _ _ _ h]
  · rw [List.drop_of_length_le (by omega), List.drop_of_length_le (by omega), getD_out _ _ _ (by omega)]
    simp

theorem take_of_take {l l' : List Card} {m n : Nat} (h : l'.take n = l.take n) (hm : m ≤ n) : l'.take m = l.take m := by
  have := congrArg (List.take m) h
  rwa [List.take_take, List.take_take, Nat.min_eq_left hm] at this

theorem drop_of_take {l l' : List Card} {m n : Nat} (h : l'.take (m + n) = l.take (m + n)) :
    (l'.drop m).take n = (l.drop m).take n := by
  have := congrArg (List.drop m) h
  rwa [List.drop_take, List.drop_take, Nat.add_sub_cancel_left] at this

theorem dealStreets_same (fuel : Nat) : ∀ (d e : Dealer), Alike d e →
    Alike (dealStreets fuel d) (dealStreets fuel e) ∧ (dealStreets fuel e).holeCards = e.holeCards ∧
      (dealStreets fuel d).holeCards = d.holeCards := by
  induction fuel with
  | zero => intro d e h; exact ⟨h, rfl, rfl⟩
  | succ fuel ih =>
    intro d e h
    obtain ⟨hv, hs, hc⟩ := h
    generalize e.holeCards = H at *
    generalize e.deck = D at *
    subst hv
    have hsum : toDeal d = (d.cfg.numCommunityCards.getD (d.street + 1) 0).toNat
        + ((d.cfg.numCommunityCards.drop (d.street + 1 + 1)).map Int.toNat).sum := sum_drop _ _
    rw [hsum] at hc
    unfold dealStreets
    simp only []
    split
    · exact ⟨⟨rfl, hs, take_of_take hc (by show _ ≤ _; simp only [toDeal]; omega)⟩, rfl, rfl⟩
    · rw [Deck.draw_eq, Deck.draw_eq]
      simp only []
      have h1 := take_of_take hc (Nat.le_add_right _ _)
      have h2 := drop_of_take hc
      set r := d.cfg.numCommunityCards.getD (d.street + 1) 0 with hr
      have key : Alike
          { d with street := d.street + 1, communityCards := d.communityCards ++ d.deck.cards.take r.toNat,
                   deck := { d.deck with cards := d.deck.cards.drop r.toNat } }
          { d with street := d.street + 1, communityCards := d.communityCards ++ D.cards.take r.toNat, holeCards := H,
                   deck := { D with cards := D.cards.drop r.toNat } } := by
        refine ⟨?_, hs, h2⟩
        rw [h1]
      split
      · rename_i hx
        rw [if_pos (by exact hx)]
        exact ⟨key, rfl, rfl⟩
      · rename_i hx
        rw [if_neg (by exact hx)]
        exact ih _ _ key

theorem nextStreet_same {d e : Dealer} (h : Alike d e) :
    Alike d.nextStreet e.nextStreet ∧ e.nextStreet.holeCards = e.holeCards := by
  obtain ⟨hv, hs, hc⟩ := h
  have h0 : Alike ({ d with action := some d.button } : Dealer).moveAction ({ e with action := some e.button } : Dealer).moveAction := by
    generalize e.holeCards = H at *
    generalize e.deck = D at *
    subst hv
    exact ⟨rfl, hs, hc⟩
  have hn : e.cfg = d.cfg := by rw [hv]
  obtain ⟨h1, h2, h3⟩ := dealStreets_same (d.cfg.numStreets + 1) _ _ h0
  have e1 : e.nextStreet = { dealStreets (d.cfg.numStreets + 1) ({ e with action := some e.button } : Dealer).moveAction with
      streetCommits := List.replicate (dealStreets (d.cfg.numStreets + 1) ({ e with action := some e.button } : Dealer).moveAction).cfg.numPlayers 0
      streetOption := (dealStreets (d.cfg.numStreets + 1) ({ e with action := some e.button } : Dealer).moveAction).active.map fun a => !a
      streetRaises := 0 } := by
    rw [← hn]; rfl
  have e2 : d.nextStreet = { dealStreets (d.cfg.numStreets + 1) ({ d with action := some d.button } : Dealer).moveAction with
      streetCommits := List.replicate (dealStreets (d.cfg.numStreets + 1) ({ d with action := some d.button } : Dealer).moveAction).cfg.numPlayers 0
      streetOption := (dealStreets (d.cfg.numStreets + 1) ({ d with action := some d.button } : Dealer).moveAction).active.map fun a => !a
      streetRaises := 0 } := rfl
  rw [e1, e2]
  obtain ⟨hv, hs, hc⟩ := h1
  generalize (dealStreets (d.cfg.numStreets + 1) ({ e with action := some e.button } : Dealer).moveAction) = e' at *
  generalize (dealStreets (d.cfg.numStreets + 1) ({ d with action := some d.button } : Dealer).moveAction) = d' at *
  refine ⟨⟨?_, hs, hc⟩, h2⟩
  generalize e'.holeCards = H at *
  generalize e'.deck = D at *
  subst hv
  rfl

theorem Spec.Alike.symm {d e : Dealer} (h : Alike d e) : Alike e d := by
  obtain ⟨hv, hs, hc⟩ := h
  generalize e.holeCards = H at *
  generalize e.deck = D at *
  subst hv
  exact ⟨rfl, hs.symm, hc.symm⟩

theorem act_same {d e : Dealer} (h : Alike d e) (f : Bool) (c b : Int) :
    Alike (d.act f c b) (e.act f c b) ∧ (e.act f c b).holeCards = e.holeCards := by
  obtain ⟨hv, hs, hc⟩ := h
  generalize e.holeCards = H at *
  generalize e.deck = D at *
  subst hv
  have h1 := swap_act d H D f c b
  have h2 : ((d.swap H D).act f c b).holeCards = H := by rw [h1]; rfl
  refine ⟨⟨?_, ?_, ?_⟩, h2⟩
  · show (d.swap H D).act f c b = _
    have h3 : ((d.swap H D).act f c b).deck = D := by rw [h1]; rfl
    show _ = { d.act f c b with
      holeCards := ((d.swap H D).act f c b).holeCards, deck := ((d.swap H D).act f c b).deck }
    rw [h2, h3, h1]; rfl
  · show ((d.swap H D).act f c b).holeCards.length = _
    rw [h2, hs, act_eq]; rfl
  · show ((d.swap H D).act f c b).deck.cards.take _ = _
    rw [h1, act_eq]
    exact hc

theorem observation_some {d : Dealer} {x : Bool} {o : Observation} {b : Nat} (ha : d.action = some b)
    (h : d.observation x = .ok o) : b < d.holeCards.length ∧ o.holeCards = d.holeCards.getD b [] := by
  unfold Dealer.observation at h
  split at h
  · cases h
  · simp only [ha] at h
    split at h
    · cases h
    · rename_i hole hg
      cases h
      by_cases hb : b < d.holeCards.length
      · rw [pyGet_nat hb] at hg
        cases hg
        exact ⟨hb, (getD_eq _ _ _ hb).symm⟩
      · unfold pyGet at hg
        simp only [] at hg
        rw [if_neg (by omega), if_neg (by omega), Int.toNat_natCast, List.getElem?_eq_none (by omega)] at hg
        cases hg

theorem observation_same {d e : Dealer} {obs : Observation} {b : Nat} (h : Alike d e)
    (ho : d.observation false = .ok obs) (ha : d.action = some b) :
    e.observation false = .ok { obs with holeCards := e.holeCards.getD b [] } := by
  obtain ⟨hb, -⟩ := observation_some ha ho
  have hlen := h.seats
  unfold Dealer.observation at ho ⊢
  have hbs : e.betSizes = d.betSizes := by rw [h.eq_swap, swap_betSizes]
  have hact : e.action = some b := by rw [h.visible]; exact ha
  rw [if_neg Bool.false_ne_true] at ho ⊢
  rw [hbs]
  split at ho
  · cases ho
  · rename_i hbb
    simp only [hact, ha] at ho ⊢
    rw [pyGet_nat hb] at ho
    rw [pyGet_nat (by omega)]
    cases ho
    rw [getD_eq _ _ _ (by omega)]
    have e1 : e.active = d.active := by rw [h.visible]
    have e2 : e.button = d.button := by rw [h.visible]
    have e3 : e.communityCards = d.communityCards := by rw [h.visible]
    have e4 : e.pot = d.pot := by rw [h.visible]
    have e5 : e.stacks = d.stacks := by rw [h.visible]
    have e6 : e.streetCommits = d.streetCommits := by rw [h.visible]
    simp only [e1, e2, e3, e4, e5, e6]

theorem finish_same {d e d' : Dealer} {out : StepOut} {b : Nat} (h : Alike d e) (hf : d.finish = (d', .ok out))
    (ha : d'.action = some b) :
    d' = d ∧ b < e.holeCards.length ∧
      e.finish = (e, .ok ({ out.1 with holeCards := e.holeCards.getD b [] }, out.2)) := by
  have hna : d.done.all id = false := by
    by_contra hc
    rw [Bool.not_eq_false] at hc
    unfold Dealer.finish at hf
    simp only [] at hf
    split at hf
    · cases hf
    · rw [if_pos hc] at hf
      have := (Prod.mk.inj hf).1
      rw [← this] at ha
      cases ha
  have hrun : ¬ (d.street ≥ d.cfg.numStreets ∨ countTrue d.active ≤ 1) := by
    intro hc
    rw [Dealer.done, if_pos hc] at hna
    simp at hna
  have hna' : e.done.all id = false := by rw [h.eq_swap, swap_done]; exact hna
  have hpd : d.payouts = .ok (List.zipWith (fun c (a : Bool) => if a then 0 else -1 * c) d.potCommits d.active) := by
    unfold Dealer.payouts
    simp only []
    rw [if_neg (by omega), if_neg (by omega)]
  have hpe : e.payouts = d.payouts := by
    rw [hpd, h.eq_swap]
    unfold Dealer.payouts
    simp only []
    rw [if_neg (by show ¬ countTrue d.active = 1; omega), if_neg (by show ¬ d.street ≥ d.cfg.numStreets; omega)]
    rfl
  unfold Dealer.finish at hf ⊢
  rw [hpd] at hf
  rw [hpe, hpd]
  simp only [hna, hna', if_neg Bool.false_ne_true] at hf ⊢
  have hd : d' = d := ((Prod.mk.inj hf).1).symm
  subst hd
  have h2 := (Prod.mk.inj hf).2
  split at h2
  · cases h2
  · rename_i obs ho
    cases h2
    obtain ⟨hb, -⟩ := observation_some ha ho
    have hlen := h.seats
    refine ⟨rfl, by omega, ?_⟩
    have hee := observation_same h ho ha
    rw [hee]
    have hdone : e.done = d'.done := by rw [h.eq_swap, swap_done]
    rw [hdone]

theorem step_same {d e d' : Dealer} {bet : PyNum} {out : StepOut} {b : Nat} (h : Alike d e)
    (hs : d.step bet = (d', .ok out)) (ha : d'.action = some b) :
    ∃ e', e.step bet = (e', .ok ({ out.1 with holeCards := e.holeCards.getD b [] }, out.2)) ∧ Alike d' e' ∧
      e'.holeCards = e.holeCards ∧ b < e.holeCards.length := by
  have hact : e.action = d.action := by rw [h.visible]
  have hbs : e.betSizes = d.betSizes := by rw [h.eq_swap, swap_betSizes]
  unfold Dealer.step at hs ⊢
  rw [hact, hbs]
  split at hs
  · split at hs
    · rename_i hn _
      have := (Prod.mk.inj hs).1
      rw [← this, hn] at ha
      cases ha
    · cases hs
  · simp only [] at hs ⊢
    split at hs
    · cases hs
    · rename_i bt hbt
      split at hs
      · cases hs
      · rename_i c lo hi hb3
        obtain ⟨h1, h2⟩ := act_same h bet.isNeg c (cleanBet bt c lo hi)
        have hag : (e.act bet.isNeg c (cleanBet bt c lo hi)).allAgreed = (d.act bet.isNeg c (cleanBet bt c lo hi)).allAgreed := by
          rw [h1.visible]; rfl
        rw [hag]
        split at hs
        · rename_i hx
          rw [if_pos hx]
          obtain ⟨h3, h4⟩ := nextStreet_same h1
          obtain ⟨e1, e2, e3⟩ := finish_same h3 hs ha
          rw [h4, h2] at e2
          rw [e3, h4, h2]
          exact ⟨_, rfl, by rw [e1]; exact h3, h4.trans h2, e2⟩
        · rename_i hx
          rw [if_neg hx]
          obtain ⟨e1, e2, e3⟩ := finish_same h1 hs ha
          rw [h2] at e2
          rw [e3, h2]
          exact ⟨_, rfl, by rw [e1]; exact h1, h2, e2⟩

theorem step_notDone {d d' : Dealer} {bet : PyNum} {out : StepOut} {b : Nat} (hs : d.step bet = (d', .ok out))
    (ha : d'.action = some b) : d'.done.all id = false := by
  unfold Dealer.step at hs
  split at hs
  · split at hs
    · rename_i hn _
      have := (Prod.mk.inj hs).1
      rw [← this, hn] at ha
      cases ha
    · cases hs
  · simp only [] at hs
    split at hs
    · cases hs
    · split at hs
      · cases hs
      · rename_i bt _ _ c lo hi hb3
        generalize (if (d.act bet.isNeg c (cleanBet bt c lo hi)).allAgreed = true then
          (d.act bet.isNeg c (cleanBet bt c lo hi)).nextStreet else d.act bet.isNeg c (cleanBet bt c lo hi)) = x at hs
        rcases finish_cases x with ⟨y, hx, hf⟩ | ⟨p, hp, hd, hf1, hf2⟩ | ⟨p, hp, hd, hf1, hf2⟩
        · rw [hf] at hs; cases hs
        · rw [hs] at hf1
          rw [show d' = _ from hf1] at ha
          cases ha
        · rw [hs] at hf1
          rw [show d' = _ from hf1]
          exact hd

end Clubs

import Verif.Model.NumpyRender
import Verif.Spec.NumpyRender
import Verif.Spec.Secrecy
import Verif.Props.Ascii
import Verif.Props.NumpyFlow

/-!
# The picture of a table of the array engine
-/

namespace Clubs.Numpy

open Spec

variable {S : List Int} {d d' e : Dealer} {bet : PyNum} {out : StepOut} {s : Str} {c : RenderConfig} {pays : List Int}

theorem array_players (h : ArrayReachable d) : 2 ≤ d.cfg.numPlayers ∧ d.cfg.numPlayers ≤ 10 := by
  induction h with
  | new hs h =>
    unfold new Dealer.new at h
    simp only [bind, Except.bind, pure, Except.pure] at h
    repeat' (split at h; · simp at h)
    rename_i p hp
    simp only [Except.ok.injEq] at h
    subst h
    split at hp
    · rename_i q hq
      exact (posDict_iff _).1 ⟨q, hq⟩
    · cases hp
  | reset rb rs hs h ih => rw [reset_cfg]; exact ih
  | step bet h ih => rw [step_cfg]; exact ih
  | trick h hp ht ih => exact ih
  | untrick h ih => exact ih

theorem array_hole (h : ArrayInHand S d) : Seated (atSeat d) ∧ d.holeCards.length = d.cfg.numPlayers := by
  rcases array_induct (P := fun _ _ => True) (fun _ _ _ _ _ _ _ _ _ => trivial)
    (fun _ _ _ _ _ _ _ _ _ _ _ _ _ => trivial) h with ⟨-, hl, -⟩ | ⟨x, p, rfl, -, hl, hp, -⟩
  · exact ⟨hl.seated, hl.holeLen⟩
  · exact ⟨settle_seated (d := atSeat x) hl.seated (payouts_length hl.seated hp), hl.holeLen⟩

theorem viewer_pos (h : ArrayReachable d) : d.viewer.playerPos.length = d.cfg.numPlayers := by
  obtain ⟨h2, h10⟩ := array_players h
  exact (posDict_ok d.cfg.numPlayers (by omega) h2).1

theorem array_picOk (h : ArrayInHand S d) (hr : ArrayReachable d) (hb : d.button < d.cfg.numPlayers) (hc : renderConfig d = .ok c) :
    PicOk d.viewer c d.cfg.numPlayers := by
  obtain ⟨hs, hh⟩ := array_hole h
  obtain ⟨h2, h10⟩ := array_players hr
  obtain ⟨p1, p2, p3⟩ := posDict_ok d.cfg.numPlayers (by omega) h2
  unfold renderConfig at hc
  split at hc
  · cases hc
  · rename_i p hp
    cases hc
    have e1 : d.active.length = d.cfg.numPlayers := hs.active
    have e2 : d.stacks.length = d.cfg.numPlayers := hs.stacks
    exact ⟨p1, p2, p3, hh, hs.stacks, hs.active, by simp [e1, e2], hs.streetCommits, payouts_length hs hp,
      hb, hs.action⟩

theorem array_done_iff (d : Dealer) : (done d).all id = true ↔ HandOver d := done_all_iff d

/-- `str` for a table of which the payouts are known -/
theorem str_of (h : ArrayInHand S d) (hr : ArrayReachable d) (hp : payouts d = .ok pays) :
    ∃ c, renderConfig d = .ok c ∧ c.payouts = pays ∧
      str d = if d.button < d.cfg.numPlayers then .ok (parseString d.viewer c) else .error .indexError := by
  obtain ⟨c, hc, hpc, hac, hbc⟩ : ∃ c, renderConfig d = .ok c ∧ c.payouts = pays ∧ c.action = d.action ∧ c.button = d.button := by
    unfold renderConfig
    rw [hp]
    exact ⟨_, rfl, rfl, rfl, rfl⟩
  refine ⟨c, hc, hpc, ?_⟩
  unfold str
  rw [hc]
  simp only []
  unfold parseAny
  rw [viewer_pos hr, hac, hbc, if_neg]
  · by_cases hb : d.button < d.cfg.numPlayers
    · rw [if_neg (by omega), if_pos hb]
    · rw [if_pos (by omega), if_neg hb]
  · cases ha : d.action with
    | none => simp
    | some a =>
      have : a < d.cfg.numPlayers := (array_hole h).1.action a ha
      simp
      omega

theorem str_ok (h : ArrayInHand S d) (hr : ArrayReachable d) (hs : str d = .ok s) :
    ∃ c pays, payouts d = .ok pays ∧ renderConfig d = .ok c ∧ c.payouts = pays ∧ d.button < d.cfg.numPlayers ∧
      s = parseString d.viewer c := by
  cases hp : payouts d with
  | error e =>
    unfold str renderConfig at hs
    rw [hp] at hs
    cases hs
  | ok pays =>
    obtain ⟨c, hc, hpc, he⟩ := str_of h hr hp
    rw [he] at hs
    split at hs
    · rename_i hb
      cases hs
      exact ⟨c, pays, rfl, hc, hpc, hb, rfl⟩
    · cases hs

/-- the fields of the picture -/
theorem array_fields (h : ArrayInHand S d) (hr : ArrayReachable d) (hb : d.button < d.cfg.numPlayers) (hp : payouts d = .ok pays)
    (hc : renderConfig d = .ok c) :
    (∀ i < d.cfg.numPlayers,
      ArraySeatText d i ((strConfig d.viewer c).get ("p" ++ toString (d.viewer.pos i))) ∧
      (HandOver d → Amount ((strConfig d.viewer c).get ("p" ++ toString (d.viewer.pos i) ++ "c")) (pays.getD i 0)) ∧
      (¬ HandOver d → Amount ((strConfig d.viewer c).get ("p" ++ toString (d.viewer.pos i) ++ "c")) (streetBet d i)) ∧
      (strConfig d.viewer c).get ("b" ++ toString (d.viewer.pos i)) = (if i = d.button then "D ".toList else []) ∧
      (HandOver d → (strConfig d.viewer c).get ("a" ++ toString (d.viewer.pos i)) = []) ∧
      (∀ a, d.action = some a → ¬ HandOver d → (strConfig d.viewer c).get ("a" ++ toString (d.viewer.pos i)) =
        if isIn d i ∧ stack d i = 0 then "A".toList else if i = a then "X".toList else [])) ∧
    (¬ HandOver d → Amount ((strConfig d.viewer c).get "pot") d.pot) ∧ (HandOver d → (strConfig d.viewer c).get "pot" = "0".toList) ∧
    (strConfig d.viewer c).get "ccs" = "[".toList ++ join ",".toList (d.communityCards.map Card.str ++
      List.replicate (d.cfg.numCommunityCards.sum - d.communityCards.length).toNat "--".toList) ++ "]".toList := by
  obtain ⟨hst, hh⟩ := array_hole h
  have hact : d.active.length = d.cfg.numPlayers := hst.active
  have hstk : d.stacks.length = d.cfg.numPlayers := hst.stacks
  have ok := array_picOk h hr hb hc
  unfold renderConfig at hc
  rw [hp] at hc
  simp only [Except.ok.injEq] at hc
  have hdone : c.done = true ↔ HandOver d := by rw [← array_done_iff, ← hc]
  have c1 : c.action = d.action := by rw [← hc]
  have c2 : c.active = d.active := by rw [← hc]
  have c3 : c.holeCards = d.holeCards := by rw [← hc]
  have c4 : c.stacks = d.stacks := by rw [← hc]
  have c5 : c.payouts = pays := by rw [← hc]
  have c6 : c.streetCommits = d.streetCommits := by rw [← hc]
  have c7 : c.button = d.button := by rw [← hc]
  have c8 : c.pot = d.pot := by rw [← hc]
  have c9 : c.communityCards = d.communityCards := by rw [← hc]
  have c10 : c.allIn = List.zipWith (fun (active : Bool) stack => active && stack == 0) d.active d.stacks := by rw [← hc]
  refine ⟨?_, ?_, ?_, ?_⟩
  · intro i hi
    refine ⟨?_, ?_, ?_, ?_, ?_, ?_⟩
    · rw [get_p ok hi]
      unfold playerString
      rw [c1, c2, c3, c4]
      have hnum : intStr ((i : Int) + 1) = decimal (i + 1) := by
        unfold intStr
        rw [if_neg (by omega)]
        rfl
      by_cases hin : d.active.getD i false = true
      · rw [hin]
        simp only [Bool.not_true, Bool.false_eq_true, if_false]
        by_cases hsee : c.done = true ∨ some i = d.action
        · rw [if_pos hsee]
          refine ⟨_, _, ?_, .inr (.inl ⟨hin, ?_, rfl⟩), commaFmt_amount _⟩
          · simp only [List.append_assoc, hnum]
            rfl
          · rcases hsee with h1 | h1
            · exact .inl (hdone.1 h1)
            · exact .inr h1.symm
        · rw [if_neg hsee]
          refine ⟨_, _, ?_, .inr (.inr ⟨hin, ?_, ?_, rfl⟩), commaFmt_amount _⟩
          · simp only [List.append_assoc, hnum]
            rfl
          · intro hx; exact hsee (.inl (hdone.2 hx))
          · intro hx; exact hsee (.inr hx.symm)
      · have hf : d.active.getD i false = false := by simpa using hin
        rw [hf]
        simp only [Bool.not_false, if_true]
        refine ⟨_, _, ?_, .inl ⟨?_, rfl⟩, commaFmt_amount _⟩
        · simp only [List.append_assoc, hnum]
          rfl
        · unfold isIn; rw [hf]; simp
    · intro hd
      rw [get_pc ok hi, if_pos (hdone.2 hd), c5]
      exact commaFmt_amount _
    · intro hd
      rw [get_pc ok hi, if_neg (fun hx => hd (hdone.1 hx)), c6]
      exact commaFmt_amount _
    · rw [get_b ok hi, c7]
    · intro hd
      rw [get_a ok hi, if_pos (hdone.2 hd)]
    · intro a ha hd
      rw [get_a ok hi, if_neg (fun hx => hd (hdone.1 hx)), c1, ha, c10]
      have : (List.zipWith (fun (active : Bool) stack => active && stack == 0) d.active d.stacks).getD i false = true ↔
          isIn d i ∧ stack d i = 0 := by
        unfold isIn stack
        rw [getD_eq _ _ _ (by simp [hact, hstk]; exact hi), getD_eq _ _ _ (by rw [hact]; exact hi),
          getD_eq _ _ _ (by rw [hstk]; exact hi)]
        simp
      simp only [this, Option.getD_some]
  · intro hd
    rw [get_pot ok, if_neg (fun hx => hd (hdone.1 hx)), c8]
    exact commaFmt_amount _
  · intro hd
    rw [get_pot ok, if_pos (hdone.2 hd)]
  · rw [get_ccs ok, c9, List.length_map]
    rfl

end Clubs.Numpy

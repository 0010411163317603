import Verif.Model.Evaluator
import Mathlib.Data.List.Nodup
import Mathlib.Data.List.Induction
import Mathlib.Data.List.Perm.Basic

/-! Helper lemmas: the loop that assigns ranks to classes. -/

namespace Clubs

/-- the number of patterns in the classes ranked before `c` -/
def before (cnt : HandClass → Int) : List HandClass → HandClass → Int
  | [], _ => 0
  | d :: cs, c => if d = c then 0 else cnt d + before cnt cs c

theorem before_append_of_mem (cnt : HandClass → Int) (cs ds : List HandClass) (c : HandClass)
    (h : c ∈ cs) : before cnt (cs ++ ds) c = before cnt cs c := by
  induction cs with
  | nil => simp at h
  | cons d cs ih =>
    simp only [List.cons_append, before]
    by_cases hd : d = c
    · simp [hd]
    · rw [if_neg hd, if_neg hd, ih]
      simpa [Ne.symm hd, eq_comm, hd] using h

theorem before_append_self (cnt : HandClass → Int) (cs : List HandClass) (c : HandClass)
    (h : c ∉ cs) : before cnt (cs ++ [c]) c = (cs.map cnt).sum := by
  induction cs with
  | nil => simp [before]
  | cons d cs ih =>
    simp only [List.mem_cons, not_or] at h
    simp only [List.cons_append, before, List.map_cons, List.sum_cons]
    rw [if_neg (Ne.symm h.1), ih h.2]

theorem before_nonneg (cnt : HandClass → Int) (h0 : ∀ c, 0 ≤ cnt c) (cs : List HandClass)
    (c : HandClass) : 0 ≤ before cnt cs c := by
  induction cs with
  | nil => simp [before]
  | cons d cs ih =>
    simp only [before]
    split
    · omega
    · have := h0 d; omega

theorem before_le_sum (cnt : HandClass → Int) (h0 : ∀ c, 0 ≤ cnt c) (cs : List HandClass)
    (c : HandClass) (h : c ∈ cs) : before cnt cs c + cnt c ≤ (cs.map cnt).sum := by
  induction cs with
  | nil => simp at h
  | cons d cs ih =>
    simp only [before, List.map_cons, List.sum_cons]
    have pos : 0 ≤ (cs.map cnt).sum := by
      clear ih h
      induction cs with
      | nil => simp
      | cons e cs ih => simp; have := h0 e; omega
    split
    · next hd => subst hd; omega
    · next hd =>
      have : c ∈ cs := by simpa [Ne.symm hd, eq_comm, hd] using h
      have := ih this; omega

/-- a class earlier in the list is entirely below a later one -/
theorem before_lt (cnt : HandClass → Int) (h0 : ∀ c, 0 ≤ cnt c) (cs : List HandClass)
    (c d : HandClass) (hne : c ≠ d) (hc : c ∈ cs) (hd : d ∈ cs) :
    (before cnt cs c + cnt c ≤ before cnt cs d ∧ cs.idxOf c < cs.idxOf d) ∨
    (before cnt cs d + cnt d ≤ before cnt cs c ∧ cs.idxOf d < cs.idxOf c) := by
  induction cs with
  | nil => simp at hc
  | cons e cs ih =>
    simp only [before, List.idxOf_cons]
    by_cases h1 : e = c
    · subst h1
      left
      have := before_nonneg cnt h0 cs d
      have e1 : (e == d) = false := by simpa using hne
      rw [e1]
      simp [hne]; omega
    · by_cases h2 : e = d
      · subst h2
        right
        have := before_nonneg cnt h0 cs c
        have e1 : (e == c) = false := by simpa using h1
        rw [e1]
        simp [h1]; omega
      · have hc' : c ∈ cs := by simpa [Ne.symm h1, eq_comm, h1] using hc
        have hd' : d ∈ cs := by simpa [Ne.symm h2, eq_comm, h2] using hd
        have := ih hc' hd'
        have e1 : (e == c) = false := by simpa using h1
        have e2 : (e == d) = false := by simpa using h2
        rw [e1, e2]
        simp [h1, h2]
        omega

/-- Everything that is needed about the loop. -/
structure RankSpec (count : HandClass → Int × Int) (cs : List HandClass) (st : RankState) : Prop where
  cum : st.cumulative = (cs.map fun c => (count c).2).sum
  ranked : st.rankedHands = cs.filter fun c => decide (0 < before (fun c => (count c).2) cs c + (count c).2)
  rank : st.rank = st.rankedHands.length
  info : ∀ c ∈ cs, (st.handDict c).suited = (count c).1 ∧ (st.handDict c).unsuited = (count c).2 ∧
    (st.handDict c).cumulative = before (fun c => (count c).2) cs c + (count c).2
  other : ∀ c ∉ cs, st.handDict c = { suited := (count c).1, unsuited := (count c).2, cumulative := 0, rank := none }
  rankSome : ∀ c ∈ cs, ∀ r, (st.handDict c).rank = some r → r < st.rankedHands.length
  get : ∀ c ∈ cs, 0 < before (fun c => (count c).2) cs c + (count c).2 →
    getRank st.handDict st.rankedHands c = .ok
      (if before (fun c => (count c).2) cs c = 0 then 0 else before (fun c => (count c).2) cs c + 1)
  last : (0 < st.cumulative → ∃ c, st.rankedHands.getLast? = some c ∧ c ∈ cs ∧ (st.handDict c).cumulative = st.cumulative)
  none : st.cumulative = 0 → st.rankedHands = []

theorem rankLoop_spec (count : HandClass → Int × Int) (h0 : ∀ c, 0 ≤ (count c).2)
    (cs : List HandClass) (hn : cs.Nodup) : RankSpec count cs (rankLoop count cs) := by
  induction cs using List.reverseRecOn with
  | nil =>
    exact {
      cum := by simp [rankLoop]
      ranked := by simp [rankLoop]
      rank := by simp [rankLoop]
      info := by simp
      other := by simp [rankLoop]
      rankSome := by simp
      get := by simp
      last := by simp [rankLoop]
      none := by simp [rankLoop] }
  | append_singleton cs c ih =>
    have hnd := hn
    rw [List.nodup_append] at hnd
    have hc : c ∉ cs := fun h => hnd.2.2 c h c (by simp) rfl
    have ih := ih hnd.1
    have estep : rankLoop count (cs ++ [c]) = rankStep (rankLoop count cs) c := by
      simp [rankLoop]
    rw [estep]
    generalize rankLoop count cs = st at ih
    have hother := ih.other c hc
    have hbc : before (fun c => (count c).2) (cs ++ [c]) c = st.cumulative := by
      rw [before_append_self _ _ _ hc, ih.cum]
    have hb : ∀ d ∈ cs, before (fun c => (count c).2) (cs ++ [c]) d = before (fun c => (count c).2) cs d :=
      fun d hd => before_append_of_mem _ _ _ _ hd
    have hcs0 : 0 ≤ st.cumulative := by
      rw [← hbc]; exact before_nonneg _ h0 _ _
    have hfilt : (cs ++ [c]).filter (fun d => decide (0 < before (fun c => (count c).2) (cs ++ [c]) d + (count d).2))
        = st.rankedHands ++ (if 0 < st.cumulative + (count c).2 then [c] else []) := by
      rw [List.filter_append, ih.ranked]
      congr 1
      · apply List.filter_congr
        intro d hd
        rw [hb d hd]
      · rw [List.filter_cons, hbc]
        split <;> simp_all
    have hcum : ((cs ++ [c]).map fun c => (count c).2).sum = st.cumulative + (count c).2 := by
      rw [List.map_append, List.sum_append, ← ih.cum]; simp
    have hne : ∀ d ∈ cs, d ≠ c := fun d hd h => hc (h ▸ hd)
    unfold rankStep
    simp only [hother]
    by_cases hpos : 0 < st.cumulative + (count c).2
    · rw [if_pos hpos]
      rw [if_pos hpos] at hfilt
      exact {
        cum := hcum.symm
        ranked := hfilt.symm
        rank := by simp [ih.rank]
        info := by
          intro d hd
          rcases List.mem_append.1 hd with hd | hd
          · rw [hb d hd]
            simpa [hne d hd] using ih.info d hd
          · simp at hd; subst hd
            rw [hbc]; simp
        other := by
          intro d hd
          simp only [List.mem_append, List.mem_singleton, not_or] at hd
          simpa [hd.2] using ih.other d hd.1
        rankSome := by
          intro d hd r hr
          rcases List.mem_append.1 hd with hd | hd
          · simp only [hne d hd, if_false] at hr
            have := ih.rankSome d hd r hr
            simp; omega
          · simp at hd; subst hd
            simp at hr
            subst hr
            simp [ih.rank]
        get := by
          intro d hd hp
          rcases List.mem_append.1 hd with hd | hd
          · have := ih.get d hd (by rw [hb d hd] at hp; exact hp)
            rw [hb d hd, ← this]
            unfold getRank
            simp only [hne d hd, if_false]
            cases hr : (st.handDict d).rank with
            | none => rfl
            | some r =>
              cases r with
              | zero => rfl
              | succ r =>
                have hlt := ih.rankSome d hd _ hr
                simp only []
                rw [List.getElem?_append_left (by omega)]
                cases hx : st.rankedHands[r]? with
                | none => rfl
                | some e =>
                  have he : e ∈ cs := by
                    have : e ∈ st.rankedHands := List.mem_of_getElem? hx
                    rw [ih.ranked] at this
                    exact (List.mem_filter.1 this).1
                  simp [hne e he]
          · simp at hd; subst hd
            rw [hbc]
            unfold getRank
            simp only [if_true]
            rw [ih.rank]
            by_cases hz : st.cumulative = 0
            · have := ih.none hz
              simp [this, hz]
            · rw [if_neg hz]
              obtain ⟨e, h1, h2, h3⟩ := ih.last (by omega)
              have hlen : st.rankedHands ≠ [] := by
                intro h; rw [h] at h1; simp at h1
              obtain ⟨r, hr⟩ : ∃ r, st.rankedHands.length = r + 1 :=
                ⟨st.rankedHands.length - 1, by have := List.length_pos_iff.2 hlen; omega⟩
              rw [hr]
              simp only []
              rw [List.getLast?_eq_getElem?, hr] at h1
              rw [List.getElem?_append_left (by omega)]
              simp only [Nat.add_sub_cancel] at h1
              rw [h1]
              simp [hne e h2, h3]
        last := by
          intro _
          exact ⟨c, by simp, by simp, by simp⟩
        none := by
          intro h
          simp only [] at h
          omega }
    · rw [if_neg hpos]
      have hz1 : st.cumulative = 0 := by have := h0 c; omega
      have hz2 : (count c).2 = 0 := by have := h0 c; omega
      rw [if_neg hpos] at hfilt
      exact {
        cum := hcum.symm
        ranked := by simpa using hfilt.symm
        rank := ih.rank
        info := by
          intro d hd
          rcases List.mem_append.1 hd with hd | hd
          · rw [hb d hd]
            simpa [hne d hd] using ih.info d hd
          · simp at hd; subst hd
            rw [hbc]; simp
        other := by
          intro d hd
          simp only [List.mem_append, List.mem_singleton, not_or] at hd
          simpa [hd.2] using ih.other d hd.1
        rankSome := by
          intro d hd r hr
          rcases List.mem_append.1 hd with hd | hd
          · simp only [hne d hd, if_false] at hr
            exact ih.rankSome d hd r hr
          · simp at hd; subst hd
            simp at hr
        get := by
          intro d hd hp
          rcases List.mem_append.1 hd with hd | hd
          · exfalso
            rw [hb d hd] at hp
            have h1 := before_le_sum _ h0 cs d hd
            have h2 := ih.cum
            omega
          · simp at hd; subst hd
            omega
        last := by
          intro h; simp only [] at h; omega
        none := fun _ => ih.none hz1 }

end Clubs

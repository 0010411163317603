import Verif.Lemmas.Page2
import Verif.Spec.Page

/-!
# What the page's script leaves alone
-/

namespace Clubs

open Svg Spec

variable {ps cs : Nat → ℤ × ℤ} {n h c : Nat}

/-- the looks that no message changes: the colours of texts other than those of cards, everything but the colour of the rest -/
def frame (k : Key) (l l' : Looks) : Prop :=
  match k with
  | .chipsText _ | .potText | .commitText _ => l.fill = l'.fill ∧ l.stroke = l'.stroke
  | .cardBackground _ _ | .background _ | .communityCardBackground _ | .buttonBackground _ | .communityCardText 0 =>
    l.text = l'.text ∧ l.stroke = l'.stroke
  | .cardText _ _ | .communityCardText (_ + 1) => True
  | _ => l = l'

theorem frame_refl (k : Key) (l : Looks) : frame k l l := by
  unfold frame
  split <;> simp

theorem frame_trans {k : Key} {l l' l'' : Looks} (h1 : frame k l l') (h2 : frame k l' l'') : frame k l l'' := by
  unfold frame at *
  split <;> simp_all

/-- a change that respects the frame, of an element of the picture -/
def Proper (n h c : Nat) (w : Write) : Prop := (w.1 ∈ treeKeys n h c ∧ w.1.kind ≠ 0) ∧ ∀ l, frame w.1 l (w.2 l)

theorem proper_cards {kb kt : Key} {s : List Str} (hb : kb ∈ treeKeys n h c) (ht : kt ∈ treeKeys n h c) (zb : kb.kind ≠ 0)
    (zt : kt.kind ≠ 0) (fb : ∀ l v, frame kb l { l with fill := v }) (ft : ∀ l l', frame kt l l') :
    ∀ w ∈ cardW kb kt s, Proper n h c w := by
  intro w hw
  unfold cardW at hw
  rw [List.mem_cons] at hw
  rcases hw with rfl | hw
  · exact ⟨⟨ht, zt⟩, fun l => ft _ _⟩
  · split_ifs at hw <;> simp only [List.mem_cons, List.not_mem_nil, or_false] at hw
    all_goals rcases hw with rfl | rfl | rfl
    all_goals first | exact ⟨⟨hb, zb⟩, fun l => fb _ _⟩ | exact ⟨⟨ht, zt⟩, fun l => ft _ _⟩

theorem proper_reset : ∀ w ∈ resetW n h c, Proper n h c w := by
  intro w hw
  simp only [resetW, resetPlayerW, resetCommunityW, resetButtonW, List.mem_append, List.mem_flatMap, List.mem_cons, List.mem_map,
    List.mem_range, List.not_mem_nil, or_false] at hw
  rcases hw with (⟨i, hi, rfl | ⟨j, hj, rfl⟩ | ⟨j, hj, rfl⟩⟩ | ⟨i, hi, rfl⟩) | (rfl | ⟨j, hj, rfl⟩ | rfl | ⟨j, hj, rfl⟩ | rfl) | ⟨i, hi, rfl⟩
  · exact ⟨⟨key_player hi (by simp [wText, playerKeys]), by simp [wText, Key.kind]⟩, fun l => ⟨rfl, rfl⟩⟩
  · exact ⟨⟨key_player hi (by simp [wFill, playerKeys, hj]), by simp [wFill, Key.kind]⟩, fun l => ⟨rfl, rfl⟩⟩
  · exact ⟨⟨key_player hi (by simp [wText, playerKeys, hj]), by simp [wText, Key.kind]⟩, fun l => trivial⟩
  · exact ⟨⟨key_player hi (by simp [wFill, playerKeys]), by simp [wFill, Key.kind]⟩, fun l => ⟨rfl, rfl⟩⟩
  · exact ⟨⟨key_community (by simp [wFill, communityKeys]), by simp [wFill, Key.kind]⟩, fun l => ⟨rfl, rfl⟩⟩
  · exact ⟨⟨key_community (by simp [wFill, communityKeys, hj]), by simp [wFill, Key.kind]⟩, fun l => ⟨rfl, rfl⟩⟩
  · exact ⟨⟨key_community (by simp [wFill, communityKeys]), by simp [wFill, Key.kind]⟩, fun l => ⟨rfl, rfl⟩⟩
  · exact ⟨⟨key_community (by simp [wText, communityKeys, hj]), by simp [wText, Key.kind]⟩, fun l => trivial⟩
  · exact ⟨⟨key_community (by simp [wText, communityKeys]), by simp [wText, Key.kind]⟩, fun l => ⟨rfl, rfl⟩⟩
  · exact ⟨⟨key_commit hi (by simp [wFill, commitKeys]), by simp [wFill, Key.kind]⟩, fun l => ⟨rfl, rfl⟩⟩

theorem proper_update {m : Message} (hm : MsgFits n h c m) : ∀ w ∈ updateW m, Proper n h c w := by
  intro w hw
  simp only [updateW, updatePlayersW, updateCommunityW, List.mem_append, List.mem_flatMap, List.mem_cons,
    List.mem_range, List.not_mem_nil, or_false] at hw
  rcases hw with ⟨i, hi, rfl | rfl | hw⟩ | (⟨j, hj, hw⟩ | rfl) | rfl | hw
  · exact ⟨⟨key_commit (lt_of_lt_of_le hi hm.players) (by simp [wText, commitKeys]), by simp [wText, Key.kind]⟩, fun l => ⟨rfl, rfl⟩⟩
  · exact ⟨⟨key_player (lt_of_lt_of_le hi hm.players) (by simp [wText, playerKeys]), by simp [wText, Key.kind]⟩, fun l => ⟨rfl, rfl⟩⟩
  · split_ifs at hw
    · obtain ⟨j, hj, hw⟩ := List.mem_flatMap.1 hw
      rw [List.mem_range, getD_get hi] at hj
      have hj' : j < h := lt_of_lt_of_le hj (hm.hands _ (List.getElem_mem hi))
      have hn := lt_of_lt_of_le hi hm.players
      exact proper_cards (kb := .cardBackground i j) (kt := .cardText i j) (key_player hn (by simp [playerKeys, hj']))
        (key_player hn (by simp [playerKeys, hj'])) (by simp [Key.kind]) (by simp [Key.kind]) (fun l v => ⟨rfl, rfl⟩)
        (fun l l' => trivial) w hw
    · simp at hw
  · have hj' := lt_of_lt_of_le hj hm.board
    exact proper_cards (kb := .communityCardBackground (j + 1)) (kt := .communityCardText (j + 1))
      (key_community (by simp [communityKeys, hj'])) (key_community (by simp [communityKeys, hj']))
      (by simp [Key.kind]) (by simp [Key.kind]) (fun l v => ⟨rfl, rfl⟩) (fun l l' => trivial) w hw
  · exact ⟨⟨key_community (by simp [wText, communityKeys]), by simp [wText, Key.kind]⟩, fun l => ⟨rfl, rfl⟩⟩
  · exact ⟨⟨key_commit hm.button (by simp [wFill, commitKeys]), by simp [wFill, Key.kind]⟩, fun l => ⟨rfl, rfl⟩⟩
  · unfold updateActionW at hw
    split at hw
    · rename_i a ha
      rw [List.mem_singleton.1 hw]
      exact ⟨⟨key_player (hm.action a ha) (by simp [wFill, playerKeys]), by simp [wFill, Key.kind]⟩, fun l => ⟨rfl, rfl⟩⟩
    · simp at hw

/-- `q` differs from `p` only in what messages change -/
def Frame (n h c : Nat) (p q : Page) : Prop :=
  (∀ k ∈ treeKeys n h c, k.kind ≠ 0 → frame k (p k.str) (q k.str)) ∧
  ∀ s, (∀ k ∈ treeKeys n h c, k.kind ≠ 0 → k.str ≠ s) → p s = q s

theorem Frame.refl (p : Page) : Frame n h c p p := ⟨fun k _ _ => frame_refl k _, fun _ _ => rfl⟩

theorem Frame.trans {p q r : Page} (h1 : Frame n h c p q) (h2 : Frame n h c q r) : Frame n h c p r :=
  ⟨fun k hk hz => frame_trans (h1.1 k hk hz) (h2.1 k hk hz), fun s hs => (h1.2 s hs).trans (h2.2 s hs)⟩

theorem eff_frame {ws : List Write} (hw : ∀ w ∈ ws, Proper n h c w) (k : Key) (l : Looks) : frame k l (eff ws k l) := by
  induction ws generalizing l with
  | nil => exact frame_refl k l
  | cons w ws ih =>
    rw [eff_cons]
    refine frame_trans ?_ (ih (fun x hx => hw x (by simp [hx])) _)
    split
    · rename_i e
      subst e
      exact (hw w (by simp)).2 l
    · exact frame_refl k l

theorem applyW_frame {ws : List Write} (hw : ∀ w ∈ ws, Proper n h c w) (p : Page) : Frame n h c p (applyW ws p) := by
  refine ⟨fun k _ _ => ?_, fun s hs => ?_⟩
  · rw [applyW_key]; exact eff_frame hw k _
  · exact (applyW_other ws p s fun w h1 => hs w.1 (hw w h1).1.1 (hw w h1).1.2).symm

theorem deliver_some {m : Message} (hm : MsgFits n h c m) (p : Page) :
    deliver (document (pokerTree ps cs n h c)) (some m) p = applyW (resetW n h c ++ updateW m) p := by
  unfold deliver
  rw [does_some hm p]

theorem deliver_none (p : Page) : deliver (document (pokerTree ps cs n h c)) none p = applyW (resetW n h c) p := by
  unfold deliver
  rw [does_none p]

theorem frame_some {m : Message} (hm : MsgFits n h c m) (p : Page) :
    Frame n h c p (deliver (document (pokerTree ps cs n h c)) (some m) p) := by
  rw [deliver_some hm]
  refine applyW_frame (fun w hw => ?_) p
  rcases List.mem_append.1 hw with hw | hw
  · exact proper_reset w hw
  · exact proper_update hm w hw

theorem frame_none (p : Page) : Frame n h c p (deliver (document (pokerTree ps cs n h c)) none p) := by
  rw [deliver_none]
  exact applyW_frame proper_reset p

/-! ## real cards -/

theorem cardW_real {kb kt : Key} (hk : kb ≠ kt) (c : Card) (hc : c.suit ∈ ['♣', '♠', '♥', '♦']) (l : Looks) :
    eff (cardW kb kt (chars c.str)) kb l = { l with fill := some (suitPattern c) } ∧
    eff (cardW kb kt (chars c.str)) kt l = { text := faceText c, fill := some (suitColour c), stroke := some (suitColour c) } := by
  obtain ⟨r, u⟩ : Char × Char := (c.rank, c.suit)
  have e0 : (chars c.str)[0]? = some [c.rank] := rfl
  have e1 : (chars c.str)[1]? = some [c.suit] := rfl
  have f : (if ([c.rank] : Str) = "T".toList then "10".toList else [c.rank]) = faceText c := by
    unfold faceText
    have : (([c.rank] : Str) = "T".toList) ↔ c.rank = 'T' := by
      show [c.rank] = ['T'] ↔ _
      simp
    simp only [this]
  unfold cardW
  rw [e0, e1, Option.getD_some, f]
  simp only [List.mem_cons, List.not_mem_nil, or_false] at hc
  unfold suitPattern suitColour
  have s1 : "♣".toList = ['♣'] := rfl
  have s2 : "♠".toList = ['♠'] := rfl
  have s3 : "♥".toList = ['♥'] := rfl
  have s4 : "♦".toList = ['♦'] := rfl
  rw [s1, s2, s3, s4]
  rcases hc with e | e | e | e <;> rw [e] <;> simp [eff, wText, wFill, wStroke, hk, Ne.symm hk]

end Clubs

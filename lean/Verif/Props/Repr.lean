import Verif.Model.Repr
import Verif.Lemmas.SvgIds
import Verif.Props.Render
import Verif.Props.Strings

/-!
# C114: what `repr` shows
-/

namespace Clubs

open Spec

theorem digits_split {p q r s : Str} {a b : Char} (hp : ∀ c ∈ p, c.isDigit = true) (hq : ∀ c ∈ q, c.isDigit = true)
    (ha : a.isDigit = false) (hb : b.isDigit = false) (h : p ++ a :: r = q ++ b :: s) : p = q ∧ a :: r = b :: s := by
  induction p generalizing q with
  | nil => cases q with
    | nil => exact ⟨rfl, h⟩
    | cons c q =>
      simp only [List.nil_append, List.cons_append, List.cons.injEq] at h
      have := hq c (by simp)
      rw [← h.1, ha] at this
      cases this
  | cons c p ih => cases q with
    | nil =>
      simp only [List.nil_append, List.cons_append, List.cons.injEq] at h
      have := hp c (by simp)
      rw [h.1, hb] at this
      cases this
    | cons c' q =>
      simp only [List.cons_append, List.cons.injEq] at h
      obtain ⟨h1, h2⟩ := ih (fun x hx => hp x (by simp [hx])) (fun x hx => hq x (by simp [hx])) h.2
      exact ⟨by rw [h.1, h1], h2⟩

/-- a number followed by something that does not begin with a digit can be read back -/
theorem decimal_split {m n : Nat} {r s : Str} {a b : Char} (ha : a.isDigit = false) (hb : b.isDigit = false)
    (h : decimal m ++ a :: r = decimal n ++ b :: s) : m = n ∧ a :: r = b :: s := by
  obtain ⟨h1, h2⟩ := digits_split (fun _ hc => decimal_digit hc) (fun _ hc => decimal_digit hc) ha hb h
  exact ⟨decimal_inj h1, h2⟩

/-- text, a number in parentheses, a colon, text -/
theorem labelled_inj {w : String} {i j : Nat} {r s : Str}
    (h : w.toList ++ decimal i ++ "): ".toList ++ r = w.toList ++ decimal j ++ "): ".toList ++ s) : i = j ∧ r = s := by
  rw [List.append_assoc, List.append_assoc, List.append_assoc, List.append_assoc] at h
  obtain ⟨h1, h2⟩ := decimal_split (a := ')') (b := ')') (r := ':' :: ' ' :: r) (s := ':' :: ' ' :: s) (by decide) (by decide)
    (List.append_cancel_left h)
  simp only [List.cons.injEq, true_and] at h2
  exact ⟨h1, h2⟩

/-- **C114**: `repr` of a card shows which object it is, and which card. -/
theorem C114_card {i j : Nat} {c d : Card} (hc : ∃ s, Card.new s = .ok c) (hd : ∃ s, Card.new s = .ok d)
    (h : c.repr i = d.repr j) : i = j ∧ c = d := by
  obtain ⟨h1, h2⟩ := labelled_inj h
  obtain ⟨s, hs⟩ := hc
  obtain ⟨t, ht⟩ := hd
  exact ⟨h1, C61_injective s t c d hs ht h2⟩

/-- **C114**: `repr` of a deck shows which object it is, which cards are left in it and in which order. -/
theorem C114_deck {i j : Nat} {d e : Deck} (hd : RealCards d.cards) (he : RealCards e.cards) (h : d.repr i = e.repr j) :
    i = j ∧ d.cards = e.cards := by
  obtain ⟨h1, h2⟩ := labelled_inj h
  exact ⟨h1, C61_deck d e hd he h2⟩

/-- **C114**: `repr` of an evaluator shows which object it is, and the classes of hands in their order. -/
theorem C114_evaluator {i j : Nat} {e f : Evaluator} (h : e.repr i = f.repr j) : i = j ∧ e.table.rankedHands = f.table.rankedHands := by
  obtain ⟨h1, h2⟩ := labelled_inj h
  exact ⟨h1, C78_readable e f h2⟩

/-- **C114**: `repr` of a dealer shows which object it is, the number of players and the number of streets, and nothing else. -/
theorem C114_dealer {i j : Nat} {d e : Dealer} :
    d.repr i = e.repr j ↔ i = j ∧ d.cfg.numPlayers = e.cfg.numPlayers ∧ d.cfg.numStreets = e.cfg.numStreets := by
  constructor
  · intro h
    unfold Dealer.repr at h
    simp only [List.append_assoc] at h
    obtain ⟨h1, h2⟩ := decimal_split (a := ')') (b := ')') (by decide) (by decide) (List.append_cancel_left h)
    obtain ⟨h3, h4⟩ := decimal_split (a := ',') (b := ',') (by decide) (by decide)
      (List.append_cancel_left (as := ") - num players: ".toList) h2)
    exact ⟨h1, h3, decimal_inj (List.append_cancel_left (as := ", num streets: ".toList) h4)⟩
  · rintro ⟨rfl, h1, h2⟩
    unfold Dealer.repr
    rw [h1, h2]

/-- **C114**: objects of different classes are never shown in the same way. -/
theorem C114_classes {i j k l : Nat} (c : Card) (d : Deck) (e : Evaluator) (f : Dealer) :
    c.repr i ≠ d.repr j ∧ c.repr i ≠ e.repr k ∧ c.repr i ≠ f.repr l ∧ d.repr j ≠ e.repr k ∧ d.repr j ≠ f.repr l ∧ e.repr k ≠ f.repr l := by
  have h1 : ∀ i (c : Card), (c.repr i).take 3 = "Car".toList := fun i c => rfl
  have h2 : ∀ i (d : Deck), (d.repr i).take 3 = "Dec".toList := fun i d => rfl
  have h3 : ∀ i (e : Evaluator), (e.repr i).take 3 = "Eva".toList := fun i e => rfl
  have h4 : ∀ i (f : Dealer), (f.repr i).take 3 = "Dea".toList := fun i f => rfl
  refine ⟨fun h => ?_, fun h => ?_, fun h => ?_, fun h => ?_, fun h => ?_, fun h => ?_⟩ <;>
    · have := congrArg (List.take 3) h
      simp only [h1, h2, h3, h4] at this
      exact absurd this (by decide)

/-- the queen of hearts -/
example : ∃ c, Card.new ['Q', 'h'] = .ok c ∧ c.repr 140 = "Card (140): Q♥".toList := ⟨mkCard 10 1, by decide, by decide⟩

/-- a deck of two cards -/
example : ∃ c d, Card.new ['A', 's'] = .ok c ∧ Card.new ['K', 'h'] = .ok d ∧ RealCards [c, d] ∧
    ∀ x : Deck, x.cards = [c, d] → x.repr 7 = "Deck (7): [A♠,K♥]".toList := by
  have h1 : Card.new ['A', 's'] = .ok (mkCard 12 0) := by decide
  have h2 : Card.new ['K', 'h'] = .ok (mkCard 11 1) := by decide
  refine ⟨_, _, h1, h2, ?_, ?_⟩
  · intro c hc
    simp only [List.mem_cons, List.not_mem_nil, or_false] at hc
    rcases hc with rfl | rfl
    · exact ⟨_, h1⟩
    · exact ⟨_, h2⟩
  · intro x hx
    unfold Deck.repr Deck.str
    rw [hx]
    decide

/-- a dealer during a hand -/
example : ∃ S d, InHand S d ∧ d.repr 9 = "Dealer (9) - num players: 2, num streets: 2".toList := by
  obtain ⟨S, d, -, h1, -, -, h3⟩ := played_exists (a := small 2 [1, 2] 20) (cs := [])
    (f := fun _ d _ => decide (d.cfg.numPlayers = 2 ∧ d.cfg.numStreets = 2)) (by decide +kernel)
  simp only [decide_eq_true_eq] at h3
  refine ⟨S, d, h1, ?_⟩
  unfold Dealer.repr
  rw [h3.1, h3.2]
  decide

end Clubs

import Verif.Spec.Spells
/-
Taking apart the words and marks of a text.
-/
namespace Giron.Spec
open Giron
variable {p : List Word} {c : Content} {m : Mark} {ms ms' : List Mark} {ws : List Word}

theorem Obeys.nil_inv (h : Obeys p [] ws) : ∃ n, ws = [⟨.eof, n⟩] := by
  cases h
  exact ⟨_, rfl⟩

theorem Obeys.word_inv (h : Obeys p (.word c :: ms) ws) : ∃ n more, ws = ⟨c, n⟩ :: more ∧ Obeys (⟨c, n⟩ :: p) ms more := by
  generalize hm : Mark.word c :: ms = l at h
  cases h with
  | done => cases hm
  | @word _ w _ more h =>
    obtain ⟨c', n⟩ := w
    injection hm with h1 h2
    injection h1 with h1
    cases h1; cases h2
    exact ⟨n, more, rfl, h⟩
  | mark h _ =>
    injection hm with h1 h2
    cases h1
    exact h.elim

theorem Obeys.mark_inv (h : Obeys p (m :: ms) ws) (hm : ∀ c, m ≠ .word c) : ∃ w more, ws = w :: more ∧ m.Holds p w ∧ Obeys p ms ws := by
  cases h with
  | word _ => exact absurd rfl (hm _)
  | mark h1 h2 => exact ⟨_, _, rfl, h1, h2⟩

/-- The words of a part, and those after it. -/
theorem Obeys.part (h : Obeys p (ms ++ ms') ws) : ∃ us vs, ws = us ++ vs ∧ us.map Word.c = wordsOf ms ∧ Obeys (us.reverse ++ p) ms' vs := by
  induction ms generalizing p ws with
  | nil => exact ⟨[], ws, rfl, rfl, h⟩
  | cons m ms ih =>
    cases m with
    | word c =>
      obtain ⟨n, more, rfl, h1⟩ := Obeys.word_inv h
      obtain ⟨us, vs, rfl, h2, h3⟩ := ih h1
      exact ⟨_ :: us, vs, rfl, by simp [wordsOf, h2], by simpa using h3⟩
    | _ =>
      obtain ⟨w, more, rfl, _, h1⟩ := Obeys.mark_inv h nofun
      exact ih h1

theorem wordsOf_append : wordsOf (ms ++ ms') = wordsOf ms ++ wordsOf ms' := by
  induction ms with
  | nil => rfl
  | cons m ms ih => cases m <;> simp [wordsOf, ih]

end Giron.Spec

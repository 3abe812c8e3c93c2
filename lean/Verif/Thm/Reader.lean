import Verif.Model.Reader
/-
C28: however `lookahead` and `next` are interleaved, the reader behaves like the list of characters not yet returned.
-/
namespace Giron

/-- A call on the reader. -/
inductive ReaderCall
  | next
  | lookahead (n : Nat)
deriving DecidableEq, Repr

namespace Spec

/-- What a reader should answer: `next` removes and returns the first remaining character, `lookahead n` shows the
`n`-th remaining character and removes nothing. -/
def answers : List ReaderCall → Str → List (Option Char)
  | [], _ => []
  | .next :: calls, text => text.head? :: answers calls text.tail
  | .lookahead n :: calls, text => text[n]? :: answers calls text

end Spec

/-- The answers of the modelled reader to a sequence of calls. -/
def Reader.run : List ReaderCall → Reader → List (Option Char)
  | [], _ => []
  | .next :: calls, r => (r.next).1 :: Reader.run calls (r.next).2
  | .lookahead n :: calls, r => (r.lookahead n).1 :: Reader.run calls (r.lookahead n).2

/-- The characters a reader has yet to return. -/
def Reader.remaining (r : Reader) : Str := r.buf ++ r.source

theorem Reader.next_spec (r : Reader) :
    r.next.1 = r.remaining.head? ∧ r.next.2.remaining = r.remaining.tail := by
  obtain ⟨src, buf⟩ := r
  cases buf <;> cases src <;> simp [Reader.next, Reader.remaining]

theorem Reader.fill_spec (k : Nat) (r : Reader) :
    (fill k r).2.remaining = r.remaining ∧
      ((fill k r).1 = true → (fill k r).2.buf.length = r.buf.length + k) ∧
      ((fill k r).1 = false → r.remaining.length < r.buf.length + k) := by
  induction k generalizing r with
  | zero => simp [fill]
  | succ k ih =>
    obtain ⟨src, buf⟩ := r
    cases src with
    | nil => simp [fill, remaining]
    | cons c cs =>
      have := ih { source := cs, buf := buf ++ [c] }
      simp only [fill]
      refine ⟨by rw [this.1]; simp [remaining], fun h => ?_, fun h => ?_⟩
      · rw [this.2.1 h]; simp; omega
      · have := this.2.2 h
        simp [remaining] at this ⊢; omega

theorem Reader.lookahead_spec (n : Nat) (r : Reader) :
    (r.lookahead n).1 = r.remaining[n]? ∧ (r.lookahead n).2.remaining = r.remaining := by
  have h := fill_spec (n + 1 - r.buf.length) r
  unfold lookahead
  cases hf : fill (n + 1 - r.buf.length) r with
  | mk b r' =>
    rw [hf] at h
    cases b with
    | true =>
      refine ⟨?_, h.1⟩
      have hl := h.2.1 rfl
      simp only at hl ⊢
      have h1 : r'.remaining = r.remaining := h.1
      rw [← h1, remaining, List.getElem?_append_left (by omega)]
    | false =>
      refine ⟨?_, h.1⟩
      have hl := h.2.2 rfl
      simp only
      rw [eq_comm, List.getElem?_eq_none_iff]
      by_cases hb : r.buf.length ≤ n + 1
      · omega
      · exfalso
        have : n + 1 - r.buf.length = 0 := by omega
        rw [this] at hf
        simp [fill] at hf

/-- C28: for every source and every sequence of calls, the reader answers as the specification says. -/
theorem C28_reader_is_transparent (source : Str) (calls : List ReaderCall) :
    (Reader.new source).run calls = Spec.answers calls source := by
  have key : ∀ calls (r : Reader), r.run calls = Spec.answers calls r.remaining := by
    intro calls
    induction calls with
    | nil => intro r; rfl
    | cons c calls ih =>
      intro r
      cases c with
      | next =>
        simp only [Reader.run, Spec.answers, ih, (Reader.next_spec r).1, (Reader.next_spec r).2]
      | lookahead n =>
        simp only [Reader.run, Spec.answers, ih, (Reader.lookahead_spec n r).1, (Reader.lookahead_spec n r).2]
  simpa [Reader.new, Reader.remaining] using key calls (Reader.new source)

/-- looking ahead past the end and then reading everything -/
example : (Reader.new cs!"ab").run [.lookahead 1, .lookahead 5, .next, .lookahead 0, .next, .next] =
    [some 'b', none, some 'a', some 'b', some 'b', none] := by decide

end Giron

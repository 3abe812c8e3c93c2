import Verif.Proofs.Spell.Module
import Verif.Thm.Witness
/-
C43: the tree spells the source.
-/
set_option maxRecDepth 20000
namespace Giron
open Spec

/-- C43.  If a source is accepted, then the words of which it is made are words of the tree that is returned: nothing is
left out, nothing is added, nothing changes its place.  And the words are on lines where the tree allows them to be: where
a semicolon is missing, a line ends, and so on. -/
theorem C43_tree_spells_source [Env] {source : Str} {t : Node} (h : parseScript source = .ok t ∨ parseModule source = .ok t) :
    ∃ ws ms, Lexes source ws ∧ Obeys [] ms ws ∧ Spell.whole t ms :=
  h.elim parseScript_spells parseModule_spells

/-- A source whose tree has no statements has no words: it is white space and comments. -/
theorem C43_empty_program [Env] {source st : Str} {sp : Span}
    (h : parseScript source = .ok (.program [] st sp) ∨ parseModule source = .ok (.program [] st sp)) : Trivia source [] := by
  obtain ⟨ws, ms, hl, hf, hs⟩ := C43_tree_spells_source h
  replace hs : ms = [] := by simpa [Spell.whole, Spell.nodes, Lang.eps] using hs
  subst hs
  cases hf
  cases hl with
  | done h => exact h
  | word _ _ _ hc _ => exact absurd rfl hc

/-! ### Witnesses -/

theorem ok_of {α : Type} {e : Except Fail α} (h : (result? e).isSome = true) : ∃ a, e = .ok a := by
  cases e with
  | ok a => exact ⟨a, rfl⟩
  | error f => cases h

/-- Witness for C43: a program that is accepted. -/
example : letI := ascii; ∃ t, parseScript cs!"for (var {a} in b) `x${(c) => c}y`; class A extends B { get f() { return [this, ,] } }" = .ok t :=
  letI := ascii; ok_of (by decide +kernel)

/-- Witness for `C43_empty_program`. -/
example : letI := ascii; ∃ st sp, parseScript cs!" /* a */ // b" = .ok (.program [] st sp) :=
  letI := ascii; ⟨_, _, by rfl⟩

/-- A tree has few spellings: the statement `a + 1` is spelled `a + 1 ;`, or `a + 1` where a semicolon may be
inserted. -/
theorem spelling_of_sum {s1 s2 s3 s4 : Span} {a1 a2 a3 : ATT} {ws : List Mark} (h : letI := ascii;
    Spell.node (.expressionStatement (.binaryExpression cs!"+" (.identifier cs!"a" a1 s1) (.literal (.num ⟨1, 0⟩) cs!"1" a2 s2) a3 s3) s4) ws) :
      ws = [.name cs!"a", .punct .plus, .word (.number ⟨1, 0⟩), .punct .semicolon] ∨
        ws = [.name cs!"a", .punct .plus, .word (.number ⟨1, 0⟩), .inserted] := by
  letI := ascii
  obtain ⟨u, v, rfl, ⟨⟨x, y, rfl, hx, z, z', rfl, ⟨c, rfl, hc⟩, d, rfl, hd, -, hd'⟩, -⟩, hv⟩ := h
  obtain rfl : x = _ := hx
  have e1 : c = .punct .plus := by
    rcases hc with ⟨p, rfl, hp⟩ | ⟨hk, rfl⟩
    · cases p <;> first | rfl | exact absurd hp (by decide)
    · exact absurd hk (by decide)
  have e2 : d = .number ⟨1, 0⟩ := by
    cases d with
    | number n => simp [Spec.Content.value?] at hd; rw [hd]
    | name v =>
      rcases hd' v rfl with rfl | rfl | rfl <;> exact absurd hd (by decide)
    | _ => simp [Spec.Content.value?] at hd
  subst e1 e2
  rcases hv with rfl | rfl <;> simp

/-! ### What the spelling shows to be odd

Each of these is accepted or rejected although JavaScript says otherwise. -/

/-- A template may go on with a new backtick. -/
example : letI := ascii; ∃ t, parseScript cs!"`x${a++ `b`" = .ok t := letI := ascii; ok_of (by decide +kernel)

/-- There must be no comma after a generator method of an object. -/
example : letI := ascii; (∃ t, parseScript cs!"({*a(){} b})" = .ok t) ∧ (failure? (parseScript cs!"({*a(){}, b})")).isSome = true :=
  letI := ascii; ⟨ok_of (by decide +kernel), by decide +kernel⟩

/-- `async` may stand before a property that is no method. -/
example : letI := ascii; ∃ t, parseScript cs!"({async a: 1})" = .ok t := letI := ascii; ok_of (by decide +kernel)

/-- A string may be a shorthand property of a pattern. -/
example : letI := ascii; ∃ t, parseScript cs!"var {'a'} = x" = .ok t := letI := ascii; ok_of (by decide +kernel)

/-- After `get` the scanner loses count of the braces; other names do no harm. -/
example : letI := ascii; (failure? (parseScript cs!"`a${ {get} }b`")).isSome = true ∧ ∃ t, parseScript cs!"`a${ {gex} }b`" = .ok t :=
  letI := ascii; ⟨by decide +kernel, ok_of (by decide +kernel)⟩

/-- After `async` the scanner loses count of the lines; other names do no harm. -/
example : letI := ascii; (failure? (parseScript cs!"async\na\nb")).isSome = true ∧ ∃ t, parseScript cs!"asynx\na\nb" = .ok t :=
  letI := ascii; ⟨by decide +kernel, ok_of (by decide +kernel)⟩

end Giron

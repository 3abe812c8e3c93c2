import Verif.Proofs.Layout.Prefix
import Verif.Thm.ErrorWords
/-
C53: what follows does not change the statements before.
-/
set_option maxRecDepth 20000
namespace Giron
open Spec Layout

theorem script_program [Env] {source : Str} {t : Node} (h : parseScript source = .ok t) :
    ∃ body sp, t = .program body cs!"script" sp := by
  obtain ⟨p, p1, -, hb, -⟩ := script_inv h
  unfold Parser.parseScriptBody at hb
  obtain ⟨_, _, _, h1⟩ := Parser.bind_ok_inv hb
  obtain ⟨_, _, _, h2⟩ := Parser.bind_ok_inv h1
  obtain ⟨_, _, _, h3⟩ := Parser.bind_ok_inv h2
  obtain ⟨_, _, _, h4⟩ := Parser.bind_ok_inv h3
  cases h4
  exact ⟨_, _, rfl⟩

theorem module_program [Env] {source : Str} {t : Node} (h : parseModule source = .ok t) :
    ∃ body sp, t = .program body cs!"module" sp := by
  obtain ⟨p, p1, -, hb, -⟩ := module_inv h
  unfold Parser.parseModuleBody at hb
  obtain ⟨_, _, _, h0⟩ := Parser.bind_ok_inv hb
  obtain ⟨_, _, _, h1⟩ := Parser.bind_ok_inv h0
  obtain ⟨_, _, _, h2⟩ := Parser.bind_ok_inv h1
  obtain ⟨_, _, _, h3⟩ := Parser.bind_ok_inv h2
  obtain ⟨_, _, _, h4⟩ := Parser.bind_ok_inv h3
  cases h4
  exact ⟨_, _, rfl⟩

theorem script_words [Env] {source : Str} {pre post : List Node} {sp : Span}
    (h : parseScript source = .ok (.program (pre ++ post) cs!"script" sp)) (hp : post ≠ []) :
    ∃ c P ms ws w text, Spell.nodes pre ms ∧ ws.map (·.c) = Spec.wordsOf ms ∧ OpensWith source (ws ++ [w]) text ∧ w.c ≠ .eof ∧
      MadeOf c P source ∧ (¬ LooksAhead w.c → ∃ U, source = U ++ text ∧ ∀ z, Wall z → MadeOf c P (U ++ z)) ∧
      ∀ source', source' ≠ [] → MadeOf c P source' → ∀ t', parseScript source' = .ok t' →
        ∃ pre' more sp', t' = .program (pre' ++ more) cs!"script" sp' ∧ pre.map bareNode = pre'.map bareNode := by
  obtain ⟨p, p1, hn, hb, -⟩ := script_inv h
  obtain ⟨c, P, ms, ws, w, text, h1, h2, h3, h4, h5, h6, h7⟩ := body_part (f := Parser.parseScriptBody) (fun n => part_script) hn hb rfl hp
  refine ⟨c, P, ms, ws, w, text, h1, h2, h3, h4, h5, h6, fun source' hne hm t' ht => ?_⟩
  obtain ⟨p', hp', hx⟩ := h7 source' hne hm
  obtain ⟨body, sp', rfl⟩ := script_program ht
  obtain ⟨q, q1, hq, hb', -⟩ := script_inv ht
  rw [hp'] at hq
  cases hq
  obtain ⟨pre', more, e1, e2⟩ := hx _ _ _ hb'
  exact ⟨pre', more, sp', by rw [← e1]; rfl, e2⟩

theorem module_words [Env] {source : Str} {pre post : List Node} {sp : Span}
    (h : parseModule source = .ok (.program (pre ++ post) cs!"module" sp)) (hp : post ≠ []) :
    ∃ c P ms ws w text, Spell.nodes pre ms ∧ ws.map (·.c) = Spec.wordsOf ms ∧ OpensWith source (ws ++ [w]) text ∧ w.c ≠ .eof ∧
      MadeOf c P source ∧ (¬ LooksAhead w.c → ∃ U, source = U ++ text ∧ ∀ z, Wall z → MadeOf c P (U ++ z)) ∧
      ∀ source', source' ≠ [] → MadeOf c P source' → ∀ t', parseModule source' = .ok t' →
        ∃ pre' more sp', t' = .program (pre' ++ more) cs!"module" sp' ∧ pre.map bareNode = pre'.map bareNode := by
  obtain ⟨p, p1, hn, hb, -⟩ := module_inv h
  obtain ⟨c, P, ms, ws, w, text, h1, h2, h3, h4, h5, h6, h7⟩ := body_part (f := Parser.parseModuleBody) (fun n => part_module) hn hb rfl hp
  refine ⟨c, P, ms, ws, w, text, h1, h2, h3, h4, h5, h6, fun source' hne hm t' ht => ?_⟩
  obtain ⟨p', hp', hx⟩ := h7 source' hne hm
  obtain ⟨body, sp', rfl⟩ := module_program ht
  obtain ⟨q, q1, hq, hb', -⟩ := module_inv ht
  rw [hp'] at hq
  cases hq
  obtain ⟨pre', more, e1, e2⟩ := hx _ _ _ hb'
  exact ⟨pre', more, sp', by rw [← e1]; rfl, e2⟩

/-- C53.  What follows does not change the statements before.  Let a script be accepted, with the statements `pre` and then
some more.  It begins with words `ws` that spell `pre`, and one more word `w`; behind that is `text`.  Unless `w` is `async`,
`get` or `set`: whatever is put in the place of `text`, after a blank, if the script is still accepted, then with statements
that begin with `pre`, but for positions. -/
theorem C53_what_follows_does_not_matter [Env] {source : Str} {pre post : List Node} {sp : Span}
    (h : parseScript source = .ok (.program (pre ++ post) cs!"script" sp)) (hp : post ≠ []) :
    ∃ ms ws w text, Spell.nodes pre ms ∧ ws.map (·.c) = Spec.wordsOf ms ∧ OpensWith source (ws ++ [w]) text ∧ w.c ≠ .eof ∧
      (¬ LooksAhead w.c → ∃ U, source = U ++ text ∧ ∀ b ∈ [' ', '\t', '\n', '\r'], ∀ more t', parseScript (U ++ b :: more) = .ok t' →
        ∃ pre' post' sp', t' = .program (pre' ++ post') cs!"script" sp' ∧ pre.map bareNode = pre'.map bareNode) := by
  obtain ⟨c, P, ms, ws, w, text, h1, h2, h3, h4, h5, h6, h7⟩ := script_words h hp
  refine ⟨ms, ws, w, text, h1, h2, h3, h4, fun hl => ?_⟩
  obtain ⟨U, e, hU⟩ := h6 hl
  exact ⟨U, e, fun b hb more t' ht => h7 _ (by simp) (hU _ ⟨b, more, rfl, hb⟩) t' ht⟩

/-- C53, for modules. -/
theorem C53_what_follows_does_not_matter_module [Env] {source : Str} {pre post : List Node} {sp : Span}
    (h : parseModule source = .ok (.program (pre ++ post) cs!"module" sp)) (hp : post ≠ []) :
    ∃ ms ws w text, Spell.nodes pre ms ∧ ws.map (·.c) = Spec.wordsOf ms ∧ OpensWith source (ws ++ [w]) text ∧ w.c ≠ .eof ∧
      (¬ LooksAhead w.c → ∃ U, source = U ++ text ∧ ∀ b ∈ [' ', '\t', '\n', '\r'], ∀ more t', parseModule (U ++ b :: more) = .ok t' →
        ∃ pre' post' sp', t' = .program (pre' ++ post') cs!"module" sp' ∧ pre.map bareNode = pre'.map bareNode) := by
  obtain ⟨c, P, ms, ws, w, text, h1, h2, h3, h4, h5, h6, h7⟩ := module_words h hp
  refine ⟨ms, ws, w, text, h1, h2, h3, h4, fun hl => ?_⟩
  obtain ⟨U, e, hU⟩ := h6 hl
  exact ⟨U, e, fun b hb more t' ht => h7 _ (by simp) (hU _ ⟨b, more, rfl, hb⟩) t' ht⟩

/-! ### Witnesses -/

/-- the number of statements, and whether the word after the first `n` does not matter -/
def statements? : Except Fail Node → Option Nat
  | .ok (.program body _ _) => some body.length
  | _ => none

theorem split_script [Env] {source : Str} {n k : Nat} (h : statements? (parseScript source) = some (n + (k + 1))) :
    ∃ pre post sp, parseScript source = .ok (.program (pre ++ post) cs!"script" sp) ∧ pre.length = n ∧ post ≠ [] := by
  cases ht : parseScript source with
  | error f => rw [ht] at h; cases h
  | ok t =>
    obtain ⟨body, sp, rfl⟩ := script_program ht
    rw [ht] at h
    have hl : body.length = n + (k + 1) := Option.some.inj h
    refine ⟨body.take n, body.drop n, sp, by rw [List.take_append_drop], by simp; omega, fun e => ?_⟩
    have := congrArg List.length e
    simp at this; omega

theorem split_module [Env] {source : Str} {n k : Nat} (h : statements? (parseModule source) = some (n + (k + 1))) :
    ∃ pre post sp, parseModule source = .ok (.program (pre ++ post) cs!"module" sp) ∧ pre.length = n ∧ post ≠ [] := by
  cases ht : parseModule source with
  | error f => rw [ht] at h; cases h
  | ok t =>
    obtain ⟨body, sp, rfl⟩ := module_program ht
    rw [ht] at h
    have hl : body.length = n + (k + 1) := Option.some.inj h
    refine ⟨body.take n, body.drop n, sp, by rw [List.take_append_drop], by simp; omega, fun e => ?_⟩
    have := congrArg List.length e
    simp at this; omega

/-- Witness for `C53_what_follows_does_not_matter`: a directive and two statements, then one more. -/
example : letI := ascii; ∃ pre post sp, parseScript cs!"'use strict'\nif (a) b\nfor (;c;) {} d = `e${f}`; g" = .ok (.program (pre ++ post) cs!"script" sp) ∧
    pre.length = 3 ∧ post ≠ [] :=
  letI := ascii; split_script (k := 1) (by decide +kernel)

/-- Witness for `C53_what_follows_does_not_matter_module`. -/
example : letI := ascii; ∃ pre post sp, parseModule cs!"import a from 'b'\nexport default c\nlet d = 1" = .ok (.program (pre ++ post) cs!"module" sp) ∧
    pre.length = 2 ∧ post ≠ [] :=
  letI := ascii; split_module (k := 0) (by decide +kernel)

/-- a statement that is a mere name, and another one -/
def nameFirst : Except Fail Node → Bool
  | .ok (.program [.expressionStatement (.identifier ..) _, _] _ _) => true
  | _ => false

/-- one statement that is an operation -/
def sumOnly : Except Fail Node → Bool
  | .ok (.program [.expressionStatement (.binaryExpression ..) _] _ _) => true
  | _ => false

/-- C53: the word after the statements does matter, and it has to be a whole word: if `i` becomes `in`, the statement before
is another one. -/
theorem C53_the_next_word_matters : letI := ascii;
    nameFirst (parseScript cs!"a\ni") = true ∧ sumOnly (parseScript cs!"a\nin b") = true := by
  letI := ascii
  exact ⟨by decide +kernel, by decide +kernel⟩

end Giron

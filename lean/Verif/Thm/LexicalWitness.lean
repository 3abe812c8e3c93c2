import Verif.Thm.Tokens
/-
Concrete cases that meet the hypotheses of the theorems in `Lexical.lean` and `Tokens.lean`, and sources on which giron's
scanner departs from ECMAScript.
-/
namespace Giron
open Spec Scanner
set_option maxRecDepth 20000

/-- Run the scanner on `source` for `goals`, then once more, and test what it did. -/
def scanCheck [Env] (source : Str) (goals : List LexGoal) (goal : LexGoal) (p : Scanner → Token → Scanner → Bool) : Bool :=
  match nextAll goals (Scanner.new source) with
  | .ok (_, s) =>
    match Scanner.next goal s with
    | .ok (t, s') => p s t s'
    | .error _ => false
  | .error _ => false

theorem scanCheck_reached [Env] {source : Str} {goals : List LexGoal} {goal : LexGoal} {p : Scanner → Token → Scanner → Bool}
    (h : scanCheck source goals goal p = true) :
    ∃ s t s', Reached source s ∧ Scanner.next goal s = .ok (t, s') ∧ p s t s' = true := by
  unfold scanCheck at h
  split at h
  · next ts s hg =>
    split at h
    · next t s' hn => exact ⟨s, t, s', ⟨goals, ts, hg⟩, hn, h⟩
    · cases h
  · cases h

/-- C19: `>>>=` after a comment -/
example : letI := ascii; ∃ s t s', Reached cs!"a /* b */ >>>= c" s ∧ Scanner.next .div s = .ok (t, s') ∧
    (decide (t.tokentype = .punctuator ∧ t.value = .punc .zRShiftAssign ∧ s'.rest = cs!" c" ∧ t.start = 10 ∧ t.end = 13)) = true :=
  letI := ascii; scanCheck_reached (goals := [.regExp]) (by decide +kernel)

/-- C20: a keyword, and the same letters with one more -/
example : letI := ascii; ∃ s t s', Reached cs!"typeof typeofs" s ∧ Scanner.next .div s = .ok (t, s') ∧
    (decide (t.tokentype = .identifier ∧ t.value = .str cs!"typeofs" ∧ t.lineNum = 1)) = true :=
  letI := ascii; scanCheck_reached (goals := [.regExp]) (by decide +kernel)

/-- C21: escapes of several kinds -/
example : letI := ascii; ∃ s t s', Reached cs!"x = '\\x41\\u{42}\\n\\'' + 1" s ∧ Scanner.next .regExp s = .ok (t, s') ∧
    (decide (t.tokentype = .stringLiteral ∧ t.value = .str cs!"AB\n'" ∧ s'.rest = cs!" + 1")) = true :=
  letI := ascii; scanCheck_reached (goals := [.regExp, .div]) (by decide +kernel)

/-- C21: the spelling used in the round trip -/
example : spell '"' cs!"a\"\n\u2028" = cs!"\"a\\\"\\n\\u2028\"" := by decide

/-- C22: a fraction with an exponent -/
example : letI := ascii; ∃ s t s', Reached cs!"x = 12.50e-3;" s ∧ Scanner.next .regExp s = .ok (t, s') ∧
    (decide (t.tokentype = .numericLiteral ∧ t.value = .num ⟨1250, -5⟩ ∧ s'.rest = cs!";")) = true :=
  letI := ascii; scanCheck_reached (goals := [.regExp, .div]) (by decide +kernel)

/-- C22: the spellings used in the round trips -/
example : spellNat 10 1203 = cs!"1203" ∧ spellNat 16 48879 = cs!"beef" ∧ spellNat 2 5 = cs!"101" := by
  decide +kernel

/-- C24, C25: offsets and lines after CR LF and a block comment over two lines -/
example : letI := ascii; ∃ s t s', Reached cs!"a\r\n/* \n */ bc d" s ∧ Scanner.next .div s = .ok (t, s') ∧
    (decide (t.value = .str cs!"bc" ∧ t.lineNum = 3 ∧ t.start = 11 ∧ t.end = 12 ∧ s'.newline = true)) = true :=
  letI := ascii; scanCheck_reached (goals := [.regExp]) (by decide +kernel)

/-- C26: the chunk between two substitutions -/
example : letI := ascii; ∃ s t s', Reached cs!"`a${{}}b\\n\n${1}c`" s ∧ Scanner.next .div s = .ok (t, s') ∧
    (decide (t.tokentype = .template ∧ t.value = .str cs!"b\\n\n" ∧ t.cooked = some cs!"b\n\n" ∧ t.head = some false ∧
      t.tail = some false ∧ s.curly.head? = some .template)) = true :=
  letI := ascii; scanCheck_reached (goals := [.regExp, .regExp, .regExp]) (by decide +kernel)

/-- C27: a slash in a class -/
example : letI := ascii; ∃ s t s', Reached cs!"x = /a[/]\\/b/gi.test" s ∧ Scanner.next .regExp s = .ok (t, s') ∧
    (decide (t.tokentype = .regularExpression ∧ t.pattern = some cs!"a[/]\\/b" ∧ t.flags = some cs!"gi" ∧
      s'.rest = cs!".test")) = true :=
  letI := ascii; scanCheck_reached (goals := [.regExp, .div]) (by decide +kernel)

/-- C23: the trivia before a source may be a comment and a line break -/
example : Trivia cs!"// c\n /* d */" cs!"x" := by
  have h1 : Trivia cs!" /* d */" cs!"x" :=
    .blank (by decide) (.block (body := cs!" d ") (w := []) (by
      intro a b h
      have h1 : '/' ∈ cs!" d " := by rw [h]; simp
      revert h1; decide) .done)
  exact .line (body := cs!" c") (w := '\n' :: cs!" /* d */") ⟨by decide, by decide⟩ (.blank (by decide) h1)

/-- C37: a `}` inside a substitution that is no end of it -/
example : letI := ascii; (result? (nextAll [.regExp, .regExp, .regExp, .regExp] (Scanner.new cs!"`${{}}`"))).map
    (fun r => r.1.flatMap fun t => brackets t.1) =
    some [.opens .template, .opens .lBrace, .closes .lBrace, .closes .template] := by decide +kernel

/-! ### Departures from ECMAScript -/

/-- the tokens of a source, kinds and values -/
def kinds [Env] (source : Str) (goals : List LexGoal) : Option (List (TokenType × Value)) :=
  (result? (nextAll goals (Scanner.new source))).map fun r => r.1.map fun t => (t.1.tokentype, t.1.value)

/-- an escaped identifier is rejected, `a\u0062` and `\u0061` -/
example : letI := ascii; kinds cs!"a\\u0062" [.regExp] = none ∧ kinds cs!"\\u0061" [.regExp] = none ∧
    kinds cs!"a\\\\u0062" [.regExp] = some [(.identifier, .str cs!"ab")] := by decide +kernel

/-- an identifier escape may name any character: this is the identifier `a b` -/
example : letI := ascii; kinds cs!"a\\\\u0020b" [.regExp] = some [(.identifier, .str cs!"a b")] := by decide +kernel

/-- `\u{}` is taken, as U+0000 -/
example : letI := ascii; kinds cs!"'\\u{}'" [.regExp] = some [(.stringLiteral, .str ['\x00'])] := by decide +kernel

/-- `'\a'` keeps its backslash -/
example : letI := ascii; kinds cs!"'\\a'" [.regExp] = some [(.stringLiteral, .str cs!"\\a")] := by decide +kernel

/-- `>>=` is scanned as `>>` and `=` -/
example : letI := ascii; kinds cs!"a >>= b" [.regExp, .div, .div] =
    some [(.identifier, .str cs!"a"), (.punctuator, .punc .rShift), (.punctuator, .punc .assign)] := by decide +kernel

/-- an operator at the end of input is an error -/
example : letI := ascii; kinds cs!"+" [.div] = none ∧ kinds cs!"+ " [.div] = some [(.punctuator, .punc .plus)] := by
  decide +kernel

/-- `??` is scanned as two `?` -/
example : letI := ascii; kinds cs!"a??" [.regExp, .div, .div] =
    some [(.identifier, .str cs!"a"), (.punctuator, .punc .question), (.punctuator, .punc .question)] := by decide +kernel

/-- an unterminated comment is taken -/
example : letI := ascii; kinds cs!"a /* b" [.regExp, .div] = some [(.identifier, .str cs!"a"), (.eof, .null)] := by
  decide +kernel

/-- `0e5` is `0` and `e5` -/
example : letI := ascii; kinds cs!"0e5" [.regExp, .div] =
    some [(.numericLiteral, .num ⟨0, 0⟩), (.identifier, .str cs!"e5")] := by decide +kernel

/-- a line continuation in a template is cooked to U+0000, CR LF to two line feeds -/
example : letI := ascii; (result? (Scanner.next .regExp (Scanner.new cs!"`a\\\nb\r\n`"))).map (fun r => r.1.cooked) =
    some (some ['a', '\x00', 'b', '\n', '\n']) := by decide +kernel

/-- a quote right after a line continuation belongs to the string -/
example : letI := ascii; kinds cs!"'a\\\n'b'" [.regExp] = some [(.stringLiteral, .str cs!"a'b")] := by decide +kernel

/-- the byte order mark is not white space, U+0085 is -/
example : letI := ascii; kinds cs!"\uFEFFa" [.regExp] = none ∧
    kinds cs!"\u0085a" [.regExp] = some [(.identifier, .str cs!"a")] := by decide +kernel

/-- a class in a regular expression ends at the first `]`, escaped or not: here the pattern ends inside the class -/
example : letI := ascii; (result? (Scanner.next .regExp (Scanner.new cs!"/[\\]/]/"))).map (fun r => r.1.pattern) =
    some (some cs!"[\\]") := by decide +kernel

end Giron

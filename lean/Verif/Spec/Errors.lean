import Verif.Spec.Positions
/-
Errors: what they call a word, and where they are.
-/
namespace Giron.Spec
open Giron

/-- What an error message calls a word.  (A regular expression has no name; the end of the source is called `null`.) -/
def shown [Env] : Content → Str
  | .eof => cs!"null"
  | .name v => v
  | .number n => Env.showNum n
  | .string v _ => v
  | .template raw _ _ _ => raw
  | .regexp _ _ => []
  | .punct p => p.toStr

/-- The error is said to be at the word `x` of the source: on the line that the word ends on, with a column that is one more
than the number of characters of the word (of its last line).  If it calls a word unexpected, it is that word. -/
def AtWord [Env] (source : Str) (e : Error) : Prop :=
  ∃ pre x post c, IsWord source pre x post c ∧ e.line = lineAt source post ∧ e.col = columnAfter 1 x post ∧
    ∀ v, e.errortype = .unexpectedToken v → v = shown c

/-- No word can be read at the start of the text. -/
def NoWord [Env] (goal : LexGoal) (resume : Bool) (text : Str) : Prop := ∀ x r c, text = x ++ r → ¬ Lexeme goal resume x r c

/-- After some words of the source, and white space and comments, comes a text `bad ++ post` that does not begin with a word.
The error is at the place between `bad` and `post`; the column is counted from the start of `bad`, and may count a character
that is not there behind the end of the source. -/
def NotAWord [Env] (source : Str) (e : Error) : Prop :=
  ∃ pre w bad post goal resume, source = pre ++ (w ++ (bad ++ post)) ∧ Left source (w ++ (bad ++ post)) ∧
    Trivia w (bad ++ post) ∧ ¬ StartsTrivia (bad ++ post) ∧ NoWord goal resume (bad ++ post) ∧
    e.line = lineAt source post ∧ (e.col = columnAfter 1 bad post ∨ post = [] ∧ columnAfter 1 bad [] < e.col) ∧
    (e.errortype = .invalidOrUnexpectedToken ∨ e.errortype = .unexpectedEOS ∨ e.errortype = .invalidUnicodeEscapeSequence)

end Giron.Spec

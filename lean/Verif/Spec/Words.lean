import Verif.Spec.Lexical
import Verif.Spec.Scan
/-
From text to words: the sequence of tokens of a source without positions, the last one being the end of input.
-/
namespace Giron.Spec
open Giron

/-- What a token says, and whether it is on a later line than the token before it (a token that spans lines counts as
being on its last one). -/
structure Word where
  c : Content
  nl : Bool

/-- Whether the content can be scanned with the goal: a regular expression and a `/` exclude each other. -/
def Content.fits : Content → LexGoal → Bool
  | .regexp _ _, .div => false
  | .punct .slash, .regExp => false
  | .punct .slashAssign, .regExp => false
  | _, _ => true

/-- `Words b text ws`: the text, before which the braces `b` have been left open, is made of the words `ws`. -/
inductive Words [Env] : List Brace → Str → List Word → Prop
  | eof {b : List Brace} {w : Str} : Trivia w [] → Words b w [⟨.eof, decide (0 < lineBreaks w)⟩]
  | word {goal : LexGoal} {b : List Brace} {w x r : Str} {c : Content} {ws : List Word} :
      Trivia w (x ++ r) → ¬ StartsTrivia (x ++ r) → Lexeme goal (decide (b.head? = some .template)) x r c →
      c.fits goal = true → x ≠ [] →
      Words (c.braces b) r ws →
      Words b (w ++ (x ++ r)) (⟨c, decide (lineBreaks r < lineBreaks (w ++ (x ++ r)))⟩ :: ws)

/-- The words of a source; line breaks before the first one do not count. -/
def SourceWords [Env] (source : Str) (ws : List Word) : Prop :=
  ∃ c nl ws', Words [] source (⟨c, nl⟩ :: ws') ∧ ws = ⟨c, false⟩ :: ws'

/-- Two words that giron does not scan correctly one after the other: a `/` that should divide is taken for the
beginning of a regular expression after `}`, `++` and `--`, and a regular expression is taken for a division after
`${` or `}` of a template. -/
def clash : Content → Content → Bool
  | .punct .rBrace, .punct .slash | .punct .inc, .punct .slash | .punct .dec, .punct .slash => true
  | .punct .rBrace, .punct .slashAssign | .punct .inc, .punct .slashAssign | .punct .dec, .punct .slashAssign => true
  | .template _ _ _ _, .regexp _ _ => true
  | _, _ => false

/-- No two words clash. -/
def NoClash : List Word → Prop
  | a :: b :: ws => clash a.c b.c = false ∧ NoClash (b :: ws)
  | _ => True

end Giron.Spec

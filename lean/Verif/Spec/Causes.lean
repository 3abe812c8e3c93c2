import Verif.Spec.Reasons
/-
Where giron panics on the words of a source.
-/
namespace Giron
namespace Spec

/-- What a panic of this kind says about the word `w` that was reached, and the words `past` before it, the nearest one first.
`False`: these are not the panics spoken of here. -/
def cause (module : Bool) (past : List Word) (w : Word) : PanicSite → Prop
  -- the end of the source, a number or `null` where there should be a name, in strict code
  | .tokenNotStr => (w.c = .eof ∨ (∃ n, w.c = .number n) ∨ w.c = .name cs!"null") ∧ MadeStrict module (w :: past)
  -- `async` before a punctuator other than these, on the same line (unless giron has lost count of the lines)
  | .invalidPunctuator => First (.name cs!"async") past ∧ (w.nl = false ∨ LostCount past) ∧
      ∃ p, w.c = .punct p ∧ p ≠ .semicolon ∧ p ≠ .dot ∧ p ≠ .lBracket
  -- `import "…"`
  | .importString => First (.name cs!"import") past ∧ ∃ v o, w.c = .string v o
  -- a name in brackets without a value, in a pattern
  | .unreachableArm line => line = 2965 ∧ First (.punct .rBracket) past ∧ w.c ≠ .punct .colon ∧ w.c ≠ .punct .assign
  | _ => False

/-- The source begins with words that are the cause of a panic of this kind. -/
def Caused [Env] (source : Str) (module : Bool) (p : PanicSite) : Prop :=
  ∃ past w text, OpensWith source (w :: past).reverse text ∧ cause module past w p

/-- The text begins, white space and comments aside, with a template that does not end, or with `}` and the rest of such a
template. -/
def RunsOff [Env] (text : Str) : Prop :=
  ∃ w b body v, text = w ++ b :: body ∧ Trivia w (b :: body) ∧ (b = '`' ∨ b = '}') ∧ TemplateBody body [] v

/-- There is a backquote in the source, and after some words there is a template that does not end. -/
def Unterminated [Env] (source : Str) : Prop := '`' ∈ source ∧ ∃ ws text, OpensWith source ws text ∧ RunsOff text

/-- The source begins, white space and comments aside, with a word (or with its end). -/
def BeginsWithWord [Env] (source : Str) : Prop :=
  ∃ w x r c, source = w ++ (x ++ r) ∧ Trivia w (x ++ r) ∧ ¬ StartsTrivia (x ++ r) ∧ Lexeme .regExp false x r c

end Spec
end Giron

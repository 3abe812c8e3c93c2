import Verif.Spec.Errors
import Verif.Spec.Spells
import Verif.Spec.Syntax
import Verif.Spec.Grammar
/-
The reasons for errors: what a kind of error says about the words of the source.
-/
namespace Giron.Spec
open Giron

/-- The source begins with the words `ws` (white space and comments aside), and then goes on with `text`. -/
inductive OpensWith [Env] (source : Str) : List Word → Str → Prop
  | nil : OpensWith source [] source
  | word {ws : List Word} {w x r : Str} {goal : LexGoal} {resume : Bool} {c : Content} : OpensWith source ws (w ++ (x ++ r)) →
      Trivia w (x ++ r) → ¬ StartsTrivia (x ++ r) → Lexeme goal resume x r c →
      OpensWith source (ws ++ [⟨c, decide (lineBreaks r < lineBreaks (w ++ (x ++ r)))⟩]) r

/-- one of the words is this name -/
def Seen (v : Str) (ws : List Word) : Prop := ∃ w ∈ ws, w.c = .name v

/-- What makes code strict: it is a module, or there is a `class`, or a string that says `use strict`. -/
def MadeStrict (module : Bool) (ws : List Word) : Prop :=
  module = true ∨ Seen cs!"class" ws ∨ ∃ w ∈ ws, ∃ o, w.c = .string cs!"use strict" o

/-- The first word is this. -/
def First (c : Content) (ws : List Word) : Prop := ∃ n more, ws = ⟨c, n⟩ :: more

/-- What an error of this kind says about the word `w` that was reached, and the words `past` before it, the nearest one first.
`True`: nothing. -/
def reason [Env] (module : Bool) (past : List Word) (w : Word) : ErrorType → Prop
  | .illegalReturn => w.c = .name cs!"return"
  -- `continue` and `break` without a label
  | .noIterationStatement => First (.name cs!"continue") past
  | .illegalBreak => First (.name cs!"break") past
  | .newlineAfterThrow => First (.name cs!"throw") past ∧ w.nl = true
  | .strictWith => w.c = .name cs!"with" ∧ MadeStrict module (w :: past)
  -- a function declaration under a label
  | .strictFunction => w.c = .name cs!"function" ∧ First (.punct .colon) past ∧ MadeStrict module (w :: past)
  | .generatorInSingleStatementContext => w.c = .punct .star ∧ First (.name cs!"function") past
  | .missingFunctionName => (w.c = .punct .lParen ∧ (First (.name cs!"function") past ∨
      ∃ n more, past = ⟨.punct .star, n⟩ :: more ∧ First (.name cs!"function") more))
  -- a declaration whose pattern has been read, without `=`
  | .missingInitializer => (w.c ≠ .punct .assign ∧ (First (.punct .rBrace) past ∨ First (.punct .rBracket) past) ∧
      (Seen cs!"var" past ∨ Seen cs!"let" past ∨ Seen cs!"const" past))
  | .invalidLhsInFor => w.c = .name cs!"in" ∧ Seen cs!"for" past
  | .multipleDefaultsInSwitch => w.c = .name cs!"default" ∧ Seen cs!"default" past ∧ Seen cs!"switch" past
  | .invalidLhsInPrefixOp => ∃ u ∈ past, u.c = .punct .inc ∨ u.c = .punct .dec
  | .invalidLhsInPostfixOp => (w.c = .punct .inc ∨ w.c = .punct .dec) ∧ (w.nl = false ∨ LostCount past)
  | .unexpectedTemplateString => ∃ raw cooked tail, w.c = .template raw cooked false tail
  | .yieldInParameter => w.c = .name cs!"yield"
  | .awaitExpressionFormalParameter => w.c = .name cs!"await"
  | .unexpectedStrictReserved => shown w.c ∈ Grammar.strictReserved ∧ MadeStrict module (w :: past)
  -- a keyword is imported under its own name
  | .unexpectedReserved => (∃ v ∈ keywords, First (.name v) past) ∧ Seen cs!"import" past
  -- after an assignment operator, or in the head of a loop (giron counts `==` among the operators: `a => {} == b`)
  | .invalidLhsInAssignment => (∃ p, (p.toStr ∈ assignOps ∨ p = .equal) ∧ First (.punct p) past) ∨ w.c = .name cs!"in" ∧ Seen cs!"for" past
  -- `...` in what is read as a pattern: something before `=`, the parameters of an arrow function, or in the head of a loop
  | .paramAfterRest => (∃ u ∈ past, u.c = .punct .ellipsis) ∧
      (First (.punct .assign) past ∨ First (.punct .rParen) past ∨ w.c = .name cs!"in" ∧ Seen cs!"for" past)
  -- something in parentheses that is read as the parameters of an arrow function
  | .invalidDestructuringTarget => First (.punct .rParen) past
  -- never raised
  | .unexpectedTokenUnaryExponentiation | .invalidRestBindingPattern => False
  -- about the word itself, or about the spelling of a word (see `Spec/Errors.lean`)
  | .unexpectedToken _ | .unexpectedEOS | .invalidOrUnexpectedToken | .invalidUnicodeEscapeSequence => True

/-- There is a reason for an error of this kind in the words that the source begins with. -/
def Because [Env] (source : Str) (module : Bool) (k : ErrorType) : Prop :=
  ∃ past w text, OpensWith source (w :: past).reverse text ∧ reason module past w k

end Giron.Spec

import Verif.Spec.Lexical
/-
Sequences of tokens: what repeated calls of `next` on a source return, in terms of the text alone.
-/
namespace Giron.Spec
open Giron

/-- The column after the text `x`, followed by `r`, if it was `k` before: it goes back to 1 after a line break. -/
def columnAfter : Nat → Str → Str → Nat
  | k, [], _ => k
  | k, c :: x, r =>
    columnAfter (if isLineTerminator c = true ∧ ¬ (c = '\r' ∧ (x ++ r).head? = some '\n') then 1 else k + 1) x r

/-- `Tokens goals source pre braces text ts`: after `pre`, of which the open braces are left to close, the rest `text` of
the source begins with the tokens `ts`, if a `/` is read as the goals tell.  With each token comes whether there was a
line break since the token before it. -/
inductive Tokens [Env] (source : Str) : List LexGoal → Str → List Brace → Str → List (Token × Bool) → Prop
  | stop {pre text : Str} {b : List Brace} : Tokens source [] pre b text []
  | token {goal : LexGoal} {goals : List LexGoal} {pre w x r : Str} {b : List Brace} {c : Content} {t : Token}
      {nl : Bool} {ts : List (Token × Bool)} :
      -- white space and comments, as much as there is
      Trivia w (x ++ r) → ¬ StartsTrivia (x ++ r) →
      -- the text of the token, and what it says
      Lexeme goal (decide (b.head? = some .template)) x r c →
      -- it is given its place: the offsets of its first and last characters, the line where it ends, a column
      t = c.token (lines source - lineBreaks r) (columnAfter 1 x r) (pre ++ w).length
        (if pre ++ w ++ x = [] then Env.usizeMax else (pre ++ w ++ x).length - 1) →
      (pre ++ w ++ x = [] → Env.checked = false) →
      nl = decide (lineBreaks r < lineBreaks (w ++ (x ++ r))) →
      Tokens source goals (pre ++ w ++ x) (c.braces b) r ts →
      Tokens source (goal :: goals) pre b (w ++ (x ++ r)) ((t, nl) :: ts)

end Giron.Spec

namespace Giron.Scanner
variable [Env]

/-- Call `next` once for each goal; with each token comes the scanner's `newline` flag. -/
def nextAll : List LexGoal → SM (List (Token × Bool))
  | [] => pure []
  | goal :: goals => do
    let t ← next goal
    let s ← M.get
    let ts ← nextAll goals
    pure ((t, s.newline) :: ts)

end Giron.Scanner

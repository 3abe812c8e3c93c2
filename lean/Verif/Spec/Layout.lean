import Verif.Spec.Scan
/-
Two texts that are made of the same words.  White space, comments and the way a word is written aside, all that is left of
a text is what its words say, and where the line breaks are.
-/
namespace Giron.Spec
open Giron

/-- A word of a text: what it says, and the number of line breaks from the end of the word before to its own end. -/
structure Said where
  says : Content
  breaks : Nat

/-- giron looks at the word after `async`, `get` and `set` before it goes on to it. -/
def LooksAhead (c : Content) : Prop := c = .name cs!"async" ∨ c = .name cs!"get" ∨ c = .name cs!"set"

instance (c : Content) : Decidable (LooksAhead c) := by
  unfold LooksAhead
  cases c with
  | name v => exact decidable_of_iff (v = cs!"async" ∨ v = cs!"get" ∨ v = cs!"set") (by simp)
  | _ => exact isFalse (fun h => by rcases h with h | h | h <;> cases h)

/-- Of how many words to come the line breaks have to be counted, if they were `n` before the word `c`.  After a word
giron looks ahead from, they are two: it then compares the lines of two words counted from different places. -/
def toCount (n : Nat) (c : Content) : Nat := if LooksAhead c then 2 else n - 1

/-- Line breaks alike: there are some, or there are none.  If they have to be counted, there are as many. -/
def alike (count : Bool) (b b' : Nat) : Prop := if count = true then b = b' else (0 < b ↔ 0 < b')

/-- The text begins with the words `ws`.  Of the first `n`, line breaks are counted. -/
inductive Begins [Env] : Nat → List Said → Str → Prop
  | stop {n : Nat} {text : Str} : Begins n [] text
  | word {n : Nat} {w x r : Str} {goal : LexGoal} {resume : Bool} {c : Content} {b : Nat} {ws : List Said} :
      -- white space and comments, as much as there is
      Trivia w (x ++ r) → ¬ StartsTrivia (x ++ r) →
      -- the text of the word, and what it says
      Lexeme goal resume x r c →
      -- line breaks where there were line breaks
      alike (decide (0 < n)) b (lineBreaks (w ++ (x ++ r)) - lineBreaks r) →
      Begins (toCount n c) ws r →
      Begins n (⟨c, b⟩ :: ws) (w ++ (x ++ r))

/-- The text is made of the words `c` and `ws`; line breaks before the first do not matter.  (The end of the text is a word,
too, and may be read more than once.) -/
inductive MadeOf [Env] (c : Content) (ws : List Said) : Str → Prop
  | mk {w x r : Str} {goal : LexGoal} {resume : Bool} : Trivia w (x ++ r) → ¬ StartsTrivia (x ++ r) →
      Lexeme goal resume x r c → Begins (toCount 0 c) ws r → MadeOf c ws (w ++ (x ++ r))

/-- The word is neither a regular expression, nor a part of a template, nor a punctuator that begins with a slash.  Only of
those it depends on the words before what a text says. -/
def OneWay : Content → Prop
  | .regexp _ _ => False
  | .template _ _ _ _ => False
  | .punct p => p ≠ .slash ∧ p ≠ .slashAssign
  | _ => True

end Giron.Spec

import Verif.Spec.Bare
import Verif.Spec.Layout
import Verif.Spec.Errors
/-
What a user is told, positions aside.
-/
namespace Giron.Spec
open Giron

/-- What the API answers, without the positions: the tree, or the kind of the error, or the place of the panic. -/
def answer : Except Fail Node → Except Fail Node
  | .ok t => .ok (bareNode t)
  | .error (.err e) => .error (.err ⟨0, 0, e.errortype⟩)
  | .error f => .error f

/-- The kinds of error that say that a text is not a word. -/
def NotAWordKind (k : ErrorType) : Prop := k = .invalidOrUnexpectedToken ∨ k = .unexpectedEOS ∨ k = .invalidUnicodeEscapeSequence

/-- The words as errors show them: `c` and then `ws`. -/
def shownWords [Env] (c : Content) (ws : List Said) : List Str := shown c :: ws.map fun u => shown u.says

end Giron.Spec

import Verif.Model.Codepoint
/-
Specification vocabulary about source text, independent of the scanner.
-/
namespace Giron.Spec
open Giron

/-- Number of line breaks in a text: every LF, CR, LS, PS counts, except that a CR directly before an LF
does not (the pair CR LF is one break). -/
def lineBreaks : Str → Nat
  | [] => 0
  | c :: rest =>
    (if isLineTerminator c = true ∧ ¬ (c = '\r' ∧ rest.head? = some '\n') then 1 else 0) + lineBreaks rest

/-- Number of lines of a text. -/
def lines (s : Str) : Nat := 1 + lineBreaks s

end Giron.Spec

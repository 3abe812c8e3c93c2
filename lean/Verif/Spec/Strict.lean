import Verif.Spec.Grammar
/-
Specification vocabulary: the words that may not be names in strict code.
-/
namespace Giron.Spec

/-- The words reserved in strict code only.  (ECMAScript's list also has `let`, `static` and `yield`, which
the code does not check.) -/
def strictWords : List Str :=
  [cs!"implements", cs!"interface", cs!"package", cs!"private", cs!"protected", cs!"public"]

/-- A name that may be used as a reference or a binding in code that is strict or not. -/
def NameIn (strict : Bool) (name : Str) : Prop := NameOk name ∧ (strict = true → name ∉ strictWords)

/-- A binding that is a single name has a name allowed there. -/
def BindIn (strict : Bool) (b : Binding) : Prop := ∀ name sp, b = .bindingIdentifier name sp → NameIn strict name

end Giron.Spec

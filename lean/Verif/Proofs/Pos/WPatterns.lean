import Verif.Proofs.Pos.WNames
/-
Every parser method keeps the invariant, and the spans of what it returns have the property.  (One instance per method.)
-/
namespace Giron
namespace Pos
open M Giron.Parser Layout
variable [Env] {I : Parser → Prop} {P : Pr} [F : Fair P] [W : World I P] {r : Rec}

/-- the spans of a value or an expression -/
def allVoE (P : Pr) : ValueOrExpr → Prop
  | .value _ => True
  | .expr n => Al P n
instance : Sp ValueOrExpr := ⟨allVoE⟩
@[al] theorem al_value {v : Value} : Al P (ValueOrExpr.value v) ↔ True := by simp [al_def, Sp.all, allVoE]
@[al] theorem al_expr {n : Node} : Al P (ValueOrExpr.expr n) ↔ Al P n := by simp [al_def, Sp.all, allVoE]

instance ks_valueToKey {v : ValueOrExpr} [Al P v] {literal : Bool} {span : Span} [Al P span]  : Ks I P (valueToKey v literal span) := by
  unfold valueToKey; ks

instance ks_objPatName [RecKs I P r] : Ks I P (objPatName r) := by
  unfold objPatName; ks

instance ks_shorthandName {v : ValueOrExpr} [Al P v]  : Ks I P (shorthandName v) := by
  unfold shorthandName; ks

instance ks_bindingToPropertyValue {line col : Nat} [Pl P line col] {x0 : Binding} [Al P x0]  : Ks I P (bindingToPropertyValue line col x0) := by
  unfold bindingToPropertyValue; ks

instance ks_objPatValue [RecKs I P r] : Ks I P (objPatValue r) := by
  unfold objPatValue; ks

instance ks_objPatItem [RecKs I P r] : Ks I P (objPatItem r) := by
  unfold objPatItem; ks

instance ks_parseObjBindingPat [RecKs I P r] : Ks I P (parseObjBindingPat r) := by
  unfold parseObjBindingPat; ks

instance ks_bindingToElement {line col : Nat} [Pl P line col] {x0 : Binding} [Al P x0]  : Ks I P (bindingToElement line col x0) := by
  unfold bindingToElement; ks

instance ks_arrPatItem [RecKs I P r] : Ks I P (arrPatItem r) := by
  unfold arrPatItem; ks

instance ks_parseArrBindingPat [RecKs I P r] : Ks I P (parseArrBindingPat r) := by
  unfold parseArrBindingPat; ks

instance ks_parseBindingIdOrPat [RecKs I P r] : Ks I P (parseBindingIdOrPat r) := by
  unfold parseBindingIdOrPat; ks

instance ks_bindingToParam {line col : Nat} [Pl P line col] {x0 : Binding} [Al P x0]  : Ks I P (bindingToParam line col x0) := by
  unfold bindingToParam; ks

instance ks_formalParam [RecKs I P r] : Ks I P (formalParam r) := by
  unfold formalParam; ks

instance ks_parseFormalParams [RecKs I P r] : Ks I P (parseFormalParams r) := by
  unfold parseFormalParams; ks

instance ks_parseParamsAndBody {generator async : Bool} [RecKs I P r] : Ks I P (parseParamsAndBody r generator async) := by
  unfold parseParamsAndBody; ks

end Pos
end Giron

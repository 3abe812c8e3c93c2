import Verif.Proofs.Pos.WPatterns
/-
Every parser method keeps the invariant, and the spans of what it returns have the property.  (One instance per method.)
-/
namespace Giron
namespace Pos
open M Giron.Parser Layout
variable [Env] {I : Parser → Prop} {P : Pr} [F : Fair P] [W : World I P] {r : Rec}

instance ks_parseComputedPropertyName [RecKs I P r] : Ks I P (parseComputedPropertyName r) := by
  unfold parseComputedPropertyName; ks

instance ks_parsePropertyName [RecKs I P r] : Ks I P (parsePropertyName r) := by
  unfold parsePropertyName; ks

instance ks_classGetter {isStatic : Bool} [RecKs I P r] : Ks I P (classGetter r isStatic) := by
  unfold classGetter; ks

instance ks_classSetter {isStatic : Bool} [RecKs I P r] : Ks I P (classSetter r isStatic) := by
  unfold classSetter; ks

instance ks_classAsync {isStatic : Bool} [RecKs I P r] : Ks I P (classAsync r isStatic) := by
  unfold classAsync; ks

instance ks_classGenerator {isStatic : Bool} [RecKs I P r] : Ks I P (classGenerator r isStatic) := by
  unfold classGenerator; ks

instance ks_classMethod {isStatic : Bool} [RecKs I P r] : Ks I P (classMethod r isStatic) := by
  unfold classMethod; ks

instance ks_classItem [RecKs I P r] : Ks I P (classItem r) := by
  unfold classItem; ks

instance ks_parseClassBody [RecKs I P r] : Ks I P (parseClassBody r) := by
  unfold parseClassBody; ks

instance ks_parseClassTail {id : Option Node} [Al P id] [RecKs I P r] : Ks I P (parseClassTail r id) := by
  unfold parseClassTail; ks

instance ks_bindingIdNode {x0 : Binding} [Al P x0]  : Ks I P (bindingIdNode x0) := by
  unfold bindingIdNode; ks

instance ks_parseClassDclr [RecKs I P r] : Ks I P (parseClassDclr r) := by
  unfold parseClassDclr; ks

instance ks_parseClassExpr [RecKs I P r] : Ks I P (parseClassExpr r) := by
  unfold parseClassExpr; ks

end Pos
end Giron

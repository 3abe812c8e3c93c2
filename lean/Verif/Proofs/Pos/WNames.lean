import Verif.Proofs.Pos.WCore
/-
Every parser method keeps the invariant, and the spans of what it returns have the property.  (One instance per method.)
-/
namespace Giron
namespace Pos
open M Giron.Parser Layout
variable [Env] {I : Parser → Prop} {P : Pr} [F : Fair P] [W : World I P] {r : Rec}

instance ks_strictReservedCheck  : Ks I P (strictReservedCheck) := by
  unfold strictReservedCheck; ks

instance ks_advanceStr {goal : LexGoal}  : Ks I P (advanceStr goal) := by
  unfold advanceStr; ks

instance ks_parseIdName {goal : LexGoal}  : Ks I P (parseIdName goal) := by
  unfold parseIdName; ks

instance ks_parseIdReference  : Ks I P (parseIdReference) := by
  unfold parseIdReference; ks

instance ks_parseBindingId  : Ks I P (parseBindingId) := by
  unfold parseBindingId; ks

instance ks_commaExpr [RecKs I P r] : Ks I P (commaExpr r) := by
  unfold commaExpr; ks

instance ks_parseExpression [RecKs I P r] : Ks I P (parseExpression r) := by
  unfold parseExpression; ks

instance ks_parseDirective [RecKs I P r] : Ks I P (parseDirective r) := by
  unfold parseDirective; ks

instance ks_directiveProloguesF [RecKs I P r] {n : Nat} : Ks I P (directiveProloguesF r n) := by
  induction n with
  | zero => exact ks_fuel
  | succ n ih => unfold directiveProloguesF; ks

instance ks_parseDirectivePrologues [RecKs I P r] : Ks I P (parseDirectivePrologues r) := by
  unfold parseDirectivePrologues; ks

instance ks_parseStatementList [RecKs I P r] : Ks I P (parseStatementList r) := by
  unfold parseStatementList; ks

instance ks_parseFunctionBodyBlock [RecKs I P r] : Ks I P (parseFunctionBodyBlock r) := by
  unfold parseFunctionBodyBlock; ks

instance ks_parseFunctionBody [RecKs I P r] : Ks I P (parseFunctionBody r) := by
  unfold parseFunctionBody; ks

instance ks_parseArrowBody [RecKs I P r] : Ks I P (parseArrowBody r) := by
  unfold parseArrowBody; ks

instance ks_commaUnless {close : Punctuator}  : Ks I P (commaUnless close) := by
  unfold commaUnless; ks

end Pos
end Giron

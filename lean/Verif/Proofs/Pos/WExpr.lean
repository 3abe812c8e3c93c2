import Verif.Proofs.Pos.WPrimary
/-
Every parser method keeps the invariant, and the spans of what it returns have the property.  (One instance per method.)
-/
namespace Giron
namespace Pos
open M Giron.Parser Layout
variable [Env] {I : Parser → Prop} {P : Pr} [F : Fair P] [W : World I P] {r : Rec}

instance ks_parseComputedMemberExpr {object : Node} [Al P object] [RecKs I P r] : Ks I P (parseComputedMemberExpr r object) := by
  unfold parseComputedMemberExpr; ks

instance ks_parseStaticMemberExpr {object : Node} [Al P object]  : Ks I P (parseStaticMemberExpr object) := by
  unfold parseStaticMemberExpr; ks

instance ks_parseSuper  : Ks I P (parseSuper) := by
  unfold parseSuper; ks

theorem ks_memberLoopF [RecKs I P r] (n : Nat) : ∀ (x1 : Node) [Al P x1], Ks I P (memberLoopF r n x1) := by
  induction n with
  | zero => intro x1 _; exact ks_fuel
  | succ n ih => intro x1 _; unfold memberLoopF; ks

instance ks_memberLoopF' [RecKs I P r] {n : Nat} {x1 : Node} [Al P x1] : Ks I P (memberLoopF r n x1) := ks_memberLoopF n x1

instance ks_parseMemberHead [RecKs I P r] : Ks I P (parseMemberHead r) := by
  unfold parseMemberHead; ks

instance ks_parseMemberExpr [RecKs I P r] : Ks I P (parseMemberExpr r) := by
  unfold parseMemberExpr; ks

theorem ks_callLoopF [RecKs I P r] (n : Nat) : ∀ (x1 : Node) [Al P x1], Ks I P (callLoopF r n x1) := by
  induction n with
  | zero => intro x1 _; exact ks_fuel
  | succ n ih => intro x1 _; unfold callLoopF; ks

instance ks_callLoopF' [RecKs I P r] {n : Nat} {x1 : Node} [Al P x1] : Ks I P (callLoopF r n x1) := ks_callLoopF n x1

instance ks_parseCallExprTail {callee : Node} [Al P callee] [RecKs I P r] : Ks I P (parseCallExprTail r callee) := by
  unfold parseCallExprTail; ks

instance ks_parseCallHead [RecKs I P r] : Ks I P (parseCallHead r) := by
  unfold parseCallHead; ks

instance ks_parseCallExpr [RecKs I P r] : Ks I P (parseCallExpr r) := by
  unfold parseCallExpr; ks

instance ks_parseNewTarget {newTok : Token} {span : Span} [Al P span]  : Ks I P (parseNewTarget newTok span) := by
  unfold parseNewTarget; ks

instance ks_parseNewCallee [RecKs I P r] : Ks I P (parseNewCallee r) := by
  unfold parseNewCallee; ks

instance ks_parseNewExpr [RecKs I P r] : Ks I P (parseNewExpr r) := by
  unfold parseNewExpr; ks

instance ks_parseLeftHandSideExpr [RecKs I P r] : Ks I P (parseLeftHandSideExpr r) := by
  unfold parseLeftHandSideExpr; ks

instance ks_parsePrefixUpdate [RecKs I P r] : Ks I P (parsePrefixUpdate r) := by
  unfold parsePrefixUpdate; ks

instance ks_parsePostfix [RecKs I P r] : Ks I P (parsePostfix r) := by
  unfold parsePostfix; ks

instance ks_parseUpdateExpr [RecKs I P r] : Ks I P (parseUpdateExpr r) := by
  unfold parseUpdateExpr; ks

instance ks_parseUnaryOp [RecKs I P r] : Ks I P (parseUnaryOp r) := by
  unfold parseUnaryOp; ks

instance ks_parseUnaryExpr [RecKs I P r] : Ks I P (parseUnaryExpr r) := by
  unfold parseUnaryExpr; ks

instance ks_parsePow [RecKs I P r] : Ks I P (parsePow r) := by
  unfold parsePow; ks

instance ks_parseExponentiationExpr [RecKs I P r] : Ks I P (parseExponentiationExpr r) := by
  unfold parseExponentiationExpr; ks

theorem ks_climbInnerF {opPrec : Nat} [RecKs I P r] (n : Nat) : ∀ (x1 : Node) [Al P x1], Ks I P (climbInnerF r opPrec n x1) := by
  induction n with
  | zero => intro x1 _; exact ks_fuel
  | succ n ih => intro x1 _; unfold climbInnerF; ks

instance ks_climbInnerF' {opPrec : Nat} [RecKs I P r] {n : Nat} {x1 : Node} [Al P x1] : Ks I P (climbInnerF r opPrec n x1) := ks_climbInnerF n x1

instance ks_climbStep {lhs : Node} [Al P lhs] [RecKs I P r] : Ks I P (climbStep r lhs) := by
  unfold climbStep; ks

theorem ks_climbF {prec : Nat} [RecKs I P r] (n : Nat) : ∀ (x1 : Node) [Al P x1], Ks I P (climbF r prec n x1) := by
  induction n with
  | zero => intro x1 _; exact ks_fuel
  | succ n ih => intro x1 _; unfold climbF; ks

instance ks_climbF' {prec : Nat} [RecKs I P r] {n : Nat} {x1 : Node} [Al P x1] : Ks I P (climbF r prec n x1) := ks_climbF n x1

instance ks_precedenceClimbing {lhs : Node} [Al P lhs] {prec : Nat} [RecKs I P r] : Ks I P (precedenceClimbing r lhs prec) := by
  unfold precedenceClimbing; ks

instance ks_parseBinaryExpr [RecKs I P r] : Ks I P (parseBinaryExpr r) := by
  unfold parseBinaryExpr; ks

instance ks_parseConditionalExpr [RecKs I P r] : Ks I P (parseConditionalExpr r) := by
  unfold parseConditionalExpr; ks

instance ks_parseSingleParamArrow {name : Str} [RecKs I P r] : Ks I P (parseSingleParamArrow r name) := by
  unfold parseSingleParamArrow; ks

instance ks_parseYieldExpr [RecKs I P r] : Ks I P (parseYieldExpr r) := by
  unfold parseYieldExpr; ks

instance ks_arrowIfIdentifier {lhs : Node} [Al P lhs] [RecKs I P r] : Ks I P (arrowIfIdentifier r lhs) := by
  unfold arrowIfIdentifier; ks

instance ks_parseAssignTail {lhs : Node} [Al P lhs] [RecKs I P r] : Ks I P (parseAssignTail r lhs) := by
  unfold parseAssignTail; ks

instance ks_parseOpAssignTail {lhs : Node} [Al P lhs] [RecKs I P r] : Ks I P (parseOpAssignTail r lhs) := by
  unfold parseOpAssignTail; ks

instance ks_parseAssignmentExpr [RecKs I P r] : Ks I P (parseAssignmentExpr r) := by
  unfold parseAssignmentExpr; ks

end Pos
end Giron

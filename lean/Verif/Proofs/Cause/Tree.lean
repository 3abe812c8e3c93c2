import Verif.Proofs.Cause.Scan
/-
Conversions of expressions to patterns do not panic in one of these ways.
-/
namespace Giron

namespace Cause
variable [Env] {α β : Type}

/-- does not panic in one of these ways -/
def Nx (x : Except Fail α) : Prop := ∀ f, x = .error f → ¬ Watched f

omit [Env] in
theorem nx_ok {v : α} : Nx (.ok v : Except Fail α) := fun _ h => by cases h
omit [Env] in
theorem nx_err {f : Fail} (h : ¬ Watched f) : Nx (.error f : Except Fail α) := fun _ e => by cases e; exact h
omit [Env] in
theorem nx_bind {x : Except Fail α} {k : α → Except Fail β} (h : Nx x) (hk : ∀ a, Nx (k a)) : Nx (x >>= k) := by
  cases x with
  | error f => intro g e; cases e; exact h _ rfl
  | ok a => exact hk a

/-- the end -/
macro "nxr" : tactic => `(tactic| first
  | exact nx_ok
  | exact nx_err (fun h => h))

omit [Env] in
theorem nx_exprSpan {n : Node} : Nx n.exprSpan := by
  unfold Node.exprSpan
  split <;> nxr

/-- one step -/
macro "nx1" : tactic => `(tactic| first
  | nxr
  | assumption
  | exact nx_exprSpan
  | (refine nx_bind ?_ (fun _ => ?_))
  | split)

omit [Env] in
theorem nx_strict {x : Except Fail Node} {m : Marker} (h : Nx x) : Nx (asStrictBinding x m) := by
  unfold asStrictBinding; repeat nx1
omit [Env] in
theorem nx_element {x : Except Fail Node} {b : Bool} (h : Nx x) : Nx (asArrayPatternElement x b) := by
  unfold asArrayPatternElement; repeat nx1
omit [Env] in
theorem nx_value {x : Except Fail Node} {sp : Span} (h : Nx x) : Nx (asPropertyValue x sp) := by
  unfold asPropertyValue; repeat nx1
omit [Env] in
theorem nx_assign {x : Except Fail Node} (h : Nx x) : Nx (asAssignmentElement x) := by
  unfold asAssignmentElement; repeat nx1

mutual
theorem nx_toBindingPattern : ∀ n : Node, Nx (toBindingPattern n)
  | .arrayExpression elements _ span => by
    unfold toBindingPattern
    split
    · nxr
    · exact nx_bind (nx_arrayToPatternElems elements 0 _) fun _ => by nxr
  | .objectExpression properties _ span => nx_bind (nx_objectToPatternProps properties 0 _) fun _ => by nxr
  | .assignmentExpression operator left right att span => by
    unfold toBindingPattern
    split
    · exact nx_bind (nx_strict (nx_toBindingPattern left)) fun _ => by nxr
    · nxr
  | .spreadElement argument span => nx_bind (nx_strict (nx_toBindingPattern argument)) fun _ => by nxr
  | .arrayPattern .. => by nxr
  | .arrayAssignmentPattern .. => by nxr
  | .arrowFunctionExpression .. => by nxr
  | .assignmentPattern .. => by nxr
  | .assignmentRestElement .. => by nxr
  | .asyncArrowFunctionExpression .. => by nxr
  | .asyncFunctionExpression .. => by nxr
  | .awaitExpression .. => by nxr
  | .binaryExpression .. => by nxr
  | .bindingIdentifier .. => by nxr
  | .logicalExpression .. => by nxr
  | .callExpression .. => by nxr
  | .classExpression .. => by nxr
  | .computedMemberExpression .. => by nxr
  | .conditionalExpression .. => by nxr
  | .identifier .. => by nxr
  | .functionExpression .. => by nxr
  | .literal .. => by nxr
  | .newExpression .. => by nxr
  | .objectPattern .. => by nxr
  | .regexLiteral .. => by nxr
  | .sequenceExpression .. => by nxr
  | .staticMemberExpression .. => by nxr
  | .taggedTemplateExpression .. => by nxr
  | .thisExpression .. => by nxr
  | .unaryExpression .. => by nxr
  | .updateExpression .. => by nxr
  | .yieldExpression .. => by nxr
  | .arrowParameterPlaceHolder .. => by nxr
  | .restElement .. => by nxr
  | .super .. => by nxr
  | .templateLiteral .. => by nxr
  | .metaProperty .. => by nxr
  | .asyncFunctionDeclaration .. => by nxr
  | .breakStatement .. => by nxr
  | .continueStatement .. => by nxr
  | .debuggerStatement .. => by nxr
  | .doWhileStatement .. => by nxr
  | .emptyStatement .. => by nxr
  | .expressionStatement .. => by nxr
  | .directive .. => by nxr
  | .forStatement .. => by nxr
  | .forInStatement .. => by nxr
  | .forOfStatement .. => by nxr
  | .functionDeclaration .. => by nxr
  | .ifStatement .. => by nxr
  | .returnStatement .. => by nxr
  | .switchStatement .. => by nxr
  | .throwStatement .. => by nxr
  | .tryStatement .. => by nxr
  | .variableDeclaration .. => by nxr
  | .whileStatement .. => by nxr
  | .withStatement .. => by nxr
  | .blockStatement .. => by nxr
  | .classDeclaration .. => by nxr
  | .exportAllDeclaration .. => by nxr
  | .exportDefaultDeclaration .. => by nxr
  | .exportNamedDeclaration .. => by nxr
  | .importDeclaration .. => by nxr
  | .importDefaultSpecifier .. => by nxr
  | .importNamespaceSpecifier .. => by nxr
  | .importSpecifier .. => by nxr
  | .labeledStatement .. => by nxr
  | .moduleNode .. => by nxr
  | .program .. => by nxr
termination_by structural n => n
theorem nx_arrayToPatternElems : ∀ (l : List (Option ArrayExpressionElement)) (i k : Nat),
    Nx (arrayToPatternElems l i k)
  | [], _, _ => by nxr
  | x :: l, i, k => nx_bind (nx_arrayToPatternElem x i k) fun _ => nx_bind (nx_arrayToPatternElems l (i + 1) k) fun _ => by nxr
termination_by structural l => l
theorem nx_arrayToPatternElem : ∀ (x : Option ArrayExpressionElement) (i k : Nat),
    Nx (arrayToPatternElem x i k)
  | none, _, _ => by nxr
  | some x, i, k => nx_bind (nx_arrayToPatternSome x i k) fun _ => by nxr
termination_by structural x => x
theorem nx_arrayToPatternSome : ∀ (x : ArrayExpressionElement) (i k : Nat),
    Nx (arrayToPatternSome x i k)
  | .expression expr, i, k => nx_element (nx_toBindingPattern expr)
  | .spreadElement argument span, i, k => by
    unfold arrayToPatternSome
    split
    · nxr
    · exact nx_bind (nx_strict (nx_toBindingPattern argument)) fun _ => by nxr
termination_by structural x => x
theorem nx_objectToPatternProps : ∀ (l : List ObjectExpressionProperty) (i k : Nat),
    Nx (objectToPatternProps l i k)
  | [], _, _ => by nxr
  | x :: l, i, k => nx_bind (nx_objectToPatternProp x i k) fun _ => nx_bind (nx_objectToPatternProps l (i + 1) k) fun _ => by nxr
termination_by structural l => l
theorem nx_objectToPatternProp : ∀ (x : ObjectExpressionProperty) (i k : Nat),
    Nx (objectToPatternProp x i k)
  | .property key computed value kind method shorthand span, _, _ => nx_bind (nx_objectToPatternValue value span) fun _ => by nxr
  | .spreadElement argument span, i, k => by
    unfold objectToPatternProp
    split
    · exact nx_bind (nx_strict (nx_toBindingPattern argument)) fun _ => by nxr
    · nxr
termination_by structural x => x
theorem nx_objectToPatternValue : ∀ (x : Option PropertyValue) (sp : Span),
    Nx (objectToPatternValue x sp)
  | none, _ => by nxr
  | some x, sp => nx_objectToPatternSome x sp
termination_by structural x => x
theorem nx_objectToPatternSome : ∀ (x : PropertyValue) (sp : Span),
    Nx (objectToPatternSome x sp)
  | .expression expr, sp => nx_value (nx_toBindingPattern expr)
  | .assignmentPattern .., _ => by nxr
  | .asyncFunctionExpression .., _ => by nxr
  | .bindingIdentifier .., _ => by nxr
  | .bindingPattern .., _ => by nxr
  | .functionExpression .., _ => by nxr
termination_by structural x => x
end

theorem nx_toBinding (n : Node) : Nx (toBinding n) :=
  nx_bind (nx_toBindingPattern n) fun _ => by split <;> nxr

theorem nx_toStrictBinding (n : Node) (m : Marker) : Nx (toStrictBinding n m) :=
  nx_strict (nx_toBindingPattern n)

theorem nx_restArgument (t : ErrorType) (n : Node) (sp : Span) : Nx (restArgument t n sp) := by
  unfold restArgument
  split
  · nxr
  · nxr
  · split
    · nxr
    · exact nx_toBinding _

mutual
theorem nx_toAssignmentPattern : ∀ n : Node, Nx (toAssignmentPattern n)
  | .arrayExpression elements _ span => nx_bind (nx_arrayToAssignElems elements 0 _) fun _ => by nxr
  | .objectExpression properties _ span => nx_bind (nx_objectToAssignProps properties 0 _) fun _ => by nxr
  | .arrayPattern .. => by nxr
  | .arrayAssignmentPattern .. => by nxr
  | .arrowFunctionExpression .. => by nxr
  | .assignmentExpression .. => by nxr
  | .assignmentPattern .. => by nxr
  | .assignmentRestElement .. => by nxr
  | .asyncArrowFunctionExpression .. => by nxr
  | .asyncFunctionExpression .. => by nxr
  | .awaitExpression .. => by nxr
  | .binaryExpression .. => by nxr
  | .bindingIdentifier .. => by nxr
  | .logicalExpression .. => by nxr
  | .callExpression .. => by nxr
  | .classExpression .. => by nxr
  | .computedMemberExpression .. => by nxr
  | .conditionalExpression .. => by nxr
  | .identifier .. => by nxr
  | .functionExpression .. => by nxr
  | .literal .. => by nxr
  | .newExpression .. => by nxr
  | .objectPattern .. => by nxr
  | .regexLiteral .. => by nxr
  | .sequenceExpression .. => by nxr
  | .staticMemberExpression .. => by nxr
  | .taggedTemplateExpression .. => by nxr
  | .thisExpression .. => by nxr
  | .unaryExpression .. => by nxr
  | .updateExpression .. => by nxr
  | .yieldExpression .. => by nxr
  | .arrowParameterPlaceHolder .. => by nxr
  | .restElement .. => by nxr
  | .spreadElement .. => by nxr
  | .super .. => by nxr
  | .templateLiteral .. => by nxr
  | .metaProperty .. => by nxr
  | .asyncFunctionDeclaration .. => by nxr
  | .breakStatement .. => by nxr
  | .continueStatement .. => by nxr
  | .debuggerStatement .. => by nxr
  | .doWhileStatement .. => by nxr
  | .emptyStatement .. => by nxr
  | .expressionStatement .. => by nxr
  | .directive .. => by nxr
  | .forStatement .. => by nxr
  | .forInStatement .. => by nxr
  | .forOfStatement .. => by nxr
  | .functionDeclaration .. => by nxr
  | .ifStatement .. => by nxr
  | .returnStatement .. => by nxr
  | .switchStatement .. => by nxr
  | .throwStatement .. => by nxr
  | .tryStatement .. => by nxr
  | .variableDeclaration .. => by nxr
  | .whileStatement .. => by nxr
  | .withStatement .. => by nxr
  | .blockStatement .. => by nxr
  | .classDeclaration .. => by nxr
  | .exportAllDeclaration .. => by nxr
  | .exportDefaultDeclaration .. => by nxr
  | .exportNamedDeclaration .. => by nxr
  | .importDeclaration .. => by nxr
  | .importDefaultSpecifier .. => by nxr
  | .importNamespaceSpecifier .. => by nxr
  | .importSpecifier .. => by nxr
  | .labeledStatement .. => by nxr
  | .moduleNode .. => by nxr
  | .program .. => by nxr
termination_by structural n => n
theorem nx_arrayToAssignElems : ∀ (l : List (Option ArrayExpressionElement)) (i k : Nat),
    Nx (arrayToAssignElems l i k)
  | [], _, _ => by nxr
  | x :: l, i, k => nx_bind (nx_arrayToAssignElem x i k) fun _ => nx_bind (nx_arrayToAssignElems l (i + 1) k) fun _ => by nxr
termination_by structural l => l
theorem nx_arrayToAssignElem : ∀ (x : Option ArrayExpressionElement) (i k : Nat),
    Nx (arrayToAssignElem x i k)
  | none, _, _ => by nxr
  | some x, i, k => nx_bind (nx_arrayToAssignSome x i k) fun _ => by nxr
termination_by structural x => x
theorem nx_arrayToAssignSome : ∀ (x : ArrayExpressionElement) (i k : Nat),
    Nx (arrayToAssignSome x i k)
  | .expression expr, _, _ => nx_bind (nx_assign (nx_toAssignmentPattern expr)) fun _ => by nxr
  | .spreadElement argument span, i, k => by
    unfold arrayToAssignSome
    split
    · nxr
    · exact nx_bind (nx_restArgument _ argument span) fun _ => by nxr
termination_by structural x => x
theorem nx_objectToAssignProps : ∀ (l : List ObjectExpressionProperty) (i k : Nat),
    Nx (objectToAssignProps l i k)
  | [], _, _ => by nxr
  | x :: l, i, k => nx_bind (nx_objectToAssignProp x i k) fun _ => nx_bind (nx_objectToAssignProps l (i + 1) k) fun _ => by nxr
termination_by structural l => l
theorem nx_objectToAssignProp : ∀ (x : ObjectExpressionProperty) (i k : Nat),
    Nx (objectToAssignProp x i k)
  | .property key computed value kind method shorthand span, _, _ => nx_bind (nx_objectToAssignValue value span) fun _ => by nxr
  | .spreadElement argument span, i, k => by
    unfold objectToAssignProp
    split
    · nxr
    · exact nx_bind (nx_restArgument _ argument span) fun _ => by nxr
termination_by structural x => x
theorem nx_objectToAssignValue : ∀ (x : Option PropertyValue) (sp : Span),
    Nx (objectToAssignValue x sp)
  | none, _ => by nxr
  | some x, sp => nx_objectToAssignSome x sp
termination_by structural x => x
theorem nx_objectToAssignSome : ∀ (x : PropertyValue) (sp : Span),
    Nx (objectToAssignSome x sp)
  | .expression expr, _ => nx_bind (nx_assign (nx_toAssignmentPattern expr)) fun _ => by nxr
  | .assignmentPattern .., _ => by nxr
  | .asyncFunctionExpression .., _ => by nxr
  | .bindingIdentifier .., _ => by nxr
  | .bindingPattern .., _ => by nxr
  | .functionExpression .., _ => by nxr
termination_by structural x => x
end


theorem nx_forTarget (x : Node) : Nx (Parser.forTarget x) := by
  unfold Parser.forTarget
  split
  · exact nx_toAssignmentPattern _
  · exact nx_toAssignmentPattern _
  · nxr

end Cause
end Giron

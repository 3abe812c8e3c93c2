import Verif.Proofs.Build.Basic
/-
Two builds turn expressions into patterns in the same way.
-/
namespace Giron

namespace Build
variable {e o : Env} {st ct : Char → Bool} {ck : Bool} {um : Nat} {pr : Char → Bool}
local notation "e'" => other e st ct ck um pr

theorem Eqx.rfl {α : Type} {x : Except Fail α} : Eqx e o x x := .inr _root_.rfl

theorem eqx_strict {x y : Except Fail Node} {m : Marker} (h : Eqx e o x y) : Eqx e o (asStrictBinding x m) (asStrictBinding y m) :=
  eqx_map (f := fun z => asStrictBinding z m) (fun _ hz => hz.bind) h

theorem eqx_element {x y : Except Fail Node} {b : Bool} (h : Eqx e o x y) : Eqx e o (asArrayPatternElement x b) (asArrayPatternElement y b) :=
  eqx_map (f := fun z => asArrayPatternElement z b) (fun _ hz => hz.bind) h

theorem eqx_value {x y : Except Fail Node} {sp : Span} (h : Eqx e o x y) : Eqx e o (asPropertyValue x sp) (asPropertyValue y sp) :=
  eqx_map (f := fun z => asPropertyValue z sp) (fun _ hz => hz.bind) h

theorem eqx_assign {x y : Except Fail Node} (h : Eqx e o x y) : Eqx e o (asAssignmentElement x) (asAssignmentElement y) :=
  eqx_map (f := fun z => asAssignmentElement z) (fun _ hz => hz.bind) h

mutual
theorem eqx_toBindingPattern (hc : Calm e e') : ∀ n : Node, Eqx e e' (@toBindingPattern e n) (@toBindingPattern e' n)
  | .arrayExpression elements _ span => by
    unfold toBindingPattern
    rcases hc with h | ⟨h, h'⟩
    · by_cases he : elements.isEmpty = true
      · left; rw [if_pos (by rw [he]; exact h.1)]; exact ⟨h, rfl⟩
      · rw [if_neg (by simp [he]), if_neg (by simp [he])]
        exact eqx_bind (eqx_arrayToPatternElems (.inl h) elements 0 _) fun _ => .rfl
    · by_cases he : (elements.isEmpty && e.checked) = true
      · right
        rw [if_pos he, if_pos (by rw [h]; exact he)]
      · rw [if_neg he, if_neg (by rw [h]; exact he)]
        exact eqx_bind (eqx_arrayToPatternElems (.inr ⟨h, by assumption⟩) elements 0 _) fun _ => .rfl
  | .objectExpression properties _ span => eqx_bind (eqx_objectToPatternProps hc properties 0 _) fun _ => .rfl
  | .assignmentExpression operator left right att span => by
    unfold toBindingPattern
    split
    · exact eqx_bind (eqx_strict (eqx_toBindingPattern hc left)) fun _ => .rfl
    · exact .rfl
  | .spreadElement argument span => eqx_bind (eqx_strict (eqx_toBindingPattern hc argument)) fun _ => .rfl
  | .arrayPattern .. => .rfl
  | .arrayAssignmentPattern .. => .rfl
  | .arrowFunctionExpression .. => .rfl
  | .assignmentPattern .. => .rfl
  | .assignmentRestElement .. => .rfl
  | .asyncArrowFunctionExpression .. => .rfl
  | .asyncFunctionExpression .. => .rfl
  | .awaitExpression .. => .rfl
  | .binaryExpression .. => .rfl
  | .bindingIdentifier .. => .rfl
  | .logicalExpression .. => .rfl
  | .callExpression .. => .rfl
  | .classExpression .. => .rfl
  | .computedMemberExpression .. => .rfl
  | .conditionalExpression .. => .rfl
  | .identifier .. => .rfl
  | .functionExpression .. => .rfl
  | .literal .. => .rfl
  | .newExpression .. => .rfl
  | .objectPattern .. => .rfl
  | .regexLiteral .. => .rfl
  | .sequenceExpression .. => .rfl
  | .staticMemberExpression .. => .rfl
  | .taggedTemplateExpression .. => .rfl
  | .thisExpression .. => .rfl
  | .unaryExpression .. => .rfl
  | .updateExpression .. => .rfl
  | .yieldExpression .. => .rfl
  | .arrowParameterPlaceHolder .. => .rfl
  | .restElement .. => .rfl
  | .super .. => .rfl
  | .templateLiteral .. => .rfl
  | .metaProperty .. => .rfl
  | .asyncFunctionDeclaration .. => .rfl
  | .breakStatement .. => .rfl
  | .continueStatement .. => .rfl
  | .debuggerStatement .. => .rfl
  | .doWhileStatement .. => .rfl
  | .emptyStatement .. => .rfl
  | .expressionStatement .. => .rfl
  | .directive .. => .rfl
  | .forStatement .. => .rfl
  | .forInStatement .. => .rfl
  | .forOfStatement .. => .rfl
  | .functionDeclaration .. => .rfl
  | .ifStatement .. => .rfl
  | .returnStatement .. => .rfl
  | .switchStatement .. => .rfl
  | .throwStatement .. => .rfl
  | .tryStatement .. => .rfl
  | .variableDeclaration .. => .rfl
  | .whileStatement .. => .rfl
  | .withStatement .. => .rfl
  | .blockStatement .. => .rfl
  | .classDeclaration .. => .rfl
  | .exportAllDeclaration .. => .rfl
  | .exportDefaultDeclaration .. => .rfl
  | .exportNamedDeclaration .. => .rfl
  | .importDeclaration .. => .rfl
  | .importDefaultSpecifier .. => .rfl
  | .importNamespaceSpecifier .. => .rfl
  | .importSpecifier .. => .rfl
  | .labeledStatement .. => .rfl
  | .moduleNode .. => .rfl
  | .program .. => .rfl
termination_by structural n => n
theorem eqx_arrayToPatternElems (hc : Calm e e') : ∀ (l : List (Option ArrayExpressionElement)) (i k : Nat),
    Eqx e e' (@arrayToPatternElems e l i k) (@arrayToPatternElems e' l i k)
  | [], _, _ => .rfl
  | x :: l, i, k => eqx_bind (eqx_arrayToPatternElem hc x i k) fun _ => eqx_bind (eqx_arrayToPatternElems hc l (i + 1) k) fun _ => .rfl
termination_by structural l => l
theorem eqx_arrayToPatternElem (hc : Calm e e') : ∀ (x : Option ArrayExpressionElement) (i k : Nat),
    Eqx e e' (@arrayToPatternElem e x i k) (@arrayToPatternElem e' x i k)
  | none, _, _ => .rfl
  | some x, i, k => eqx_bind (eqx_arrayToPatternSome hc x i k) fun _ => .rfl
termination_by structural x => x
theorem eqx_arrayToPatternSome (hc : Calm e e') : ∀ (x : ArrayExpressionElement) (i k : Nat),
    Eqx e e' (@arrayToPatternSome e x i k) (@arrayToPatternSome e' x i k)
  | .expression expr, i, k => eqx_element (eqx_toBindingPattern hc expr)
  | .spreadElement argument span, i, k => by
    unfold arrayToPatternSome
    split
    · exact .rfl
    · exact eqx_bind (eqx_strict (eqx_toBindingPattern hc argument)) fun _ => .rfl
termination_by structural x => x
theorem eqx_objectToPatternProps (hc : Calm e e') : ∀ (l : List ObjectExpressionProperty) (i k : Nat),
    Eqx e e' (@objectToPatternProps e l i k) (@objectToPatternProps e' l i k)
  | [], _, _ => .rfl
  | x :: l, i, k => eqx_bind (eqx_objectToPatternProp hc x i k) fun _ => eqx_bind (eqx_objectToPatternProps hc l (i + 1) k) fun _ => .rfl
termination_by structural l => l
theorem eqx_objectToPatternProp (hc : Calm e e') : ∀ (x : ObjectExpressionProperty) (i k : Nat),
    Eqx e e' (@objectToPatternProp e x i k) (@objectToPatternProp e' x i k)
  | .property key computed value kind method shorthand span, _, _ => eqx_bind (eqx_objectToPatternValue hc value span) fun _ => .rfl
  | .spreadElement argument span, i, k => by
    unfold objectToPatternProp
    split
    · exact eqx_bind (eqx_strict (eqx_toBindingPattern hc argument)) fun _ => .rfl
    · exact .rfl
termination_by structural x => x
theorem eqx_objectToPatternValue (hc : Calm e e') : ∀ (x : Option PropertyValue) (sp : Span),
    Eqx e e' (@objectToPatternValue e x sp) (@objectToPatternValue e' x sp)
  | none, _ => .rfl
  | some x, sp => eqx_objectToPatternSome hc x sp
termination_by structural x => x
theorem eqx_objectToPatternSome (hc : Calm e e') : ∀ (x : PropertyValue) (sp : Span),
    Eqx e e' (@objectToPatternSome e x sp) (@objectToPatternSome e' x sp)
  | .expression expr, sp => eqx_value (eqx_toBindingPattern hc expr)
  | .assignmentPattern .., _ => .rfl
  | .asyncFunctionExpression .., _ => .rfl
  | .bindingIdentifier .., _ => .rfl
  | .bindingPattern .., _ => .rfl
  | .functionExpression .., _ => .rfl
termination_by structural x => x
end

theorem eqx_toBinding (hc : Calm e e') (n : Node) : Eqx e e' (@toBinding e n) (@toBinding e' n) :=
  eqx_bind (eqx_toBindingPattern hc n) fun _ => .rfl

theorem eqx_toStrictBinding (hc : Calm e e') (n : Node) (m : Marker) : Eqx e e' (@toStrictBinding e n m) (@toStrictBinding e' n m) :=
  eqx_strict (eqx_toBindingPattern hc n)

theorem eqx_restArgument (hc : Calm e e') (t : ErrorType) (n : Node) (sp : Span) : Eqx e e' (@restArgument e t n sp) (@restArgument e' t n sp) := by
  unfold restArgument
  split
  · exact .rfl
  · exact .rfl
  · split
    · exact .rfl
    · exact eqx_toBinding hc _

mutual
theorem eqx_toAssignmentPattern (hc : Calm e e') : ∀ n : Node, Eqx e e' (@toAssignmentPattern e n) (@toAssignmentPattern e' n)
  | .arrayExpression elements _ span => eqx_bind (eqx_arrayToAssignElems hc elements 0 _) fun _ => .rfl
  | .objectExpression properties _ span => eqx_bind (eqx_objectToAssignProps hc properties 0 _) fun _ => .rfl
  | .arrayPattern .. => .rfl
  | .arrayAssignmentPattern .. => .rfl
  | .arrowFunctionExpression .. => .rfl
  | .assignmentExpression .. => .rfl
  | .assignmentPattern .. => .rfl
  | .assignmentRestElement .. => .rfl
  | .asyncArrowFunctionExpression .. => .rfl
  | .asyncFunctionExpression .. => .rfl
  | .awaitExpression .. => .rfl
  | .binaryExpression .. => .rfl
  | .bindingIdentifier .. => .rfl
  | .logicalExpression .. => .rfl
  | .callExpression .. => .rfl
  | .classExpression .. => .rfl
  | .computedMemberExpression .. => .rfl
  | .conditionalExpression .. => .rfl
  | .identifier .. => .rfl
  | .functionExpression .. => .rfl
  | .literal .. => .rfl
  | .newExpression .. => .rfl
  | .objectPattern .. => .rfl
  | .regexLiteral .. => .rfl
  | .sequenceExpression .. => .rfl
  | .staticMemberExpression .. => .rfl
  | .taggedTemplateExpression .. => .rfl
  | .thisExpression .. => .rfl
  | .unaryExpression .. => .rfl
  | .updateExpression .. => .rfl
  | .yieldExpression .. => .rfl
  | .arrowParameterPlaceHolder .. => .rfl
  | .restElement .. => .rfl
  | .spreadElement .. => .rfl
  | .super .. => .rfl
  | .templateLiteral .. => .rfl
  | .metaProperty .. => .rfl
  | .asyncFunctionDeclaration .. => .rfl
  | .breakStatement .. => .rfl
  | .continueStatement .. => .rfl
  | .debuggerStatement .. => .rfl
  | .doWhileStatement .. => .rfl
  | .emptyStatement .. => .rfl
  | .expressionStatement .. => .rfl
  | .directive .. => .rfl
  | .forStatement .. => .rfl
  | .forInStatement .. => .rfl
  | .forOfStatement .. => .rfl
  | .functionDeclaration .. => .rfl
  | .ifStatement .. => .rfl
  | .returnStatement .. => .rfl
  | .switchStatement .. => .rfl
  | .throwStatement .. => .rfl
  | .tryStatement .. => .rfl
  | .variableDeclaration .. => .rfl
  | .whileStatement .. => .rfl
  | .withStatement .. => .rfl
  | .blockStatement .. => .rfl
  | .classDeclaration .. => .rfl
  | .exportAllDeclaration .. => .rfl
  | .exportDefaultDeclaration .. => .rfl
  | .exportNamedDeclaration .. => .rfl
  | .importDeclaration .. => .rfl
  | .importDefaultSpecifier .. => .rfl
  | .importNamespaceSpecifier .. => .rfl
  | .importSpecifier .. => .rfl
  | .labeledStatement .. => .rfl
  | .moduleNode .. => .rfl
  | .program .. => .rfl
termination_by structural n => n
theorem eqx_arrayToAssignElems (hc : Calm e e') : ∀ (l : List (Option ArrayExpressionElement)) (i k : Nat),
    Eqx e e' (@arrayToAssignElems e l i k) (@arrayToAssignElems e' l i k)
  | [], _, _ => .rfl
  | x :: l, i, k => eqx_bind (eqx_arrayToAssignElem hc x i k) fun _ => eqx_bind (eqx_arrayToAssignElems hc l (i + 1) k) fun _ => .rfl
termination_by structural l => l
theorem eqx_arrayToAssignElem (hc : Calm e e') : ∀ (x : Option ArrayExpressionElement) (i k : Nat),
    Eqx e e' (@arrayToAssignElem e x i k) (@arrayToAssignElem e' x i k)
  | none, _, _ => .rfl
  | some x, i, k => eqx_bind (eqx_arrayToAssignSome hc x i k) fun _ => .rfl
termination_by structural x => x
theorem eqx_arrayToAssignSome (hc : Calm e e') : ∀ (x : ArrayExpressionElement) (i k : Nat),
    Eqx e e' (@arrayToAssignSome e x i k) (@arrayToAssignSome e' x i k)
  | .expression expr, _, _ => eqx_bind (eqx_assign (eqx_toAssignmentPattern hc expr)) fun _ => .rfl
  | .spreadElement argument span, i, k => by
    unfold arrayToAssignSome
    split
    · exact .rfl
    · exact eqx_bind (eqx_restArgument hc _ argument span) fun _ => .rfl
termination_by structural x => x
theorem eqx_objectToAssignProps (hc : Calm e e') : ∀ (l : List ObjectExpressionProperty) (i k : Nat),
    Eqx e e' (@objectToAssignProps e l i k) (@objectToAssignProps e' l i k)
  | [], _, _ => .rfl
  | x :: l, i, k => eqx_bind (eqx_objectToAssignProp hc x i k) fun _ => eqx_bind (eqx_objectToAssignProps hc l (i + 1) k) fun _ => .rfl
termination_by structural l => l
theorem eqx_objectToAssignProp (hc : Calm e e') : ∀ (x : ObjectExpressionProperty) (i k : Nat),
    Eqx e e' (@objectToAssignProp e x i k) (@objectToAssignProp e' x i k)
  | .property key computed value kind method shorthand span, _, _ => eqx_bind (eqx_objectToAssignValue hc value span) fun _ => .rfl
  | .spreadElement argument span, i, k => by
    unfold objectToAssignProp
    split
    · exact .rfl
    · exact eqx_bind (eqx_restArgument hc _ argument span) fun _ => .rfl
termination_by structural x => x
theorem eqx_objectToAssignValue (hc : Calm e e') : ∀ (x : Option PropertyValue) (sp : Span),
    Eqx e e' (@objectToAssignValue e x sp) (@objectToAssignValue e' x sp)
  | none, _ => .rfl
  | some x, sp => eqx_objectToAssignSome hc x sp
termination_by structural x => x
theorem eqx_objectToAssignSome (hc : Calm e e') : ∀ (x : PropertyValue) (sp : Span),
    Eqx e e' (@objectToAssignSome e x sp) (@objectToAssignSome e' x sp)
  | .expression expr, _ => eqx_bind (eqx_assign (eqx_toAssignmentPattern hc expr)) fun _ => .rfl
  | .assignmentPattern .., _ => .rfl
  | .asyncFunctionExpression .., _ => .rfl
  | .bindingIdentifier .., _ => .rfl
  | .bindingPattern .., _ => .rfl
  | .functionExpression .., _ => .rfl
termination_by structural x => x
end

end Build
end Giron

import Verif.Spec.Moved
import Verif.Model.EstreeFns
/-
Moving positions commutes with the functions of `estree.rs`.
-/
namespace Giron
open Spec

/-- values with positions -/
class Mv (α : Type) where
  /-- moved by so many characters and lines -/
  mv : Nat → Nat → α → α

export Mv (mv)

instance : Mv Unit := ⟨fun _ _ a => a⟩
instance : Mv Bool := ⟨fun _ _ a => a⟩
instance : Mv Nat := ⟨fun _ _ a => a⟩
instance mvStr : Mv Str := ⟨fun _ _ a => a⟩
instance : Mv Value := ⟨fun _ _ a => a⟩
instance : Mv Punctuator := ⟨fun _ _ a => a⟩
instance : Mv TemplateElement := ⟨fun _ _ a => a⟩
instance {α β : Type} [Mv α] [Mv β] : Mv (α × β) := ⟨fun d ℓ p => (mv d ℓ p.1, mv d ℓ p.2)⟩
instance {α : Type} [Mv α] : Mv (Option α) := ⟨fun d ℓ => Option.map (mv d ℓ)⟩
instance (priority := low) {α : Type} [Mv α] : Mv (List α) := ⟨fun d ℓ => List.map (mv d ℓ)⟩
instance : Mv Marker := ⟨moveMarker⟩
instance : Mv Span := ⟨moveSpan⟩
instance : Mv Node := ⟨moveNode⟩
instance : Mv Binding := ⟨moveBinding⟩
instance : Mv ArrayExpressionElement := ⟨moveArrayExpressionElement⟩
instance : Mv ArrayPatternElement := ⟨moveArrayPatternElement⟩
instance : Mv ArrayAssignmentPatternElement := ⟨moveArrayAssignmentPatternElement⟩
instance : Mv PropertyKey := ⟨movePropertyKey⟩
instance : Mv FnExpr := ⟨moveFnExpr⟩
instance : Mv PropertyValue := ⟨movePropertyValue⟩
instance : Mv ObjectPatternProperty := ⟨moveObjectPatternProperty⟩
instance : Mv BindingPattern := ⟨moveBindingPattern⟩
instance : Mv FunctionParameter := ⟨moveFunctionParameter⟩
instance : Mv ArgumentListElement := ⟨moveArgumentListElement⟩
instance : Mv ObjectExpressionProperty := ⟨moveObjectExpressionProperty⟩
instance : Mv MethodDefinition := ⟨moveMethodDefinition⟩
instance : Mv SwitchCase := ⟨moveSwitchCase⟩
instance : Mv VariableDeclarator := ⟨moveVariableDeclarator⟩
instance : Mv CatchClause := ⟨moveCatchClause⟩
instance : Mv Identifier := ⟨moveIdentifier⟩
instance : Mv Literal := ⟨moveLiteral⟩
instance : Mv ExportSpecifier := ⟨moveExportSpecifier⟩
instance : Mv ImportDeclarationSpecifier := ⟨moveImportSpecifier⟩

/-- results of conversions -/
def mvEx {α : Type} [Mv α] (d ℓ : Nat) : Except Fail α → Except Fail α
  | .ok a => .ok (mv d ℓ a)
  | .error f => .error (f.moved ℓ)

variable {d ℓ : Nat} {α β : Type} [Mv α] [Mv β]

theorem mvEx_bind {r : Except Fail α} {k k' : α → Except Fail β} (h : ∀ a, k' (mv d ℓ a) = mvEx d ℓ (k a)) :
    (mvEx d ℓ r >>= k') = mvEx d ℓ (r >>= k) := by
  cases r with
  | error f => rfl
  | ok a => exact h a

theorem nodeError_mv {t : ErrorType} {m : Marker} : (nodeError t (moveMarker d ℓ m) : Except Fail α) = mvEx d ℓ (nodeError t m) := rfl

theorem toNode_mv (b : Binding) : (moveBinding d ℓ b).toNode = mvEx d ℓ b.toNode := by cases b <;> rfl

theorem toId_mv (b : Binding) : (moveBinding d ℓ b).toId = mvEx d ℓ b.toId := by cases b <;> rfl

theorem keyAsNode_mv (k : PropertyKey) : (movePropertyKey d ℓ k).asNode = moveNode d ℓ k.asNode := by cases k <;> rfl

theorem assignTargetType_mv (n : Node) : (moveNode d ℓ n).assignTargetType = n.assignTargetType := by cases n <;> rfl

theorem exprSpan_mv (n : Node) : (moveNode d ℓ n).exprSpan = mvEx d ℓ n.exprSpan := by cases n <;> rfl

theorem asStrictBinding_mv (r : Except Fail Node) (m : Marker) :
    asStrictBinding (mvEx d ℓ r) (moveMarker d ℓ m) = mvEx d ℓ (asStrictBinding r m) := by
  unfold asStrictBinding
  apply mvEx_bind
  intro a
  cases a <;> rfl

theorem asArrayPatternElement_mv (r : Except Fail Node) (b : Bool) :
    asArrayPatternElement (mvEx d ℓ r) b = mvEx d ℓ (asArrayPatternElement r b) := by
  unfold asArrayPatternElement
  apply mvEx_bind
  intro a
  cases b <;> cases a <;> rfl

theorem asPropertyValue_mv (r : Except Fail Node) (sp : Span) :
    asPropertyValue (mvEx d ℓ r) (moveSpan d ℓ sp) = mvEx d ℓ (asPropertyValue r sp) := by
  unfold asPropertyValue
  apply mvEx_bind
  intro a
  cases a <;> rfl

theorem asAssignmentElement_mv (r : Except Fail Node) :
    asAssignmentElement (mvEx d ℓ r) = mvEx d ℓ (asAssignmentElement r) := by
  unfold asAssignmentElement
  apply mvEx_bind
  intro a
  cases a with
  | assignmentExpression operator left right att span =>
    show (if operator = cs!"=" then
        if (moveNode d ℓ left).assignTargetType ≠ .simple then _ else _ else _) = _
    rw [assignTargetType_mv]
    dsimp only
    split
    · split <;> rfl
    · split <;> rfl
  | arrayExpression e a s | objectExpression e a s | arrayPattern e a s | objectPattern e a s | sequenceExpression e a s
  | identifier e a s => cases a <;> rfl
  | thisExpression a s | super a s => cases a <;> rfl
  | binaryExpression _ _ _ a s | computedMemberExpression _ _ _ a s | regexLiteral _ _ _ a s | staticMemberExpression _ _ _ a s
  | unaryExpression _ _ _ a s | updateExpression _ _ _ a s => cases a <;> rfl
  | callExpression _ _ a s | literal _ _ a s | newExpression _ _ a s | yieldExpression _ _ a s | templateLiteral _ _ a s
  | metaProperty _ _ a s => cases a <;> rfl
  | classExpression _ _ _ a s => cases a <;> rfl
  | arrowFunctionExpression _ _ _ _ _ _ a s | asyncArrowFunctionExpression _ _ _ _ _ _ a s
  | asyncFunctionExpression _ _ _ _ _ _ a s | functionExpression _ _ _ _ _ _ a s => cases a <;> rfl
  | _ => rfl

variable [Env]

mutual

theorem toBindingPattern_mv : ∀ n : Node, toBindingPattern (moveNode d ℓ n) = mvEx d ℓ (toBindingPattern n)
  | .identifier .. => rfl
  | .arrayExpression elements _ span => by
    show (if (moveHolesArrayExpressionElement d ℓ elements).isEmpty && Env.checked then _ else _) = mvEx d ℓ (if _ then _ else _)
    rw [arrayToPatternElems_mv elements]
    have h1 : (moveHolesArrayExpressionElement d ℓ elements).isEmpty = elements.isEmpty := by
      rw [moveHolesArrayExpressionElement_eq]; cases elements <;> rfl
    have h2 : (moveHolesArrayExpressionElement d ℓ elements).length = elements.length := by simp
    rw [h1, h2]
    split
    · rfl
    · exact mvEx_bind (fun a => by show _ = Except.ok _; simp [mv, moveNode, pure, Except.pure])
  | .objectExpression properties _ span => by
    show (objectToPatternProps (moveListObjectExpressionProperty d ℓ properties) 0 _ >>= _) = mvEx d ℓ (_ >>= _)
    rw [objectToPatternProps_mv properties]
    have h2 : (moveListObjectExpressionProperty d ℓ properties).length = properties.length := by simp
    rw [h2]
    exact mvEx_bind (fun a => by show _ = Except.ok _; simp [mv, moveNode, pure, Except.pure])
  | .assignmentExpression operator left right att span => by
    show (if operator = cs!"=" then asStrictBinding (toBindingPattern (moveNode d ℓ left)) _ >>= _ else _) = _
    rw [toBindingPattern_mv left]
    show _ = mvEx d ℓ (if _ then _ else _)
    split
    · exact (congrArg (· >>= _) (asStrictBinding_mv (d := d) (ℓ := ℓ) _ _)).trans (mvEx_bind (fun a => rfl))
    · rfl
  | .spreadElement argument span => by
    show (asStrictBinding (toBindingPattern (moveNode d ℓ argument)) _ >>= _) = _
    rw [toBindingPattern_mv argument]
    exact (congrArg (· >>= _) (asStrictBinding_mv (d := d) (ℓ := ℓ) _ _)).trans (mvEx_bind (fun a => rfl))
  | .arrayPattern .. => rfl
  | .arrayAssignmentPattern .. => rfl
  | .arrowFunctionExpression .. => rfl
  | .assignmentPattern .. => rfl
  | .assignmentRestElement .. => rfl
  | .asyncArrowFunctionExpression .. => rfl
  | .asyncFunctionExpression .. => rfl
  | .awaitExpression .. => rfl
  | .binaryExpression .. => rfl
  | .bindingIdentifier .. => rfl
  | .logicalExpression .. => rfl
  | .callExpression .. => rfl
  | .classExpression .. => rfl
  | .computedMemberExpression .. => rfl
  | .conditionalExpression .. => rfl
  | .functionExpression .. => rfl
  | .literal .. => rfl
  | .newExpression .. => rfl
  | .objectPattern .. => rfl
  | .regexLiteral .. => rfl
  | .sequenceExpression .. => rfl
  | .staticMemberExpression .. => rfl
  | .taggedTemplateExpression .. => rfl
  | .thisExpression .. => rfl
  | .unaryExpression .. => rfl
  | .updateExpression .. => rfl
  | .yieldExpression .. => rfl
  | .arrowParameterPlaceHolder .. => rfl
  | .restElement .. => rfl
  | .super .. => rfl
  | .templateLiteral .. => rfl
  | .metaProperty .. => rfl
  | .asyncFunctionDeclaration .. => rfl
  | .breakStatement .. => rfl
  | .continueStatement .. => rfl
  | .debuggerStatement .. => rfl
  | .doWhileStatement .. => rfl
  | .emptyStatement .. => rfl
  | .expressionStatement .. => rfl
  | .directive .. => rfl
  | .forStatement .. => rfl
  | .forInStatement .. => rfl
  | .forOfStatement .. => rfl
  | .functionDeclaration .. => rfl
  | .ifStatement .. => rfl
  | .returnStatement .. => rfl
  | .switchStatement .. => rfl
  | .throwStatement .. => rfl
  | .tryStatement .. => rfl
  | .variableDeclaration .. => rfl
  | .whileStatement .. => rfl
  | .withStatement .. => rfl
  | .blockStatement .. => rfl
  | .classDeclaration .. => rfl
  | .exportAllDeclaration .. => rfl
  | .exportDefaultDeclaration .. => rfl
  | .exportNamedDeclaration .. => rfl
  | .importDeclaration .. => rfl
  | .importDefaultSpecifier .. => rfl
  | .importNamespaceSpecifier .. => rfl
  | .importSpecifier .. => rfl
  | .labeledStatement .. => rfl
  | .moduleNode .. => rfl
  | .program .. => rfl
termination_by structural n => n

theorem arrayToPatternElems_mv : ∀ (l : List (Option ArrayExpressionElement)) {i j : Nat},
    arrayToPatternElems (moveHolesArrayExpressionElement d ℓ l) i j = mvEx d ℓ (arrayToPatternElems l i j)
  | [], _, _ => rfl
  | e :: rest, i, j => by
    show (arrayToPatternElem (moveOptArrayExpressionElement d ℓ e) i j >>= _) = _
    rw [arrayToPatternElem_mv e]
    refine mvEx_bind (fun a => ?_)
    rw [arrayToPatternElems_mv rest]
    exact mvEx_bind (fun b => rfl)
termination_by structural l => l

theorem arrayToPatternElem_mv : ∀ (e : Option ArrayExpressionElement) {i j : Nat},
    arrayToPatternElem (moveOptArrayExpressionElement d ℓ e) i j = mvEx d ℓ (arrayToPatternElem e i j)
  | none, _, _ => rfl
  | some e, i, j => by
    show (arrayToPatternSome (moveArrayExpressionElement d ℓ e) i j >>= _) = _
    rw [arrayToPatternSome_mv e]
    exact mvEx_bind (fun a => rfl)
termination_by structural e => e

theorem arrayToPatternSome_mv : ∀ (e : ArrayExpressionElement) {i j : Nat},
    arrayToPatternSome (moveArrayExpressionElement d ℓ e) i j = mvEx d ℓ (arrayToPatternSome e i j)
  | .expression expr, i, j => by
    show asArrayPatternElement (toBindingPattern (moveNode d ℓ expr)) _ = _
    rw [toBindingPattern_mv expr]
    exact asArrayPatternElement_mv _ _
  | .spreadElement argument span, i, j => by
    show (if i ≠ j then _ else asStrictBinding (toBindingPattern (moveNode d ℓ argument)) _ >>= _) = mvEx d ℓ (if _ then _ else _)
    rw [toBindingPattern_mv argument]
    split
    · rfl
    · exact (congrArg (· >>= _) (asStrictBinding_mv (d := d) (ℓ := ℓ) _ _)).trans (mvEx_bind (fun a => rfl))
termination_by structural e => e

theorem objectToPatternProps_mv : ∀ (l : List ObjectExpressionProperty) {i j : Nat},
    objectToPatternProps (moveListObjectExpressionProperty d ℓ l) i j = mvEx d ℓ (objectToPatternProps l i j)
  | [], _, _ => rfl
  | e :: rest, i, j => by
    show (objectToPatternProp (moveObjectExpressionProperty d ℓ e) i j >>= _) = _
    rw [objectToPatternProp_mv e]
    refine mvEx_bind (fun a => ?_)
    rw [objectToPatternProps_mv rest]
    exact mvEx_bind (fun b => rfl)
termination_by structural l => l

theorem objectToPatternProp_mv : ∀ (e : ObjectExpressionProperty) {i j : Nat},
    objectToPatternProp (moveObjectExpressionProperty d ℓ e) i j = mvEx d ℓ (objectToPatternProp e i j)
  | .property key computed value kind method shorthand span, i, j => by
    show (objectToPatternValue (moveOptPropertyValue d ℓ value) (moveSpan d ℓ span) >>= _) = _
    rw [objectToPatternValue_mv value]
    exact mvEx_bind (fun a => by show _ = Except.ok _; simp [mv, moveObjectPatternProperty, pure, Except.pure])
  | .spreadElement argument span, i, j => by
    show (if i = j then asStrictBinding (toBindingPattern (moveNode d ℓ argument)) _ >>= _ else _) = mvEx d ℓ (if _ then _ else _)
    rw [toBindingPattern_mv argument]
    split
    · exact (congrArg (· >>= _) (asStrictBinding_mv (d := d) (ℓ := ℓ) _ _)).trans (mvEx_bind (fun a => rfl))
    · rfl
termination_by structural e => e

theorem objectToPatternValue_mv : ∀ (v : Option PropertyValue) {sp : Span},
    objectToPatternValue (moveOptPropertyValue d ℓ v) (moveSpan d ℓ sp) = mvEx d ℓ (objectToPatternValue v sp)
  | none, _ => rfl
  | some v, sp => by
    show objectToPatternSome (movePropertyValue d ℓ v) (moveSpan d ℓ sp) = _
    rw [objectToPatternSome_mv v]
    rfl
termination_by structural v => v

theorem objectToPatternSome_mv : ∀ (v : PropertyValue) {sp : Span},
    objectToPatternSome (movePropertyValue d ℓ v) (moveSpan d ℓ sp) = mvEx d ℓ (objectToPatternSome v sp)
  | .expression expr, sp => by
    show asPropertyValue (toBindingPattern (moveNode d ℓ expr)) _ = _
    rw [toBindingPattern_mv expr]
    exact asPropertyValue_mv _ _
  | .assignmentPattern .., _ => rfl
  | .asyncFunctionExpression .., _ => rfl
  | .bindingIdentifier .., _ => rfl
  | .bindingPattern .., _ => rfl
  | .functionExpression .., _ => rfl
termination_by structural v => v

end

theorem toBinding_mv (n : Node) : toBinding (moveNode d ℓ n) = mvEx d ℓ (toBinding n) := by
  unfold toBinding
  rw [toBindingPattern_mv]
  refine mvEx_bind (fun a => ?_)
  cases a <;> rfl

theorem restArgument_mv (t : ErrorType) (n : Node) (sp : Span) :
    restArgument t (moveNode d ℓ n) (moveSpan d ℓ sp) = mvEx d ℓ (restArgument t n sp) := by
  have key : (if (moveNode d ℓ n).assignTargetType ≠ .simple then
      nodeError .invalidLhsInAssignment (moveSpan d ℓ sp).start else toBinding (moveNode d ℓ n)) =
    mvEx d ℓ (if n.assignTargetType ≠ .simple then nodeError .invalidLhsInAssignment sp.start else toBinding n) := by
    rw [assignTargetType_mv, toBinding_mv]
    split <;> rfl
  cases n <;> first | exact key | rfl

mutual

theorem toAssignmentPattern_mv : ∀ n : Node, toAssignmentPattern (moveNode d ℓ n) = mvEx d ℓ (toAssignmentPattern n)
  | .arrayExpression elements _ span => by
    show (arrayToAssignElems (moveHolesArrayExpressionElement d ℓ elements) 0 _ >>= _) = mvEx d ℓ (_ >>= _)
    rw [arrayToAssignElems_mv elements]
    have h2 : (moveHolesArrayExpressionElement d ℓ elements).length = elements.length := by simp
    rw [h2]
    exact mvEx_bind (fun a => by show _ = Except.ok _; simp [mv, moveNode, pure, Except.pure])
  | .objectExpression properties _ span => by
    show (objectToAssignProps (moveListObjectExpressionProperty d ℓ properties) 0 _ >>= _) = mvEx d ℓ (_ >>= _)
    rw [objectToAssignProps_mv properties]
    have h2 : (moveListObjectExpressionProperty d ℓ properties).length = properties.length := by simp
    rw [h2]
    exact mvEx_bind (fun a => by show _ = Except.ok _; simp [mv, moveNode, pure, Except.pure])
  | .arrayPattern .. => rfl
  | .arrayAssignmentPattern .. => rfl
  | .arrowFunctionExpression .. => rfl
  | .assignmentExpression .. => rfl
  | .assignmentPattern .. => rfl
  | .assignmentRestElement .. => rfl
  | .asyncArrowFunctionExpression .. => rfl
  | .asyncFunctionExpression .. => rfl
  | .awaitExpression .. => rfl
  | .binaryExpression .. => rfl
  | .bindingIdentifier .. => rfl
  | .logicalExpression .. => rfl
  | .callExpression .. => rfl
  | .classExpression .. => rfl
  | .computedMemberExpression .. => rfl
  | .conditionalExpression .. => rfl
  | .identifier .. => rfl
  | .functionExpression .. => rfl
  | .literal .. => rfl
  | .newExpression .. => rfl
  | .objectPattern .. => rfl
  | .regexLiteral .. => rfl
  | .sequenceExpression .. => rfl
  | .staticMemberExpression .. => rfl
  | .taggedTemplateExpression .. => rfl
  | .thisExpression .. => rfl
  | .unaryExpression .. => rfl
  | .updateExpression .. => rfl
  | .yieldExpression .. => rfl
  | .arrowParameterPlaceHolder .. => rfl
  | .restElement .. => rfl
  | .spreadElement .. => rfl
  | .super .. => rfl
  | .templateLiteral .. => rfl
  | .metaProperty .. => rfl
  | .asyncFunctionDeclaration .. => rfl
  | .breakStatement .. => rfl
  | .continueStatement .. => rfl
  | .debuggerStatement .. => rfl
  | .doWhileStatement .. => rfl
  | .emptyStatement .. => rfl
  | .expressionStatement .. => rfl
  | .directive .. => rfl
  | .forStatement .. => rfl
  | .forInStatement .. => rfl
  | .forOfStatement .. => rfl
  | .functionDeclaration .. => rfl
  | .ifStatement .. => rfl
  | .returnStatement .. => rfl
  | .switchStatement .. => rfl
  | .throwStatement .. => rfl
  | .tryStatement .. => rfl
  | .variableDeclaration .. => rfl
  | .whileStatement .. => rfl
  | .withStatement .. => rfl
  | .blockStatement .. => rfl
  | .classDeclaration .. => rfl
  | .exportAllDeclaration .. => rfl
  | .exportDefaultDeclaration .. => rfl
  | .exportNamedDeclaration .. => rfl
  | .importDeclaration .. => rfl
  | .importDefaultSpecifier .. => rfl
  | .importNamespaceSpecifier .. => rfl
  | .importSpecifier .. => rfl
  | .labeledStatement .. => rfl
  | .moduleNode .. => rfl
  | .program .. => rfl
termination_by structural n => n

theorem arrayToAssignElems_mv : ∀ (l : List (Option ArrayExpressionElement)) {i j : Nat},
    arrayToAssignElems (moveHolesArrayExpressionElement d ℓ l) i j = mvEx d ℓ (arrayToAssignElems l i j)
  | [], _, _ => rfl
  | e :: rest, i, j => by
    show (arrayToAssignElem (moveOptArrayExpressionElement d ℓ e) i j >>= _) = _
    rw [arrayToAssignElem_mv e]
    refine mvEx_bind (fun a => ?_)
    rw [arrayToAssignElems_mv rest]
    exact mvEx_bind (fun b => rfl)
termination_by structural l => l

theorem arrayToAssignElem_mv : ∀ (e : Option ArrayExpressionElement) {i j : Nat},
    arrayToAssignElem (moveOptArrayExpressionElement d ℓ e) i j = mvEx d ℓ (arrayToAssignElem e i j)
  | none, _, _ => rfl
  | some e, i, j => by
    show (arrayToAssignSome (moveArrayExpressionElement d ℓ e) i j >>= _) = _
    rw [arrayToAssignSome_mv e]
    exact mvEx_bind (fun a => rfl)
termination_by structural e => e

theorem arrayToAssignSome_mv : ∀ (e : ArrayExpressionElement) {i j : Nat},
    arrayToAssignSome (moveArrayExpressionElement d ℓ e) i j = mvEx d ℓ (arrayToAssignSome e i j)
  | .expression expr, i, j => by
    show (asAssignmentElement (toAssignmentPattern (moveNode d ℓ expr)) >>= _) = _
    rw [toAssignmentPattern_mv expr, asAssignmentElement_mv]
    exact mvEx_bind (fun a => rfl)
  | .spreadElement argument span, i, j => by
    show (if i ≠ j then _ else restArgument _ (moveNode d ℓ argument) (moveSpan d ℓ span) >>= _) = mvEx d ℓ (if _ then _ else _)
    rw [restArgument_mv]
    split
    · rfl
    · exact mvEx_bind (fun a => rfl)
termination_by structural e => e

theorem objectToAssignProps_mv : ∀ (l : List ObjectExpressionProperty) {i j : Nat},
    objectToAssignProps (moveListObjectExpressionProperty d ℓ l) i j = mvEx d ℓ (objectToAssignProps l i j)
  | [], _, _ => rfl
  | e :: rest, i, j => by
    show (objectToAssignProp (moveObjectExpressionProperty d ℓ e) i j >>= _) = _
    rw [objectToAssignProp_mv e]
    refine mvEx_bind (fun a => ?_)
    rw [objectToAssignProps_mv rest]
    exact mvEx_bind (fun b => rfl)
termination_by structural l => l

theorem objectToAssignProp_mv : ∀ (e : ObjectExpressionProperty) {i j : Nat},
    objectToAssignProp (moveObjectExpressionProperty d ℓ e) i j = mvEx d ℓ (objectToAssignProp e i j)
  | .property key computed value kind method shorthand span, i, j => by
    show (objectToAssignValue (moveOptPropertyValue d ℓ value) (moveSpan d ℓ span) >>= _) = _
    rw [objectToAssignValue_mv value]
    exact mvEx_bind (fun a => by show _ = Except.ok _; simp [mv, moveObjectPatternProperty, pure, Except.pure])
  | .spreadElement argument span, i, j => by
    show (if i ≠ j then _ else restArgument _ (moveNode d ℓ argument) (moveSpan d ℓ span) >>= _) = mvEx d ℓ (if _ then _ else _)
    rw [restArgument_mv]
    split
    · rfl
    · exact mvEx_bind (fun a => rfl)
termination_by structural e => e

theorem objectToAssignValue_mv : ∀ (v : Option PropertyValue) {sp : Span},
    objectToAssignValue (moveOptPropertyValue d ℓ v) (moveSpan d ℓ sp) = mvEx d ℓ (objectToAssignValue v sp)
  | none, _ => rfl
  | some v, sp => by
    show objectToAssignSome (movePropertyValue d ℓ v) (moveSpan d ℓ sp) = _
    rw [objectToAssignSome_mv v]
    rfl
termination_by structural v => v

theorem objectToAssignSome_mv : ∀ (v : PropertyValue) {sp : Span},
    objectToAssignSome (movePropertyValue d ℓ v) (moveSpan d ℓ sp) = mvEx d ℓ (objectToAssignSome v sp)
  | .expression expr, sp => by
    show (asAssignmentElement (toAssignmentPattern (moveNode d ℓ expr)) >>= _) = _
    rw [toAssignmentPattern_mv expr, asAssignmentElement_mv]
    exact mvEx_bind (fun a => rfl)
  | .assignmentPattern .., _ => rfl
  | .asyncFunctionExpression .., _ => rfl
  | .bindingIdentifier .., _ => rfl
  | .bindingPattern .., _ => rfl
  | .functionExpression .., _ => rfl
termination_by structural v => v

end

end Giron

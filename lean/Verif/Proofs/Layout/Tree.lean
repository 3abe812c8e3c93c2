import Verif.Spec.Bare
import Verif.Model.EstreeFns
/-
Forgetting positions commutes with the functions of `estree.rs`.
-/
namespace Giron
open Spec

/-- the failure without its position -/
def Fail.bare : Fail → Fail
  | .err e => .err ⟨0, 0, e.errortype⟩
  | f => f

/-- no position -/
def bareMarker (_ : Marker) : Marker := default
/-- no position -/
def bareSpan (_ : Span) : Span := default

/-- values with positions -/
class Er (α : Type) where
  /-- without the positions -/
  er : α → α

export Er (er)

instance : Er Unit := ⟨fun a => a⟩
instance : Er Bool := ⟨fun a => a⟩
instance : Er Nat := ⟨fun a => a⟩
instance erStr : Er Str := ⟨fun a => a⟩
instance : Er Value := ⟨fun a => a⟩
instance : Er Punctuator := ⟨fun a => a⟩
instance : Er TemplateElement := ⟨fun a => a⟩
instance {α β : Type} [Er α] [Er β] : Er (α × β) := ⟨fun p => (er p.1, er p.2)⟩
instance {α : Type} [Er α] : Er (Option α) := ⟨Option.map er⟩
instance (priority := low) {α : Type} [Er α] : Er (List α) := ⟨List.map er⟩
instance : Er Marker := ⟨bareMarker⟩
instance : Er Span := ⟨bareSpan⟩
instance : Er Node := ⟨bareNode⟩
instance : Er Binding := ⟨bareBinding⟩
instance : Er ArrayExpressionElement := ⟨bareArrayExpressionElement⟩
instance : Er ArrayPatternElement := ⟨bareArrayPatternElement⟩
instance : Er ArrayAssignmentPatternElement := ⟨bareArrayAssignmentPatternElement⟩
instance : Er PropertyKey := ⟨barePropertyKey⟩
instance : Er FnExpr := ⟨bareFnExpr⟩
instance : Er PropertyValue := ⟨barePropertyValue⟩
instance : Er ObjectPatternProperty := ⟨bareObjectPatternProperty⟩
instance : Er BindingPattern := ⟨bareBindingPattern⟩
instance : Er FunctionParameter := ⟨bareFunctionParameter⟩
instance : Er ArgumentListElement := ⟨bareArgumentListElement⟩
instance : Er ObjectExpressionProperty := ⟨bareObjectExpressionProperty⟩
instance : Er MethodDefinition := ⟨bareMethodDefinition⟩
instance : Er SwitchCase := ⟨bareSwitchCase⟩
instance : Er VariableDeclarator := ⟨bareVariableDeclarator⟩
instance : Er CatchClause := ⟨bareCatchClause⟩
instance : Er Identifier := ⟨bareIdentifier⟩
instance : Er Literal := ⟨bareLiteral⟩
instance : Er ExportSpecifier := ⟨bareExportSpecifier⟩
instance : Er ImportDeclarationSpecifier := ⟨bareImportSpecifier⟩

/-- results of conversions -/
def erEx {α : Type} [Er α] : Except Fail α → Except Fail α
  | .ok a => .ok (er a)
  | .error f => .error f.bare

attribute [local simp] bareOptArrayExpressionElement_eq bareHolesArrayExpressionElement_eq bareOptArrayPatternElement_eq bareHolesArrayPatternElement_eq bareOptArrayAssignmentPatternElement_eq bareHolesArrayAssignmentPatternElement_eq bareOptNode_eq bareListFunctionParameter_eq bareListArgumentListElement_eq bareListMethodDefinition_eq bareListObjectExpressionProperty_eq bareListObjectPatternProperty_eq bareListNode_eq bareListSwitchCase_eq bareOptCatchClause_eq bareListVariableDeclarator_eq bareOptPropertyValue_eq bareOptFnExpr_eq bareOptBinding_eq

variable {α β : Type} [Er α] [Er β]

theorem erEx_bind {r : Except Fail α} {k k' : α → Except Fail β} (h : ∀ a, k' (er a) = erEx (k a)) :
    (erEx r >>= k') = erEx (r >>= k) := by
  cases r with
  | error f => rfl
  | ok a => exact h a

theorem nodeError_er {t : ErrorType} {m : Marker} : (nodeError t (bareMarker m) : Except Fail α) = erEx (nodeError t m) := rfl

theorem toNode_er (b : Binding) : (bareBinding b).toNode = erEx b.toNode := by cases b <;> rfl

theorem toId_er (b : Binding) : (bareBinding b).toId = erEx b.toId := by cases b <;> rfl

theorem keyAsNode_er (k : PropertyKey) : (barePropertyKey k).asNode = bareNode k.asNode := by cases k <;> rfl

theorem assignTargetType_er (n : Node) : (bareNode n).assignTargetType = n.assignTargetType := by cases n <;> rfl

theorem exprSpan_er (n : Node) : (bareNode n).exprSpan = erEx n.exprSpan := by cases n <;> rfl

theorem asStrictBinding_er (r : Except Fail Node) (m : Marker) :
    asStrictBinding (erEx r) (bareMarker m) = erEx (asStrictBinding r m) := by
  unfold asStrictBinding
  apply erEx_bind
  intro a
  cases a <;> rfl

theorem asArrayPatternElement_er (r : Except Fail Node) (b : Bool) :
    asArrayPatternElement (erEx r) b = erEx (asArrayPatternElement r b) := by
  unfold asArrayPatternElement
  apply erEx_bind
  intro a
  cases b <;> cases a <;> rfl

theorem asPropertyValue_er (r : Except Fail Node) (sp : Span) :
    asPropertyValue (erEx r) (bareSpan sp) = erEx (asPropertyValue r sp) := by
  unfold asPropertyValue
  apply erEx_bind
  intro a
  cases a <;> rfl

theorem asAssignmentElement_er (r : Except Fail Node) :
    asAssignmentElement (erEx r) = erEx (asAssignmentElement r) := by
  unfold asAssignmentElement
  apply erEx_bind
  intro a
  cases a with
  | assignmentExpression operator left right att span =>
    show (if operator = cs!"=" then
        if (bareNode left).assignTargetType ≠ .simple then _ else _ else _) = _
    rw [assignTargetType_er]
    dsimp only
    split
    · split <;> rfl
    · split <;> rfl
  | arrayExpression e a s | objectExpression e a s | arrayPattern e a s | objectPattern e a s | sequenceExpression e a s
  | identifier e a s => cases a <;> rfl
  | thisExpression a s | super a s => cases a <;> rfl
  | binaryExpression _ _ _ a s | computedMemberExpression _ _ _ a s | regexLiteral _ _ _ a s | staticMemberExpression _ _ _ a s
  | unaryExpression _ _ _ a s | updateExpression _ _ _ a s => cases a <;> rfl
  | callExpression _ _ a s | literal _ _ a s | newExpression _ _ a s | yieldExpression _ _ a s | templateLiteral _ _ a s
  | metaProperty _ _ a s => cases a <;> rfl
  | classExpression _ _ _ a s => cases a <;> rfl
  | arrowFunctionExpression _ _ _ _ _ _ a s | asyncArrowFunctionExpression _ _ _ _ _ _ a s
  | asyncFunctionExpression _ _ _ _ _ _ a s | functionExpression _ _ _ _ _ _ a s => cases a <;> rfl
  | _ => rfl

variable [Env]

mutual

theorem toBindingPattern_er : ∀ n : Node, toBindingPattern (bareNode n) = erEx (toBindingPattern n)
  | .identifier .. => rfl
  | .arrayExpression elements _ span => by
    show (if (bareHolesArrayExpressionElement elements).isEmpty && Env.checked then _ else _) = erEx (if _ then _ else _)
    rw [arrayToPatternElems_er elements]
    have h1 : (bareHolesArrayExpressionElement elements).isEmpty = elements.isEmpty := by
      rw [bareHolesArrayExpressionElement_eq]; cases elements <;> rfl
    have h2 : (bareHolesArrayExpressionElement elements).length = elements.length := by simp
    rw [h1, h2]
    split
    · rfl
    · exact erEx_bind (fun a => by show _ = Except.ok _; simp [er, bareNode, pure, Except.pure])
  | .objectExpression properties _ span => by
    show (objectToPatternProps (bareListObjectExpressionProperty properties) 0 _ >>= _) = erEx (_ >>= _)
    rw [objectToPatternProps_er properties]
    have h2 : (bareListObjectExpressionProperty properties).length = properties.length := by simp
    rw [h2]
    exact erEx_bind (fun a => by show _ = Except.ok _; simp [er, bareNode, pure, Except.pure])
  | .assignmentExpression operator left right att span => by
    show (if operator = cs!"=" then asStrictBinding (toBindingPattern (bareNode left)) _ >>= _ else _) = _
    rw [toBindingPattern_er left]
    show _ = erEx (if _ then _ else _)
    split
    · exact (congrArg (· >>= _) (asStrictBinding_er _ _)).trans (erEx_bind (fun a => rfl))
    · rfl
  | .spreadElement argument span => by
    show (asStrictBinding (toBindingPattern (bareNode argument)) _ >>= _) = _
    rw [toBindingPattern_er argument]
    exact (congrArg (· >>= _) (asStrictBinding_er _ _)).trans (erEx_bind (fun a => rfl))
  | .arrayPattern .. => rfl
  | .arrayAssignmentPattern .. => rfl
  | .arrowFunctionExpression .. => rfl
  | .assignmentPattern .. => rfl
  | .assignmentRestElement .. => rfl
  | .asyncArrowFunctionExpression .. => rfl
  | .asyncFunctionExpression .. => rfl
  | .awaitExpression .. => rfl
  | .binaryExpression .. => rfl
  | .bindingIdentifier .. => rfl
  | .logicalExpression .. => rfl
  | .callExpression .. => rfl
  | .classExpression .. => rfl
  | .computedMemberExpression .. => rfl
  | .conditionalExpression .. => rfl
  | .functionExpression .. => rfl
  | .literal .. => rfl
  | .newExpression .. => rfl
  | .objectPattern .. => rfl
  | .regexLiteral .. => rfl
  | .sequenceExpression .. => rfl
  | .staticMemberExpression .. => rfl
  | .taggedTemplateExpression .. => rfl
  | .thisExpression .. => rfl
  | .unaryExpression .. => rfl
  | .updateExpression .. => rfl
  | .yieldExpression .. => rfl
  | .arrowParameterPlaceHolder .. => rfl
  | .restElement .. => rfl
  | .super .. => rfl
  | .templateLiteral .. => rfl
  | .metaProperty .. => rfl
  | .asyncFunctionDeclaration .. => rfl
  | .breakStatement .. => rfl
  | .continueStatement .. => rfl
  | .debuggerStatement .. => rfl
  | .doWhileStatement .. => rfl
  | .emptyStatement .. => rfl
  | .expressionStatement .. => rfl
  | .directive .. => rfl
  | .forStatement .. => rfl
  | .forInStatement .. => rfl
  | .forOfStatement .. => rfl
  | .functionDeclaration .. => rfl
  | .ifStatement .. => rfl
  | .returnStatement .. => rfl
  | .switchStatement .. => rfl
  | .throwStatement .. => rfl
  | .tryStatement .. => rfl
  | .variableDeclaration .. => rfl
  | .whileStatement .. => rfl
  | .withStatement .. => rfl
  | .blockStatement .. => rfl
  | .classDeclaration .. => rfl
  | .exportAllDeclaration .. => rfl
  | .exportDefaultDeclaration .. => rfl
  | .exportNamedDeclaration .. => rfl
  | .importDeclaration .. => rfl
  | .importDefaultSpecifier .. => rfl
  | .importNamespaceSpecifier .. => rfl
  | .importSpecifier .. => rfl
  | .labeledStatement .. => rfl
  | .moduleNode .. => rfl
  | .program .. => rfl
termination_by structural n => n

theorem arrayToPatternElems_er : ∀ (l : List (Option ArrayExpressionElement)) {i j : Nat},
    arrayToPatternElems (bareHolesArrayExpressionElement l) i j = erEx (arrayToPatternElems l i j)
  | [], _, _ => rfl
  | e :: rest, i, j => by
    show (arrayToPatternElem (bareOptArrayExpressionElement e) i j >>= _) = _
    rw [arrayToPatternElem_er e]
    refine erEx_bind (fun a => ?_)
    rw [arrayToPatternElems_er rest]
    exact erEx_bind (fun b => rfl)
termination_by structural l => l

theorem arrayToPatternElem_er : ∀ (e : Option ArrayExpressionElement) {i j : Nat},
    arrayToPatternElem (bareOptArrayExpressionElement e) i j = erEx (arrayToPatternElem e i j)
  | none, _, _ => rfl
  | some e, i, j => by
    show (arrayToPatternSome (bareArrayExpressionElement e) i j >>= _) = _
    rw [arrayToPatternSome_er e]
    exact erEx_bind (fun a => rfl)
termination_by structural e => e

theorem arrayToPatternSome_er : ∀ (e : ArrayExpressionElement) {i j : Nat},
    arrayToPatternSome (bareArrayExpressionElement e) i j = erEx (arrayToPatternSome e i j)
  | .expression expr, i, j => by
    show asArrayPatternElement (toBindingPattern (bareNode expr)) _ = _
    rw [toBindingPattern_er expr]
    exact asArrayPatternElement_er _ _
  | .spreadElement argument span, i, j => by
    show (if i ≠ j then _ else asStrictBinding (toBindingPattern (bareNode argument)) _ >>= _) = erEx (if _ then _ else _)
    rw [toBindingPattern_er argument]
    split
    · rfl
    · exact (congrArg (· >>= _) (asStrictBinding_er _ _)).trans (erEx_bind (fun a => rfl))
termination_by structural e => e

theorem objectToPatternProps_er : ∀ (l : List ObjectExpressionProperty) {i j : Nat},
    objectToPatternProps (bareListObjectExpressionProperty l) i j = erEx (objectToPatternProps l i j)
  | [], _, _ => rfl
  | e :: rest, i, j => by
    show (objectToPatternProp (bareObjectExpressionProperty e) i j >>= _) = _
    rw [objectToPatternProp_er e]
    refine erEx_bind (fun a => ?_)
    rw [objectToPatternProps_er rest]
    exact erEx_bind (fun b => rfl)
termination_by structural l => l

theorem objectToPatternProp_er : ∀ (e : ObjectExpressionProperty) {i j : Nat},
    objectToPatternProp (bareObjectExpressionProperty e) i j = erEx (objectToPatternProp e i j)
  | .property key computed value kind method shorthand span, i, j => by
    show (objectToPatternValue (bareOptPropertyValue value) (bareSpan span) >>= _) = _
    rw [objectToPatternValue_er value]
    exact erEx_bind (fun a => by show _ = Except.ok _; simp [er, bareObjectPatternProperty, pure, Except.pure])
  | .spreadElement argument span, i, j => by
    show (if i = j then asStrictBinding (toBindingPattern (bareNode argument)) _ >>= _ else _) = erEx (if _ then _ else _)
    rw [toBindingPattern_er argument]
    split
    · exact (congrArg (· >>= _) (asStrictBinding_er _ _)).trans (erEx_bind (fun a => rfl))
    · rfl
termination_by structural e => e

theorem objectToPatternValue_er : ∀ (v : Option PropertyValue) {sp : Span},
    objectToPatternValue (bareOptPropertyValue v) (bareSpan sp) = erEx (objectToPatternValue v sp)
  | none, _ => rfl
  | some v, sp => by
    show objectToPatternSome (barePropertyValue v) (bareSpan sp) = _
    rw [objectToPatternSome_er v]
    rfl
termination_by structural v => v

theorem objectToPatternSome_er : ∀ (v : PropertyValue) {sp : Span},
    objectToPatternSome (barePropertyValue v) (bareSpan sp) = erEx (objectToPatternSome v sp)
  | .expression expr, sp => by
    show asPropertyValue (toBindingPattern (bareNode expr)) _ = _
    rw [toBindingPattern_er expr]
    exact asPropertyValue_er _ _
  | .assignmentPattern .., _ => rfl
  | .asyncFunctionExpression .., _ => rfl
  | .bindingIdentifier .., _ => rfl
  | .bindingPattern .., _ => rfl
  | .functionExpression .., _ => rfl
termination_by structural v => v

end

theorem toBinding_er (n : Node) : toBinding (bareNode n) = erEx (toBinding n) := by
  unfold toBinding
  rw [toBindingPattern_er]
  refine erEx_bind (fun a => ?_)
  cases a <;> rfl

theorem restArgument_er (t : ErrorType) (n : Node) (sp : Span) :
    restArgument t (bareNode n) (bareSpan sp) = erEx (restArgument t n sp) := by
  have key : (if (bareNode n).assignTargetType ≠ .simple then
      nodeError .invalidLhsInAssignment (bareSpan sp).start else toBinding (bareNode n)) =
    erEx (if n.assignTargetType ≠ .simple then nodeError .invalidLhsInAssignment sp.start else toBinding n) := by
    rw [assignTargetType_er, toBinding_er]
    split <;> rfl
  cases n <;> first | exact key | rfl

mutual

theorem toAssignmentPattern_er : ∀ n : Node, toAssignmentPattern (bareNode n) = erEx (toAssignmentPattern n)
  | .arrayExpression elements _ span => by
    show (arrayToAssignElems (bareHolesArrayExpressionElement elements) 0 _ >>= _) = erEx (_ >>= _)
    rw [arrayToAssignElems_er elements]
    have h2 : (bareHolesArrayExpressionElement elements).length = elements.length := by simp
    rw [h2]
    exact erEx_bind (fun a => by show _ = Except.ok _; simp [er, bareNode, pure, Except.pure])
  | .objectExpression properties _ span => by
    show (objectToAssignProps (bareListObjectExpressionProperty properties) 0 _ >>= _) = erEx (_ >>= _)
    rw [objectToAssignProps_er properties]
    have h2 : (bareListObjectExpressionProperty properties).length = properties.length := by simp
    rw [h2]
    exact erEx_bind (fun a => by show _ = Except.ok _; simp [er, bareNode, pure, Except.pure])
  | .arrayPattern .. => rfl
  | .arrayAssignmentPattern .. => rfl
  | .arrowFunctionExpression .. => rfl
  | .assignmentExpression .. => rfl
  | .assignmentPattern .. => rfl
  | .assignmentRestElement .. => rfl
  | .asyncArrowFunctionExpression .. => rfl
  | .asyncFunctionExpression .. => rfl
  | .awaitExpression .. => rfl
  | .binaryExpression .. => rfl
  | .bindingIdentifier .. => rfl
  | .logicalExpression .. => rfl
  | .callExpression .. => rfl
  | .classExpression .. => rfl
  | .computedMemberExpression .. => rfl
  | .conditionalExpression .. => rfl
  | .identifier .. => rfl
  | .functionExpression .. => rfl
  | .literal .. => rfl
  | .newExpression .. => rfl
  | .objectPattern .. => rfl
  | .regexLiteral .. => rfl
  | .sequenceExpression .. => rfl
  | .staticMemberExpression .. => rfl
  | .taggedTemplateExpression .. => rfl
  | .thisExpression .. => rfl
  | .unaryExpression .. => rfl
  | .updateExpression .. => rfl
  | .yieldExpression .. => rfl
  | .arrowParameterPlaceHolder .. => rfl
  | .restElement .. => rfl
  | .spreadElement .. => rfl
  | .super .. => rfl
  | .templateLiteral .. => rfl
  | .metaProperty .. => rfl
  | .asyncFunctionDeclaration .. => rfl
  | .breakStatement .. => rfl
  | .continueStatement .. => rfl
  | .debuggerStatement .. => rfl
  | .doWhileStatement .. => rfl
  | .emptyStatement .. => rfl
  | .expressionStatement .. => rfl
  | .directive .. => rfl
  | .forStatement .. => rfl
  | .forInStatement .. => rfl
  | .forOfStatement .. => rfl
  | .functionDeclaration .. => rfl
  | .ifStatement .. => rfl
  | .returnStatement .. => rfl
  | .switchStatement .. => rfl
  | .throwStatement .. => rfl
  | .tryStatement .. => rfl
  | .variableDeclaration .. => rfl
  | .whileStatement .. => rfl
  | .withStatement .. => rfl
  | .blockStatement .. => rfl
  | .classDeclaration .. => rfl
  | .exportAllDeclaration .. => rfl
  | .exportDefaultDeclaration .. => rfl
  | .exportNamedDeclaration .. => rfl
  | .importDeclaration .. => rfl
  | .importDefaultSpecifier .. => rfl
  | .importNamespaceSpecifier .. => rfl
  | .importSpecifier .. => rfl
  | .labeledStatement .. => rfl
  | .moduleNode .. => rfl
  | .program .. => rfl
termination_by structural n => n

theorem arrayToAssignElems_er : ∀ (l : List (Option ArrayExpressionElement)) {i j : Nat},
    arrayToAssignElems (bareHolesArrayExpressionElement l) i j = erEx (arrayToAssignElems l i j)
  | [], _, _ => rfl
  | e :: rest, i, j => by
    show (arrayToAssignElem (bareOptArrayExpressionElement e) i j >>= _) = _
    rw [arrayToAssignElem_er e]
    refine erEx_bind (fun a => ?_)
    rw [arrayToAssignElems_er rest]
    exact erEx_bind (fun b => rfl)
termination_by structural l => l

theorem arrayToAssignElem_er : ∀ (e : Option ArrayExpressionElement) {i j : Nat},
    arrayToAssignElem (bareOptArrayExpressionElement e) i j = erEx (arrayToAssignElem e i j)
  | none, _, _ => rfl
  | some e, i, j => by
    show (arrayToAssignSome (bareArrayExpressionElement e) i j >>= _) = _
    rw [arrayToAssignSome_er e]
    exact erEx_bind (fun a => rfl)
termination_by structural e => e

theorem arrayToAssignSome_er : ∀ (e : ArrayExpressionElement) {i j : Nat},
    arrayToAssignSome (bareArrayExpressionElement e) i j = erEx (arrayToAssignSome e i j)
  | .expression expr, i, j => by
    show (asAssignmentElement (toAssignmentPattern (bareNode expr)) >>= _) = _
    rw [toAssignmentPattern_er expr, asAssignmentElement_er]
    exact erEx_bind (fun a => rfl)
  | .spreadElement argument span, i, j => by
    show (if i ≠ j then _ else restArgument _ (bareNode argument) (bareSpan span) >>= _) = erEx (if _ then _ else _)
    rw [restArgument_er]
    split
    · rfl
    · exact erEx_bind (fun a => rfl)
termination_by structural e => e

theorem objectToAssignProps_er : ∀ (l : List ObjectExpressionProperty) {i j : Nat},
    objectToAssignProps (bareListObjectExpressionProperty l) i j = erEx (objectToAssignProps l i j)
  | [], _, _ => rfl
  | e :: rest, i, j => by
    show (objectToAssignProp (bareObjectExpressionProperty e) i j >>= _) = _
    rw [objectToAssignProp_er e]
    refine erEx_bind (fun a => ?_)
    rw [objectToAssignProps_er rest]
    exact erEx_bind (fun b => rfl)
termination_by structural l => l

theorem objectToAssignProp_er : ∀ (e : ObjectExpressionProperty) {i j : Nat},
    objectToAssignProp (bareObjectExpressionProperty e) i j = erEx (objectToAssignProp e i j)
  | .property key computed value kind method shorthand span, i, j => by
    show (objectToAssignValue (bareOptPropertyValue value) (bareSpan span) >>= _) = _
    rw [objectToAssignValue_er value]
    exact erEx_bind (fun a => by show _ = Except.ok _; simp [er, bareObjectPatternProperty, pure, Except.pure])
  | .spreadElement argument span, i, j => by
    show (if i ≠ j then _ else restArgument _ (bareNode argument) (bareSpan span) >>= _) = erEx (if _ then _ else _)
    rw [restArgument_er]
    split
    · rfl
    · exact erEx_bind (fun a => rfl)
termination_by structural e => e

theorem objectToAssignValue_er : ∀ (v : Option PropertyValue) {sp : Span},
    objectToAssignValue (bareOptPropertyValue v) (bareSpan sp) = erEx (objectToAssignValue v sp)
  | none, _ => rfl
  | some v, sp => by
    show objectToAssignSome (barePropertyValue v) (bareSpan sp) = _
    rw [objectToAssignSome_er v]
    rfl
termination_by structural v => v

theorem objectToAssignSome_er : ∀ (v : PropertyValue) {sp : Span},
    objectToAssignSome (barePropertyValue v) (bareSpan sp) = erEx (objectToAssignSome v sp)
  | .expression expr, sp => by
    show (asAssignmentElement (toAssignmentPattern (bareNode expr)) >>= _) = _
    rw [toAssignmentPattern_er expr, asAssignmentElement_er]
    exact erEx_bind (fun a => rfl)
  | .assignmentPattern .., _ => rfl
  | .asyncFunctionExpression .., _ => rfl
  | .bindingIdentifier .., _ => rfl
  | .bindingPattern .., _ => rfl
  | .functionExpression .., _ => rfl
termination_by structural v => v

end

end Giron

import Verif.Proofs.Pos.Attr
import Verif.Model.EstreeFns
import Verif.Model.Parser.Core
/-
All the spans of a tree have a property.  (Generated from the table of tree types.)
-/
namespace Giron
namespace Pos

/-- what is asked of the spans of a tree, of tokens, and of errors -/
structure Pr where
  span : Span → Prop
  tok : Token → Prop
  bad : Error → Prop

instance : CoeFun Pr (fun _ => Span → Prop) := ⟨Pr.span⟩

/-- the span of an identifier has the property -/
def allIdentifier (P : Pr) (i : Identifier) : Prop := P i.span
/-- the span of a literal has the property -/
def allLiteral (P : Pr) (l : Literal) : Prop := P l.span
/-- the spans of an export specifier have the property -/
def allExportSpecifier (P : Pr) (e : ExportSpecifier) : Prop := allIdentifier P e.exported ∧ allIdentifier P e.loc
/-- the spans of an import specifier have the property -/
def allImportDeclarationSpecifier (P : Pr) : ImportDeclarationSpecifier → Prop
  | .importDefaultSpecifier l => allIdentifier P l
  | .importNamespaceSpecifier l => allIdentifier P l
  | .importSpecifier l i => allIdentifier P l ∧ allIdentifier P i

mutual

/-- the spans of a `Node` have the property -/
def allNode (P : Pr) : Node → Prop
  | .arrayExpression elements _ span => allHolesArrayExpressionElement P elements ∧ P span
  | .arrayPattern elements _ span => allHolesArrayPatternElement P elements ∧ P span
  | .arrayAssignmentPattern elements _ span => allHolesArrayAssignmentPatternElement P elements ∧ P span
  | .arrowFunctionExpression id params body _ _ _ _ span => allOptNode P id ∧ allListFunctionParameter P params ∧ allNode P body ∧ P span
  | .assignmentExpression _ left right _ span => allNode P left ∧ allNode P right ∧ P span
  | .assignmentPattern left right span => allBinding P left ∧ allNode P right ∧ P span
  | .assignmentRestElement argument span => allNode P argument ∧ P span
  | .asyncArrowFunctionExpression id params body _ _ _ _ span => allOptNode P id ∧ allListFunctionParameter P params ∧ allNode P body ∧ P span
  | .asyncFunctionExpression id params body _ _ _ _ span => allOptNode P id ∧ allListFunctionParameter P params ∧ allNode P body ∧ P span
  | .awaitExpression argument span => allNode P argument ∧ P span
  | .binaryExpression _ left right _ span => allNode P left ∧ allNode P right ∧ P span
  | .bindingIdentifier _ span => P span
  | .logicalExpression _ left right span => allNode P left ∧ allNode P right ∧ P span
  | .callExpression callee arguments _ span => allNode P callee ∧ allListArgumentListElement P arguments ∧ P span
  | .classExpression id superClass body _ span => allOptNode P id ∧ allOptNode P superClass ∧ allListMethodDefinition P body ∧ P span
  | .computedMemberExpression _ object property _ span => allNode P object ∧ allNode P property ∧ P span
  | .conditionalExpression test consequent alternate span => allNode P test ∧ allNode P consequent ∧ allNode P alternate ∧ P span
  | .identifier _ _ span => P span
  | .functionExpression id params body _ _ _ _ span => allOptNode P id ∧ allListFunctionParameter P params ∧ allNode P body ∧ P span
  | .literal _ _ _ span => P span
  | .newExpression callee arguments _ span => allNode P callee ∧ allListArgumentListElement P arguments ∧ P span
  | .objectExpression properties _ span => allListObjectExpressionProperty P properties ∧ P span
  | .objectPattern properties _ span => allListObjectPatternProperty P properties ∧ P span
  | .regexLiteral _ _ _ _ span => P span
  | .sequenceExpression expressions _ span => allListNode P expressions ∧ P span
  | .staticMemberExpression _ object property _ span => allNode P object ∧ allNode P property ∧ P span
  | .taggedTemplateExpression tag _ expressions span => allNode P tag ∧ allListNode P expressions ∧ P span
  | .thisExpression _ span => P span
  | .unaryExpression _ argument _ _ span => allNode P argument ∧ P span
  | .updateExpression _ argument _ _ span => allNode P argument ∧ P span
  | .yieldExpression argument _ _ span => allOptNode P argument ∧ P span
  | .arrowParameterPlaceHolder params _ span => allListFunctionParameter P params ∧ P span
  | .restElement argument span => allBinding P argument ∧ P span
  | .spreadElement argument span => allNode P argument ∧ P span
  | .super _ span => P span
  | .templateLiteral _ expressions _ span => allListNode P expressions ∧ P span
  | .metaProperty metaId property _ span => allNode P metaId ∧ allNode P property ∧ P span
  | .asyncFunctionDeclaration id params body _ _ _ span => allOptNode P id ∧ allListFunctionParameter P params ∧ allNode P body ∧ P span
  | .breakStatement label span => allOptNode P label ∧ P span
  | .continueStatement label span => allOptNode P label ∧ P span
  | .debuggerStatement span => P span
  | .doWhileStatement body test span => allNode P body ∧ allNode P test ∧ P span
  | .emptyStatement span => P span
  | .expressionStatement expression span => allNode P expression ∧ P span
  | .directive expression _ span => allNode P expression ∧ P span
  | .forStatement init test update body span => allOptNode P init ∧ allOptNode P test ∧ allOptNode P update ∧ allNode P body ∧ P span
  | .forInStatement left right body _ span => allNode P left ∧ allNode P right ∧ allNode P body ∧ P span
  | .forOfStatement left right body span => allNode P left ∧ allNode P right ∧ allNode P body ∧ P span
  | .functionDeclaration id params body _ _ _ span => allOptNode P id ∧ allListFunctionParameter P params ∧ allNode P body ∧ P span
  | .ifStatement test consequent alternate span => allNode P test ∧ allNode P consequent ∧ allOptNode P alternate ∧ P span
  | .returnStatement argument span => allOptNode P argument ∧ P span
  | .switchStatement discriminant cases span => allNode P discriminant ∧ allListSwitchCase P cases ∧ P span
  | .throwStatement argument span => allNode P argument ∧ P span
  | .tryStatement block handler finalizer span => allNode P block ∧ allOptCatchClause P handler ∧ allOptNode P finalizer ∧ P span
  | .variableDeclaration declarations _ span => allListVariableDeclarator P declarations ∧ P span
  | .whileStatement test body span => allNode P test ∧ allNode P body ∧ P span
  | .withStatement object body span => allNode P object ∧ allNode P body ∧ P span
  | .blockStatement body span => allListNode P body ∧ P span
  | .classDeclaration id superClass body span => allOptNode P id ∧ allOptNode P superClass ∧ allListMethodDefinition P body ∧ P span
  | .exportAllDeclaration source span => allLiteral P source ∧ P span
  | .exportDefaultDeclaration declaration span => allNode P declaration ∧ P span
  | .exportNamedDeclaration declaration specifiers source span => allOptNode P declaration ∧ (∀ a ∈ specifiers, allExportSpecifier P a) ∧ (∀ a ∈ source, allLiteral P a) ∧ P span
  | .importDeclaration specifiers source span => (∀ a ∈ specifiers, allImportDeclarationSpecifier P a) ∧ allLiteral P source ∧ P span
  | .importDefaultSpecifier loc span => allIdentifier P loc ∧ P span
  | .importNamespaceSpecifier loc span => allIdentifier P loc ∧ P span
  | .importSpecifier loc imported span => allIdentifier P loc ∧ allIdentifier P imported ∧ P span
  | .labeledStatement label body span => allIdentifier P label ∧ allNode P body ∧ P span
  | .moduleNode body _ span => allListNode P body ∧ P span
  | .program body _ span => allListNode P body ∧ P span
termination_by structural x => x

/-- the spans of a `Binding` have the property -/
def allBinding (P : Pr) : Binding → Prop
  | .bindingIdentifier _ span => P span
  | .arrayPattern elements span => allHolesArrayPatternElement P elements ∧ P span
  | .objectPattern properties span => allListObjectPatternProperty P properties ∧ P span
  | .expression node => allNode P node
termination_by structural x => x

/-- the spans of a `ArrayExpressionElement` have the property -/
def allArrayExpressionElement (P : Pr) : ArrayExpressionElement → Prop
  | .expression node => allNode P node
  | .spreadElement argument span => allNode P argument ∧ P span
termination_by structural x => x

/-- the spans of a `ArrayPatternElement` have the property -/
def allArrayPatternElement (P : Pr) : ArrayPatternElement → Prop
  | .assignmentPattern left right => allBinding P left ∧ allNode P right
  | .bindingIdentifier _ => True
  | .arrayPattern elements => allHolesArrayPatternElement P elements
  | .objectPattern properties => allListObjectPatternProperty P properties
  | .restElement argument => allBinding P argument
termination_by structural x => x

/-- the spans of a `ArrayAssignmentPatternElement` have the property -/
def allArrayAssignmentPatternElement (P : Pr) : ArrayAssignmentPatternElement → Prop
  | .expression node => allNode P node
  | .restElement argument => allBinding P argument
termination_by structural x => x

/-- the spans of a `PropertyKey` have the property -/
def allPropertyKey (P : Pr) : PropertyKey → Prop
  | .identifier id => allIdentifier P id
  | .literal lit => allLiteral P lit
  | .expression node => allNode P node
termination_by structural x => x

/-- the spans of a `FnExpr` have the property -/
def allFnExpr (P : Pr) : FnExpr → Prop
  | .mk id params body _ _ _ => allOptNode P id ∧ allListFunctionParameter P params ∧ allNode P body
termination_by structural x => x

/-- the spans of a `PropertyValue` have the property -/
def allPropertyValue (P : Pr) : PropertyValue → Prop
  | .assignmentPattern left right => allBinding P left ∧ allNode P right
  | .asyncFunctionExpression f => allFnExpr P f
  | .bindingIdentifier _ span => P span
  | .bindingPattern p => allBindingPattern P p
  | .functionExpression f => allFnExpr P f
  | .expression node => allNode P node
termination_by structural x => x

/-- the spans of a `ObjectPatternProperty` have the property -/
def allObjectPatternProperty (P : Pr) : ObjectPatternProperty → Prop
  | .property key _ value _ _ _ => allPropertyKey P key ∧ allOptPropertyValue P value
  | .restElement argument => allBinding P argument
termination_by structural x => x

/-- the spans of a `BindingPattern` have the property -/
def allBindingPattern (P : Pr) : BindingPattern → Prop
  | .arrayPattern elements => allHolesArrayPatternElement P elements
  | .objectPattern properties => allListObjectPatternProperty P properties
termination_by structural x => x

/-- the spans of a `FunctionParameter` have the property -/
def allFunctionParameter (P : Pr) : FunctionParameter → Prop
  | .assignmentPattern left right => allBinding P left ∧ allNode P right
  | .bindingIdentifier _ => True
  | .arrayPattern elements => allHolesArrayPatternElement P elements
  | .objectPattern properties => allListObjectPatternProperty P properties
  | .restElement argument => allBinding P argument
termination_by structural x => x

/-- the spans of a `ArgumentListElement` have the property -/
def allArgumentListElement (P : Pr) : ArgumentListElement → Prop
  | .expression node => allNode P node
  | .spreadElement argument span => allNode P argument ∧ P span
termination_by structural x => x

/-- the spans of a `ObjectExpressionProperty` have the property -/
def allObjectExpressionProperty (P : Pr) : ObjectExpressionProperty → Prop
  | .property key _ value _ _ _ span => allPropertyKey P key ∧ allOptPropertyValue P value ∧ P span
  | .spreadElement argument span => allNode P argument ∧ P span
termination_by structural x => x

/-- the spans of a `MethodDefinition` have the property -/
def allMethodDefinition (P : Pr) : MethodDefinition → Prop
  | .mk key _ value _ _ => allNode P key ∧ allOptFnExpr P value
termination_by structural x => x

/-- the spans of a `SwitchCase` have the property -/
def allSwitchCase (P : Pr) : SwitchCase → Prop
  | .mk test consequent => allOptNode P test ∧ allListNode P consequent
termination_by structural x => x

/-- the spans of a `VariableDeclarator` have the property -/
def allVariableDeclarator (P : Pr) : VariableDeclarator → Prop
  | .mk id init => allBinding P id ∧ allOptNode P init
termination_by structural x => x

/-- the spans of a `CatchClause` have the property -/
def allCatchClause (P : Pr) : CatchClause → Prop
  | .mk param body => allOptBinding P param ∧ allNode P body
termination_by structural x => x

/-- a list with holes -/
def allHolesArrayAssignmentPatternElement (P : Pr) : List (Option ArrayAssignmentPatternElement) → Prop
  | [] => True
  | a :: l => allOptArrayAssignmentPatternElement P a ∧ allHolesArrayAssignmentPatternElement P l
termination_by structural x => x

/-- a list with holes -/
def allHolesArrayExpressionElement (P : Pr) : List (Option ArrayExpressionElement) → Prop
  | [] => True
  | a :: l => allOptArrayExpressionElement P a ∧ allHolesArrayExpressionElement P l
termination_by structural x => x

/-- a list with holes -/
def allHolesArrayPatternElement (P : Pr) : List (Option ArrayPatternElement) → Prop
  | [] => True
  | a :: l => allOptArrayPatternElement P a ∧ allHolesArrayPatternElement P l
termination_by structural x => x

/-- a list of them -/
def allListArgumentListElement (P : Pr) : List ArgumentListElement → Prop
  | [] => True
  | a :: l => allArgumentListElement P a ∧ allListArgumentListElement P l
termination_by structural x => x

/-- a list of them -/
def allListFunctionParameter (P : Pr) : List FunctionParameter → Prop
  | [] => True
  | a :: l => allFunctionParameter P a ∧ allListFunctionParameter P l
termination_by structural x => x

/-- a list of them -/
def allListMethodDefinition (P : Pr) : List MethodDefinition → Prop
  | [] => True
  | a :: l => allMethodDefinition P a ∧ allListMethodDefinition P l
termination_by structural x => x

/-- a list of them -/
def allListNode (P : Pr) : List Node → Prop
  | [] => True
  | a :: l => allNode P a ∧ allListNode P l
termination_by structural x => x

/-- a list of them -/
def allListObjectExpressionProperty (P : Pr) : List ObjectExpressionProperty → Prop
  | [] => True
  | a :: l => allObjectExpressionProperty P a ∧ allListObjectExpressionProperty P l
termination_by structural x => x

/-- a list of them -/
def allListObjectPatternProperty (P : Pr) : List ObjectPatternProperty → Prop
  | [] => True
  | a :: l => allObjectPatternProperty P a ∧ allListObjectPatternProperty P l
termination_by structural x => x

/-- a list of them -/
def allListSwitchCase (P : Pr) : List SwitchCase → Prop
  | [] => True
  | a :: l => allSwitchCase P a ∧ allListSwitchCase P l
termination_by structural x => x

/-- a list of them -/
def allListVariableDeclarator (P : Pr) : List VariableDeclarator → Prop
  | [] => True
  | a :: l => allVariableDeclarator P a ∧ allListVariableDeclarator P l
termination_by structural x => x

/-- one, if there is one -/
def allOptArrayAssignmentPatternElement (P : Pr) : Option ArrayAssignmentPatternElement → Prop
  | none => True
  | some a => allArrayAssignmentPatternElement P a
termination_by structural x => x

/-- one, if there is one -/
def allOptArrayExpressionElement (P : Pr) : Option ArrayExpressionElement → Prop
  | none => True
  | some a => allArrayExpressionElement P a
termination_by structural x => x

/-- one, if there is one -/
def allOptArrayPatternElement (P : Pr) : Option ArrayPatternElement → Prop
  | none => True
  | some a => allArrayPatternElement P a
termination_by structural x => x

/-- one, if there is one -/
def allOptBinding (P : Pr) : Option Binding → Prop
  | none => True
  | some a => allBinding P a
termination_by structural x => x

/-- one, if there is one -/
def allOptCatchClause (P : Pr) : Option CatchClause → Prop
  | none => True
  | some a => allCatchClause P a
termination_by structural x => x

/-- one, if there is one -/
def allOptFnExpr (P : Pr) : Option FnExpr → Prop
  | none => True
  | some a => allFnExpr P a
termination_by structural x => x

/-- one, if there is one -/
def allOptNode (P : Pr) : Option Node → Prop
  | none => True
  | some a => allNode P a
termination_by structural x => x

/-- one, if there is one -/
def allOptPropertyValue (P : Pr) : Option PropertyValue → Prop
  | none => True
  | some a => allPropertyValue P a
termination_by structural x => x

end

theorem allOptArrayAssignmentPatternElement_iff {P : Pr} {o : Option ArrayAssignmentPatternElement} : allOptArrayAssignmentPatternElement P o ↔ ∀ a ∈ o, allArrayAssignmentPatternElement P a := by
  cases o <;> simp [allOptArrayAssignmentPatternElement]

theorem allOptArrayExpressionElement_iff {P : Pr} {o : Option ArrayExpressionElement} : allOptArrayExpressionElement P o ↔ ∀ a ∈ o, allArrayExpressionElement P a := by
  cases o <;> simp [allOptArrayExpressionElement]

theorem allOptArrayPatternElement_iff {P : Pr} {o : Option ArrayPatternElement} : allOptArrayPatternElement P o ↔ ∀ a ∈ o, allArrayPatternElement P a := by
  cases o <;> simp [allOptArrayPatternElement]

theorem allOptBinding_iff {P : Pr} {o : Option Binding} : allOptBinding P o ↔ ∀ a ∈ o, allBinding P a := by
  cases o <;> simp [allOptBinding]

theorem allOptCatchClause_iff {P : Pr} {o : Option CatchClause} : allOptCatchClause P o ↔ ∀ a ∈ o, allCatchClause P a := by
  cases o <;> simp [allOptCatchClause]

theorem allOptFnExpr_iff {P : Pr} {o : Option FnExpr} : allOptFnExpr P o ↔ ∀ a ∈ o, allFnExpr P a := by
  cases o <;> simp [allOptFnExpr]

theorem allOptNode_iff {P : Pr} {o : Option Node} : allOptNode P o ↔ ∀ a ∈ o, allNode P a := by
  cases o <;> simp [allOptNode]

theorem allOptPropertyValue_iff {P : Pr} {o : Option PropertyValue} : allOptPropertyValue P o ↔ ∀ a ∈ o, allPropertyValue P a := by
  cases o <;> simp [allOptPropertyValue]

theorem allHolesArrayAssignmentPatternElement_iff {P : Pr} {l : List (Option ArrayAssignmentPatternElement)} : allHolesArrayAssignmentPatternElement P l ↔ ∀ o ∈ l, ∀ a ∈ o, allArrayAssignmentPatternElement P a := by
  induction l with
  | nil => simp [allHolesArrayAssignmentPatternElement]
  | cons a l ih => simp [allHolesArrayAssignmentPatternElement, ih, allOptArrayAssignmentPatternElement_iff]

theorem allHolesArrayExpressionElement_iff {P : Pr} {l : List (Option ArrayExpressionElement)} : allHolesArrayExpressionElement P l ↔ ∀ o ∈ l, ∀ a ∈ o, allArrayExpressionElement P a := by
  induction l with
  | nil => simp [allHolesArrayExpressionElement]
  | cons a l ih => simp [allHolesArrayExpressionElement, ih, allOptArrayExpressionElement_iff]

theorem allHolesArrayPatternElement_iff {P : Pr} {l : List (Option ArrayPatternElement)} : allHolesArrayPatternElement P l ↔ ∀ o ∈ l, ∀ a ∈ o, allArrayPatternElement P a := by
  induction l with
  | nil => simp [allHolesArrayPatternElement]
  | cons a l ih => simp [allHolesArrayPatternElement, ih, allOptArrayPatternElement_iff]

theorem allListArgumentListElement_iff {P : Pr} {l : List ArgumentListElement} : allListArgumentListElement P l ↔ ∀ a ∈ l, allArgumentListElement P a := by
  induction l with
  | nil => simp [allListArgumentListElement]
  | cons a l ih => simp [allListArgumentListElement, ih]

theorem allListFunctionParameter_iff {P : Pr} {l : List FunctionParameter} : allListFunctionParameter P l ↔ ∀ a ∈ l, allFunctionParameter P a := by
  induction l with
  | nil => simp [allListFunctionParameter]
  | cons a l ih => simp [allListFunctionParameter, ih]

theorem allListMethodDefinition_iff {P : Pr} {l : List MethodDefinition} : allListMethodDefinition P l ↔ ∀ a ∈ l, allMethodDefinition P a := by
  induction l with
  | nil => simp [allListMethodDefinition]
  | cons a l ih => simp [allListMethodDefinition, ih]

theorem allListNode_iff {P : Pr} {l : List Node} : allListNode P l ↔ ∀ a ∈ l, allNode P a := by
  induction l with
  | nil => simp [allListNode]
  | cons a l ih => simp [allListNode, ih]

theorem allListObjectExpressionProperty_iff {P : Pr} {l : List ObjectExpressionProperty} : allListObjectExpressionProperty P l ↔ ∀ a ∈ l, allObjectExpressionProperty P a := by
  induction l with
  | nil => simp [allListObjectExpressionProperty]
  | cons a l ih => simp [allListObjectExpressionProperty, ih]

theorem allListObjectPatternProperty_iff {P : Pr} {l : List ObjectPatternProperty} : allListObjectPatternProperty P l ↔ ∀ a ∈ l, allObjectPatternProperty P a := by
  induction l with
  | nil => simp [allListObjectPatternProperty]
  | cons a l ih => simp [allListObjectPatternProperty, ih]

theorem allListSwitchCase_iff {P : Pr} {l : List SwitchCase} : allListSwitchCase P l ↔ ∀ a ∈ l, allSwitchCase P a := by
  induction l with
  | nil => simp [allListSwitchCase]
  | cons a l ih => simp [allListSwitchCase, ih]

theorem allListVariableDeclarator_iff {P : Pr} {l : List VariableDeclarator} : allListVariableDeclarator P l ↔ ∀ a ∈ l, allVariableDeclarator P a := by
  induction l with
  | nil => simp [allListVariableDeclarator]
  | cons a l ih => simp [allListVariableDeclarator, ih]

/-- types whose values hold spans -/
class Sp (α : Type) where
  all : Pr → α → Prop

/-- all spans of the value have the property -/
class Al {α : Type} [Sp α] (P : Pr) (a : α) : Prop where
  out : Sp.all P a

variable {α β : Type} [Sp α] [Sp β] {P : Pr}

theorem al_def {a : α} : Al P a ↔ Sp.all P a := ⟨fun h => h.out, fun h => ⟨h⟩⟩

instance : Sp Span := ⟨fun P s => P s⟩
instance : Sp (Option α) := ⟨fun P o => ∀ a ∈ o, Sp.all P a⟩
instance : Sp (List α) := ⟨fun P l => ∀ a ∈ l, Sp.all P a⟩
instance : Sp (α × β) := ⟨fun P p => Sp.all P p.1 ∧ Sp.all P p.2⟩
instance {p : α → Prop} : Sp {a // p a} := ⟨fun P x => Sp.all P x.1⟩

@[al] theorem al_none : Al P (none : Option α) ↔ True := by simp [al_def, Sp.all]
@[al] theorem al_some {a : α} : Al P (some a) ↔ Al P a := by simp [al_def, Sp.all]
@[al] theorem al_nil : Al P ([] : List α) ↔ True := by simp [al_def, Sp.all]
@[al] theorem al_cons {a : α} {l : List α} : Al P (a :: l) ↔ Al P a ∧ Al P l := by simp [al_def, Sp.all]
@[al] theorem al_append {l l' : List α} : Al P (l ++ l') ↔ Al P l ∧ Al P l' := by
  simp only [al_def, Sp.all, List.mem_append]
  exact ⟨fun h => ⟨fun a ha => h a (.inl ha), fun a ha => h a (.inr ha)⟩, fun h a ha => ha.elim (h.1 a) (h.2 a)⟩
@[al] theorem al_reverse {l : List α} : Al P l.reverse ↔ Al P l := by simp [al_def, Sp.all]
@[al] theorem al_pair {a : α} {b : β} : Al P (a, b) ↔ Al P a ∧ Al P b := by simp [al_def, Sp.all]
theorem al_fst {p : α × β} (h : Al P p) : Al P p.1 := ⟨h.out.1⟩
theorem al_snd {p : α × β} (h : Al P p) : Al P p.2 := ⟨h.out.2⟩
instance {p : α × β} [h : Al P p] : Al P p.1 := al_fst h
instance {p : α × β} [h : Al P p] : Al P p.2 := al_snd h

instance : Sp Unit := ⟨fun _ _ => True⟩
@[al] theorem al_Unit {a : Unit} : Al P a ↔ True := by simp [al_def, Sp.all]
instance : Sp Bool := ⟨fun _ _ => True⟩
@[al] theorem al_Bool {a : Bool} : Al P a ↔ True := by simp [al_def, Sp.all]
instance : Sp Nat := ⟨fun _ _ => True⟩
@[al] theorem al_Nat {a : Nat} : Al P a ↔ True := by simp [al_def, Sp.all]
instance : Sp Char := ⟨fun _ _ => True⟩
@[al] theorem al_Char {a : Char} : Al P a ↔ True := by simp [al_def, Sp.all]

@[al] theorem al_Str {a : Str} : Al P a ↔ True := by
  simp only [al_def, Sp.all, implies_true]
instance : Sp Value := ⟨fun _ _ => True⟩
@[al] theorem al_Value {a : Value} : Al P a ↔ True := by simp [al_def, Sp.all]
instance : Sp Punctuator := ⟨fun _ _ => True⟩
@[al] theorem al_Punctuator {a : Punctuator} : Al P a ↔ True := by simp [al_def, Sp.all]
instance : Sp Token := ⟨fun P t => P.tok t⟩
instance : Sp TemplateElement := ⟨fun _ _ => True⟩
@[al] theorem al_TemplateElement {a : TemplateElement} : Al P a ↔ True := by simp [al_def, Sp.all]
instance : Sp Parser := ⟨fun P s => P.tok s.current⟩
instance {s : Parser} [h : Al P s] : Al P s.current := ⟨h.out⟩
instance : Sp Marker := ⟨fun _ _ => True⟩
@[al] theorem al_Marker {a : Marker} : Al P a ↔ True := by simp [al_def, Sp.all]
instance : Sp ATT := ⟨fun _ _ => True⟩
@[al] theorem al_ATT {a : ATT} : Al P a ↔ True := by simp [al_def, Sp.all]
instance : Sp ErrorType := ⟨fun _ _ => True⟩
@[al] theorem al_ErrorType {a : ErrorType} : Al P a ↔ True := by simp [al_def, Sp.all]
instance : Sp Identifier := ⟨allIdentifier⟩
instance : Sp Literal := ⟨allLiteral⟩
instance : Sp ExportSpecifier := ⟨allExportSpecifier⟩
instance : Sp ImportDeclarationSpecifier := ⟨allImportDeclarationSpecifier⟩
instance : Sp Node := ⟨allNode⟩
instance : Sp Binding := ⟨allBinding⟩
instance : Sp ArrayExpressionElement := ⟨allArrayExpressionElement⟩
instance : Sp ArrayPatternElement := ⟨allArrayPatternElement⟩
instance : Sp ArrayAssignmentPatternElement := ⟨allArrayAssignmentPatternElement⟩
instance : Sp PropertyKey := ⟨allPropertyKey⟩
instance : Sp FnExpr := ⟨allFnExpr⟩
instance : Sp PropertyValue := ⟨allPropertyValue⟩
instance : Sp ObjectPatternProperty := ⟨allObjectPatternProperty⟩
instance : Sp BindingPattern := ⟨allBindingPattern⟩
instance : Sp FunctionParameter := ⟨allFunctionParameter⟩
instance : Sp ArgumentListElement := ⟨allArgumentListElement⟩
instance : Sp ObjectExpressionProperty := ⟨allObjectExpressionProperty⟩
instance : Sp MethodDefinition := ⟨allMethodDefinition⟩
instance : Sp SwitchCase := ⟨allSwitchCase⟩
instance : Sp VariableDeclarator := ⟨allVariableDeclarator⟩
instance : Sp CatchClause := ⟨allCatchClause⟩

@[al] theorem al_identifier {n : Str} {s : Span} : Al P (Identifier.mk n s) ↔ Al P s := by simp [al_def, Sp.all, allIdentifier]
@[al] theorem al_literal {v : Value} {n : Str} {s : Span} : Al P (Literal.mk v n s) ↔ Al P s := by simp [al_def, Sp.all, allLiteral]
@[al] theorem al_exportSpecifier {a b : Identifier} : Al P (ExportSpecifier.mk a b) ↔ Al P a ∧ Al P b := by simp [al_def, Sp.all, allExportSpecifier]
@[al] theorem al_import1 {a : Identifier} : Al P (ImportDeclarationSpecifier.importDefaultSpecifier a) ↔ Al P a := by simp [al_def, Sp.all, allImportDeclarationSpecifier]
@[al] theorem al_import2 {a : Identifier} : Al P (ImportDeclarationSpecifier.importNamespaceSpecifier a) ↔ Al P a := by simp [al_def, Sp.all, allImportDeclarationSpecifier]
@[al] theorem al_import3 {a b : Identifier} : Al P (ImportDeclarationSpecifier.importSpecifier a b) ↔ Al P a ∧ Al P b := by simp [al_def, Sp.all, allImportDeclarationSpecifier]

@[al] theorem al_Node_arrayExpression {elements : List (Option ArrayExpressionElement)} {att : ATT} {span : Span} :
    Al P (Node.arrayExpression elements att span) ↔ Al P elements ∧ Al P span := by
  simp only [al_def, Sp.all, allNode, allHolesArrayExpressionElement_iff]
instance {elements : List (Option ArrayExpressionElement)} {att : ATT} {span : Span} [h0 : Al P elements] [h1 : Al P span] : Al P (Node.arrayExpression elements att span) := al_Node_arrayExpression.2 ⟨h0, h1⟩
@[al] theorem al_Node_arrayPattern {elements : List (Option ArrayPatternElement)} {att : ATT} {span : Span} :
    Al P (Node.arrayPattern elements att span) ↔ Al P elements ∧ Al P span := by
  simp only [al_def, Sp.all, allNode, allHolesArrayPatternElement_iff]
instance {elements : List (Option ArrayPatternElement)} {att : ATT} {span : Span} [h0 : Al P elements] [h1 : Al P span] : Al P (Node.arrayPattern elements att span) := al_Node_arrayPattern.2 ⟨h0, h1⟩
@[al] theorem al_Node_arrayAssignmentPattern {elements : List (Option ArrayAssignmentPatternElement)} {att : ATT} {span : Span} :
    Al P (Node.arrayAssignmentPattern elements att span) ↔ Al P elements ∧ Al P span := by
  simp only [al_def, Sp.all, allNode, allHolesArrayAssignmentPatternElement_iff]
instance {elements : List (Option ArrayAssignmentPatternElement)} {att : ATT} {span : Span} [h0 : Al P elements] [h1 : Al P span] : Al P (Node.arrayAssignmentPattern elements att span) := al_Node_arrayAssignmentPattern.2 ⟨h0, h1⟩
@[al] theorem al_Node_arrowFunctionExpression {id : Option Node} {params : List FunctionParameter} {body : Node} {generator : Bool} {expression : Bool} {async : Bool} {att : ATT} {span : Span} :
    Al P (Node.arrowFunctionExpression id params body generator expression async att span) ↔ Al P id ∧ Al P params ∧ Al P body ∧ Al P span := by
  simp only [al_def, Sp.all, allNode, allListFunctionParameter_iff, allOptNode_iff]
instance {id : Option Node} {params : List FunctionParameter} {body : Node} {generator : Bool} {expression : Bool} {async : Bool} {att : ATT} {span : Span} [h0 : Al P id] [h1 : Al P params] [h2 : Al P body] [h3 : Al P span] : Al P (Node.arrowFunctionExpression id params body generator expression async att span) := al_Node_arrowFunctionExpression.2 ⟨h0, h1, h2, h3⟩
@[al] theorem al_Node_assignmentExpression {operator : Str} {left : Node} {right : Node} {att : ATT} {span : Span} :
    Al P (Node.assignmentExpression operator left right att span) ↔ Al P left ∧ Al P right ∧ Al P span := by
  simp only [al_def, Sp.all, allNode]
instance {operator : Str} {left : Node} {right : Node} {att : ATT} {span : Span} [h0 : Al P left] [h1 : Al P right] [h2 : Al P span] : Al P (Node.assignmentExpression operator left right att span) := al_Node_assignmentExpression.2 ⟨h0, h1, h2⟩
@[al] theorem al_Node_assignmentPattern {left : Binding} {right : Node} {span : Span} :
    Al P (Node.assignmentPattern left right span) ↔ Al P left ∧ Al P right ∧ Al P span := by
  simp only [al_def, Sp.all, allNode]
instance {left : Binding} {right : Node} {span : Span} [h0 : Al P left] [h1 : Al P right] [h2 : Al P span] : Al P (Node.assignmentPattern left right span) := al_Node_assignmentPattern.2 ⟨h0, h1, h2⟩
@[al] theorem al_Node_assignmentRestElement {argument : Node} {span : Span} :
    Al P (Node.assignmentRestElement argument span) ↔ Al P argument ∧ Al P span := by
  simp only [al_def, Sp.all, allNode]
instance {argument : Node} {span : Span} [h0 : Al P argument] [h1 : Al P span] : Al P (Node.assignmentRestElement argument span) := al_Node_assignmentRestElement.2 ⟨h0, h1⟩
@[al] theorem al_Node_asyncArrowFunctionExpression {id : Option Node} {params : List FunctionParameter} {body : Node} {generator : Bool} {expression : Bool} {async : Bool} {att : ATT} {span : Span} :
    Al P (Node.asyncArrowFunctionExpression id params body generator expression async att span) ↔ Al P id ∧ Al P params ∧ Al P body ∧ Al P span := by
  simp only [al_def, Sp.all, allNode, allListFunctionParameter_iff, allOptNode_iff]
instance {id : Option Node} {params : List FunctionParameter} {body : Node} {generator : Bool} {expression : Bool} {async : Bool} {att : ATT} {span : Span} [h0 : Al P id] [h1 : Al P params] [h2 : Al P body] [h3 : Al P span] : Al P (Node.asyncArrowFunctionExpression id params body generator expression async att span) := al_Node_asyncArrowFunctionExpression.2 ⟨h0, h1, h2, h3⟩
@[al] theorem al_Node_asyncFunctionExpression {id : Option Node} {params : List FunctionParameter} {body : Node} {generator : Bool} {expression : Bool} {async : Bool} {att : ATT} {span : Span} :
    Al P (Node.asyncFunctionExpression id params body generator expression async att span) ↔ Al P id ∧ Al P params ∧ Al P body ∧ Al P span := by
  simp only [al_def, Sp.all, allNode, allListFunctionParameter_iff, allOptNode_iff]
instance {id : Option Node} {params : List FunctionParameter} {body : Node} {generator : Bool} {expression : Bool} {async : Bool} {att : ATT} {span : Span} [h0 : Al P id] [h1 : Al P params] [h2 : Al P body] [h3 : Al P span] : Al P (Node.asyncFunctionExpression id params body generator expression async att span) := al_Node_asyncFunctionExpression.2 ⟨h0, h1, h2, h3⟩
@[al] theorem al_Node_awaitExpression {argument : Node} {span : Span} :
    Al P (Node.awaitExpression argument span) ↔ Al P argument ∧ Al P span := by
  simp only [al_def, Sp.all, allNode]
instance {argument : Node} {span : Span} [h0 : Al P argument] [h1 : Al P span] : Al P (Node.awaitExpression argument span) := al_Node_awaitExpression.2 ⟨h0, h1⟩
@[al] theorem al_Node_binaryExpression {operator : Str} {left : Node} {right : Node} {att : ATT} {span : Span} :
    Al P (Node.binaryExpression operator left right att span) ↔ Al P left ∧ Al P right ∧ Al P span := by
  simp only [al_def, Sp.all, allNode]
instance {operator : Str} {left : Node} {right : Node} {att : ATT} {span : Span} [h0 : Al P left] [h1 : Al P right] [h2 : Al P span] : Al P (Node.binaryExpression operator left right att span) := al_Node_binaryExpression.2 ⟨h0, h1, h2⟩
@[al] theorem al_Node_bindingIdentifier {name : Str} {span : Span} :
    Al P (Node.bindingIdentifier name span) ↔ Al P span := by
  simp only [al_def, Sp.all, allNode]
instance {name : Str} {span : Span} [h0 : Al P span] : Al P (Node.bindingIdentifier name span) := al_Node_bindingIdentifier.2 h0
@[al] theorem al_Node_logicalExpression {operator : Str} {left : Node} {right : Node} {span : Span} :
    Al P (Node.logicalExpression operator left right span) ↔ Al P left ∧ Al P right ∧ Al P span := by
  simp only [al_def, Sp.all, allNode]
instance {operator : Str} {left : Node} {right : Node} {span : Span} [h0 : Al P left] [h1 : Al P right] [h2 : Al P span] : Al P (Node.logicalExpression operator left right span) := al_Node_logicalExpression.2 ⟨h0, h1, h2⟩
@[al] theorem al_Node_callExpression {callee : Node} {arguments : List ArgumentListElement} {att : ATT} {span : Span} :
    Al P (Node.callExpression callee arguments att span) ↔ Al P callee ∧ Al P arguments ∧ Al P span := by
  simp only [al_def, Sp.all, allNode, allListArgumentListElement_iff]
instance {callee : Node} {arguments : List ArgumentListElement} {att : ATT} {span : Span} [h0 : Al P callee] [h1 : Al P arguments] [h2 : Al P span] : Al P (Node.callExpression callee arguments att span) := al_Node_callExpression.2 ⟨h0, h1, h2⟩
@[al] theorem al_Node_classExpression {id : Option Node} {superClass : Option Node} {body : List MethodDefinition} {att : ATT} {span : Span} :
    Al P (Node.classExpression id superClass body att span) ↔ Al P id ∧ Al P superClass ∧ Al P body ∧ Al P span := by
  simp only [al_def, Sp.all, allNode, allListMethodDefinition_iff, allOptNode_iff]
instance {id : Option Node} {superClass : Option Node} {body : List MethodDefinition} {att : ATT} {span : Span} [h0 : Al P id] [h1 : Al P superClass] [h2 : Al P body] [h3 : Al P span] : Al P (Node.classExpression id superClass body att span) := al_Node_classExpression.2 ⟨h0, h1, h2, h3⟩
@[al] theorem al_Node_computedMemberExpression {computed : Bool} {object : Node} {property : Node} {att : ATT} {span : Span} :
    Al P (Node.computedMemberExpression computed object property att span) ↔ Al P object ∧ Al P property ∧ Al P span := by
  simp only [al_def, Sp.all, allNode]
instance {computed : Bool} {object : Node} {property : Node} {att : ATT} {span : Span} [h0 : Al P object] [h1 : Al P property] [h2 : Al P span] : Al P (Node.computedMemberExpression computed object property att span) := al_Node_computedMemberExpression.2 ⟨h0, h1, h2⟩
@[al] theorem al_Node_conditionalExpression {test : Node} {consequent : Node} {alternate : Node} {span : Span} :
    Al P (Node.conditionalExpression test consequent alternate span) ↔ Al P test ∧ Al P consequent ∧ Al P alternate ∧ Al P span := by
  simp only [al_def, Sp.all, allNode]
instance {test : Node} {consequent : Node} {alternate : Node} {span : Span} [h0 : Al P test] [h1 : Al P consequent] [h2 : Al P alternate] [h3 : Al P span] : Al P (Node.conditionalExpression test consequent alternate span) := al_Node_conditionalExpression.2 ⟨h0, h1, h2, h3⟩
@[al] theorem al_Node_identifier {name : Str} {att : ATT} {span : Span} :
    Al P (Node.identifier name att span) ↔ Al P span := by
  simp only [al_def, Sp.all, allNode]
instance {name : Str} {att : ATT} {span : Span} [h0 : Al P span] : Al P (Node.identifier name att span) := al_Node_identifier.2 h0
@[al] theorem al_Node_functionExpression {id : Option Node} {params : List FunctionParameter} {body : Node} {generator : Bool} {expression : Bool} {async : Bool} {att : ATT} {span : Span} :
    Al P (Node.functionExpression id params body generator expression async att span) ↔ Al P id ∧ Al P params ∧ Al P body ∧ Al P span := by
  simp only [al_def, Sp.all, allNode, allListFunctionParameter_iff, allOptNode_iff]
instance {id : Option Node} {params : List FunctionParameter} {body : Node} {generator : Bool} {expression : Bool} {async : Bool} {att : ATT} {span : Span} [h0 : Al P id] [h1 : Al P params] [h2 : Al P body] [h3 : Al P span] : Al P (Node.functionExpression id params body generator expression async att span) := al_Node_functionExpression.2 ⟨h0, h1, h2, h3⟩
@[al] theorem al_Node_literal {value : Value} {raw : Str} {att : ATT} {span : Span} :
    Al P (Node.literal value raw att span) ↔ Al P span := by
  simp only [al_def, Sp.all, allNode]
instance {value : Value} {raw : Str} {att : ATT} {span : Span} [h0 : Al P span] : Al P (Node.literal value raw att span) := al_Node_literal.2 h0
@[al] theorem al_Node_newExpression {callee : Node} {arguments : List ArgumentListElement} {att : ATT} {span : Span} :
    Al P (Node.newExpression callee arguments att span) ↔ Al P callee ∧ Al P arguments ∧ Al P span := by
  simp only [al_def, Sp.all, allNode, allListArgumentListElement_iff]
instance {callee : Node} {arguments : List ArgumentListElement} {att : ATT} {span : Span} [h0 : Al P callee] [h1 : Al P arguments] [h2 : Al P span] : Al P (Node.newExpression callee arguments att span) := al_Node_newExpression.2 ⟨h0, h1, h2⟩
@[al] theorem al_Node_objectExpression {properties : List ObjectExpressionProperty} {att : ATT} {span : Span} :
    Al P (Node.objectExpression properties att span) ↔ Al P properties ∧ Al P span := by
  simp only [al_def, Sp.all, allNode, allListObjectExpressionProperty_iff]
instance {properties : List ObjectExpressionProperty} {att : ATT} {span : Span} [h0 : Al P properties] [h1 : Al P span] : Al P (Node.objectExpression properties att span) := al_Node_objectExpression.2 ⟨h0, h1⟩
@[al] theorem al_Node_objectPattern {properties : List ObjectPatternProperty} {att : ATT} {span : Span} :
    Al P (Node.objectPattern properties att span) ↔ Al P properties ∧ Al P span := by
  simp only [al_def, Sp.all, allNode, allListObjectPatternProperty_iff]
instance {properties : List ObjectPatternProperty} {att : ATT} {span : Span} [h0 : Al P properties] [h1 : Al P span] : Al P (Node.objectPattern properties att span) := al_Node_objectPattern.2 ⟨h0, h1⟩
@[al] theorem al_Node_regexLiteral {value : Str} {raw : Str} {regex : Regex} {att : ATT} {span : Span} :
    Al P (Node.regexLiteral value raw regex att span) ↔ Al P span := by
  simp only [al_def, Sp.all, allNode]
instance {value : Str} {raw : Str} {regex : Regex} {att : ATT} {span : Span} [h0 : Al P span] : Al P (Node.regexLiteral value raw regex att span) := al_Node_regexLiteral.2 h0
@[al] theorem al_Node_sequenceExpression {expressions : List Node} {att : ATT} {span : Span} :
    Al P (Node.sequenceExpression expressions att span) ↔ Al P expressions ∧ Al P span := by
  simp only [al_def, Sp.all, allNode, allListNode_iff]
instance {expressions : List Node} {att : ATT} {span : Span} [h0 : Al P expressions] [h1 : Al P span] : Al P (Node.sequenceExpression expressions att span) := al_Node_sequenceExpression.2 ⟨h0, h1⟩
@[al] theorem al_Node_staticMemberExpression {computed : Bool} {object : Node} {property : Node} {att : ATT} {span : Span} :
    Al P (Node.staticMemberExpression computed object property att span) ↔ Al P object ∧ Al P property ∧ Al P span := by
  simp only [al_def, Sp.all, allNode]
instance {computed : Bool} {object : Node} {property : Node} {att : ATT} {span : Span} [h0 : Al P object] [h1 : Al P property] [h2 : Al P span] : Al P (Node.staticMemberExpression computed object property att span) := al_Node_staticMemberExpression.2 ⟨h0, h1, h2⟩
@[al] theorem al_Node_taggedTemplateExpression {tag : Node} {quasis : List TemplateElement} {expressions : List Node} {span : Span} :
    Al P (Node.taggedTemplateExpression tag quasis expressions span) ↔ Al P tag ∧ Al P expressions ∧ Al P span := by
  simp only [al_def, Sp.all, allNode, allListNode_iff]
instance {tag : Node} {quasis : List TemplateElement} {expressions : List Node} {span : Span} [h0 : Al P tag] [h1 : Al P expressions] [h2 : Al P span] : Al P (Node.taggedTemplateExpression tag quasis expressions span) := al_Node_taggedTemplateExpression.2 ⟨h0, h1, h2⟩
@[al] theorem al_Node_thisExpression {att : ATT} {span : Span} :
    Al P (Node.thisExpression att span) ↔ Al P span := by
  simp only [al_def, Sp.all, allNode]
instance {att : ATT} {span : Span} [h0 : Al P span] : Al P (Node.thisExpression att span) := al_Node_thisExpression.2 h0
@[al] theorem al_Node_unaryExpression {operator : Str} {argument : Node} {isPrefix : Bool} {att : ATT} {span : Span} :
    Al P (Node.unaryExpression operator argument isPrefix att span) ↔ Al P argument ∧ Al P span := by
  simp only [al_def, Sp.all, allNode]
instance {operator : Str} {argument : Node} {isPrefix : Bool} {att : ATT} {span : Span} [h0 : Al P argument] [h1 : Al P span] : Al P (Node.unaryExpression operator argument isPrefix att span) := al_Node_unaryExpression.2 ⟨h0, h1⟩
@[al] theorem al_Node_updateExpression {operator : Str} {argument : Node} {isPrefix : Bool} {att : ATT} {span : Span} :
    Al P (Node.updateExpression operator argument isPrefix att span) ↔ Al P argument ∧ Al P span := by
  simp only [al_def, Sp.all, allNode]
instance {operator : Str} {argument : Node} {isPrefix : Bool} {att : ATT} {span : Span} [h0 : Al P argument] [h1 : Al P span] : Al P (Node.updateExpression operator argument isPrefix att span) := al_Node_updateExpression.2 ⟨h0, h1⟩
@[al] theorem al_Node_yieldExpression {argument : Option Node} {delegate : Bool} {att : ATT} {span : Span} :
    Al P (Node.yieldExpression argument delegate att span) ↔ Al P argument ∧ Al P span := by
  simp only [al_def, Sp.all, allNode, allOptNode_iff]
instance {argument : Option Node} {delegate : Bool} {att : ATT} {span : Span} [h0 : Al P argument] [h1 : Al P span] : Al P (Node.yieldExpression argument delegate att span) := al_Node_yieldExpression.2 ⟨h0, h1⟩
@[al] theorem al_Node_arrowParameterPlaceHolder {params : List FunctionParameter} {async : Bool} {span : Span} :
    Al P (Node.arrowParameterPlaceHolder params async span) ↔ Al P params ∧ Al P span := by
  simp only [al_def, Sp.all, allNode, allListFunctionParameter_iff]
instance {params : List FunctionParameter} {async : Bool} {span : Span} [h0 : Al P params] [h1 : Al P span] : Al P (Node.arrowParameterPlaceHolder params async span) := al_Node_arrowParameterPlaceHolder.2 ⟨h0, h1⟩
@[al] theorem al_Node_restElement {argument : Binding} {span : Span} :
    Al P (Node.restElement argument span) ↔ Al P argument ∧ Al P span := by
  simp only [al_def, Sp.all, allNode]
instance {argument : Binding} {span : Span} [h0 : Al P argument] [h1 : Al P span] : Al P (Node.restElement argument span) := al_Node_restElement.2 ⟨h0, h1⟩
@[al] theorem al_Node_spreadElement {argument : Node} {span : Span} :
    Al P (Node.spreadElement argument span) ↔ Al P argument ∧ Al P span := by
  simp only [al_def, Sp.all, allNode]
instance {argument : Node} {span : Span} [h0 : Al P argument] [h1 : Al P span] : Al P (Node.spreadElement argument span) := al_Node_spreadElement.2 ⟨h0, h1⟩
@[al] theorem al_Node_super {att : ATT} {span : Span} :
    Al P (Node.super att span) ↔ Al P span := by
  simp only [al_def, Sp.all, allNode]
instance {att : ATT} {span : Span} [h0 : Al P span] : Al P (Node.super att span) := al_Node_super.2 h0
@[al] theorem al_Node_templateLiteral {quasis : List TemplateElement} {expressions : List Node} {att : ATT} {span : Span} :
    Al P (Node.templateLiteral quasis expressions att span) ↔ Al P expressions ∧ Al P span := by
  simp only [al_def, Sp.all, allNode, allListNode_iff]
instance {quasis : List TemplateElement} {expressions : List Node} {att : ATT} {span : Span} [h0 : Al P expressions] [h1 : Al P span] : Al P (Node.templateLiteral quasis expressions att span) := al_Node_templateLiteral.2 ⟨h0, h1⟩
@[al] theorem al_Node_metaProperty {metaId : Node} {property : Node} {att : ATT} {span : Span} :
    Al P (Node.metaProperty metaId property att span) ↔ Al P metaId ∧ Al P property ∧ Al P span := by
  simp only [al_def, Sp.all, allNode]
instance {metaId : Node} {property : Node} {att : ATT} {span : Span} [h0 : Al P metaId] [h1 : Al P property] [h2 : Al P span] : Al P (Node.metaProperty metaId property att span) := al_Node_metaProperty.2 ⟨h0, h1, h2⟩
@[al] theorem al_Node_asyncFunctionDeclaration {id : Option Node} {params : List FunctionParameter} {body : Node} {generator : Bool} {expression : Bool} {async : Bool} {span : Span} :
    Al P (Node.asyncFunctionDeclaration id params body generator expression async span) ↔ Al P id ∧ Al P params ∧ Al P body ∧ Al P span := by
  simp only [al_def, Sp.all, allNode, allListFunctionParameter_iff, allOptNode_iff]
instance {id : Option Node} {params : List FunctionParameter} {body : Node} {generator : Bool} {expression : Bool} {async : Bool} {span : Span} [h0 : Al P id] [h1 : Al P params] [h2 : Al P body] [h3 : Al P span] : Al P (Node.asyncFunctionDeclaration id params body generator expression async span) := al_Node_asyncFunctionDeclaration.2 ⟨h0, h1, h2, h3⟩
@[al] theorem al_Node_breakStatement {label : Option Node} {span : Span} :
    Al P (Node.breakStatement label span) ↔ Al P label ∧ Al P span := by
  simp only [al_def, Sp.all, allNode, allOptNode_iff]
instance {label : Option Node} {span : Span} [h0 : Al P label] [h1 : Al P span] : Al P (Node.breakStatement label span) := al_Node_breakStatement.2 ⟨h0, h1⟩
@[al] theorem al_Node_continueStatement {label : Option Node} {span : Span} :
    Al P (Node.continueStatement label span) ↔ Al P label ∧ Al P span := by
  simp only [al_def, Sp.all, allNode, allOptNode_iff]
instance {label : Option Node} {span : Span} [h0 : Al P label] [h1 : Al P span] : Al P (Node.continueStatement label span) := al_Node_continueStatement.2 ⟨h0, h1⟩
@[al] theorem al_Node_debuggerStatement {span : Span} :
    Al P (Node.debuggerStatement span) ↔ Al P span := by
  simp only [al_def, Sp.all, allNode]
instance {span : Span} [h0 : Al P span] : Al P (Node.debuggerStatement span) := al_Node_debuggerStatement.2 h0
@[al] theorem al_Node_doWhileStatement {body : Node} {test : Node} {span : Span} :
    Al P (Node.doWhileStatement body test span) ↔ Al P body ∧ Al P test ∧ Al P span := by
  simp only [al_def, Sp.all, allNode]
instance {body : Node} {test : Node} {span : Span} [h0 : Al P body] [h1 : Al P test] [h2 : Al P span] : Al P (Node.doWhileStatement body test span) := al_Node_doWhileStatement.2 ⟨h0, h1, h2⟩
@[al] theorem al_Node_emptyStatement {span : Span} :
    Al P (Node.emptyStatement span) ↔ Al P span := by
  simp only [al_def, Sp.all, allNode]
instance {span : Span} [h0 : Al P span] : Al P (Node.emptyStatement span) := al_Node_emptyStatement.2 h0
@[al] theorem al_Node_expressionStatement {expression : Node} {span : Span} :
    Al P (Node.expressionStatement expression span) ↔ Al P expression ∧ Al P span := by
  simp only [al_def, Sp.all, allNode]
instance {expression : Node} {span : Span} [h0 : Al P expression] [h1 : Al P span] : Al P (Node.expressionStatement expression span) := al_Node_expressionStatement.2 ⟨h0, h1⟩
@[al] theorem al_Node_directive {expression : Node} {directive : Str} {span : Span} :
    Al P (Node.directive expression directive span) ↔ Al P expression ∧ Al P span := by
  simp only [al_def, Sp.all, allNode]
instance {expression : Node} {directive : Str} {span : Span} [h0 : Al P expression] [h1 : Al P span] : Al P (Node.directive expression directive span) := al_Node_directive.2 ⟨h0, h1⟩
@[al] theorem al_Node_forStatement {init : Option Node} {test : Option Node} {update : Option Node} {body : Node} {span : Span} :
    Al P (Node.forStatement init test update body span) ↔ Al P init ∧ Al P test ∧ Al P update ∧ Al P body ∧ Al P span := by
  simp only [al_def, Sp.all, allNode, allOptNode_iff]
instance {init : Option Node} {test : Option Node} {update : Option Node} {body : Node} {span : Span} [h0 : Al P init] [h1 : Al P test] [h2 : Al P update] [h3 : Al P body] [h4 : Al P span] : Al P (Node.forStatement init test update body span) := al_Node_forStatement.2 ⟨h0, h1, h2, h3, h4⟩
@[al] theorem al_Node_forInStatement {left : Node} {right : Node} {body : Node} {each : Bool} {span : Span} :
    Al P (Node.forInStatement left right body each span) ↔ Al P left ∧ Al P right ∧ Al P body ∧ Al P span := by
  simp only [al_def, Sp.all, allNode]
instance {left : Node} {right : Node} {body : Node} {each : Bool} {span : Span} [h0 : Al P left] [h1 : Al P right] [h2 : Al P body] [h3 : Al P span] : Al P (Node.forInStatement left right body each span) := al_Node_forInStatement.2 ⟨h0, h1, h2, h3⟩
@[al] theorem al_Node_forOfStatement {left : Node} {right : Node} {body : Node} {span : Span} :
    Al P (Node.forOfStatement left right body span) ↔ Al P left ∧ Al P right ∧ Al P body ∧ Al P span := by
  simp only [al_def, Sp.all, allNode]
instance {left : Node} {right : Node} {body : Node} {span : Span} [h0 : Al P left] [h1 : Al P right] [h2 : Al P body] [h3 : Al P span] : Al P (Node.forOfStatement left right body span) := al_Node_forOfStatement.2 ⟨h0, h1, h2, h3⟩
@[al] theorem al_Node_functionDeclaration {id : Option Node} {params : List FunctionParameter} {body : Node} {generator : Bool} {expression : Bool} {async : Bool} {span : Span} :
    Al P (Node.functionDeclaration id params body generator expression async span) ↔ Al P id ∧ Al P params ∧ Al P body ∧ Al P span := by
  simp only [al_def, Sp.all, allNode, allListFunctionParameter_iff, allOptNode_iff]
instance {id : Option Node} {params : List FunctionParameter} {body : Node} {generator : Bool} {expression : Bool} {async : Bool} {span : Span} [h0 : Al P id] [h1 : Al P params] [h2 : Al P body] [h3 : Al P span] : Al P (Node.functionDeclaration id params body generator expression async span) := al_Node_functionDeclaration.2 ⟨h0, h1, h2, h3⟩
@[al] theorem al_Node_ifStatement {test : Node} {consequent : Node} {alternate : Option Node} {span : Span} :
    Al P (Node.ifStatement test consequent alternate span) ↔ Al P test ∧ Al P consequent ∧ Al P alternate ∧ Al P span := by
  simp only [al_def, Sp.all, allNode, allOptNode_iff]
instance {test : Node} {consequent : Node} {alternate : Option Node} {span : Span} [h0 : Al P test] [h1 : Al P consequent] [h2 : Al P alternate] [h3 : Al P span] : Al P (Node.ifStatement test consequent alternate span) := al_Node_ifStatement.2 ⟨h0, h1, h2, h3⟩
@[al] theorem al_Node_returnStatement {argument : Option Node} {span : Span} :
    Al P (Node.returnStatement argument span) ↔ Al P argument ∧ Al P span := by
  simp only [al_def, Sp.all, allNode, allOptNode_iff]
instance {argument : Option Node} {span : Span} [h0 : Al P argument] [h1 : Al P span] : Al P (Node.returnStatement argument span) := al_Node_returnStatement.2 ⟨h0, h1⟩
@[al] theorem al_Node_switchStatement {discriminant : Node} {cases : List SwitchCase} {span : Span} :
    Al P (Node.switchStatement discriminant cases span) ↔ Al P discriminant ∧ Al P cases ∧ Al P span := by
  simp only [al_def, Sp.all, allNode, allListSwitchCase_iff]
instance {discriminant : Node} {cases : List SwitchCase} {span : Span} [h0 : Al P discriminant] [h1 : Al P cases] [h2 : Al P span] : Al P (Node.switchStatement discriminant cases span) := al_Node_switchStatement.2 ⟨h0, h1, h2⟩
@[al] theorem al_Node_throwStatement {argument : Node} {span : Span} :
    Al P (Node.throwStatement argument span) ↔ Al P argument ∧ Al P span := by
  simp only [al_def, Sp.all, allNode]
instance {argument : Node} {span : Span} [h0 : Al P argument] [h1 : Al P span] : Al P (Node.throwStatement argument span) := al_Node_throwStatement.2 ⟨h0, h1⟩
@[al] theorem al_Node_tryStatement {block : Node} {handler : Option CatchClause} {finalizer : Option Node} {span : Span} :
    Al P (Node.tryStatement block handler finalizer span) ↔ Al P block ∧ Al P handler ∧ Al P finalizer ∧ Al P span := by
  simp only [al_def, Sp.all, allNode, allOptCatchClause_iff, allOptNode_iff]
instance {block : Node} {handler : Option CatchClause} {finalizer : Option Node} {span : Span} [h0 : Al P block] [h1 : Al P handler] [h2 : Al P finalizer] [h3 : Al P span] : Al P (Node.tryStatement block handler finalizer span) := al_Node_tryStatement.2 ⟨h0, h1, h2, h3⟩
@[al] theorem al_Node_variableDeclaration {declarations : List VariableDeclarator} {kind : Str} {span : Span} :
    Al P (Node.variableDeclaration declarations kind span) ↔ Al P declarations ∧ Al P span := by
  simp only [al_def, Sp.all, allNode, allListVariableDeclarator_iff]
instance {declarations : List VariableDeclarator} {kind : Str} {span : Span} [h0 : Al P declarations] [h1 : Al P span] : Al P (Node.variableDeclaration declarations kind span) := al_Node_variableDeclaration.2 ⟨h0, h1⟩
@[al] theorem al_Node_whileStatement {test : Node} {body : Node} {span : Span} :
    Al P (Node.whileStatement test body span) ↔ Al P test ∧ Al P body ∧ Al P span := by
  simp only [al_def, Sp.all, allNode]
instance {test : Node} {body : Node} {span : Span} [h0 : Al P test] [h1 : Al P body] [h2 : Al P span] : Al P (Node.whileStatement test body span) := al_Node_whileStatement.2 ⟨h0, h1, h2⟩
@[al] theorem al_Node_withStatement {object : Node} {body : Node} {span : Span} :
    Al P (Node.withStatement object body span) ↔ Al P object ∧ Al P body ∧ Al P span := by
  simp only [al_def, Sp.all, allNode]
instance {object : Node} {body : Node} {span : Span} [h0 : Al P object] [h1 : Al P body] [h2 : Al P span] : Al P (Node.withStatement object body span) := al_Node_withStatement.2 ⟨h0, h1, h2⟩
@[al] theorem al_Node_blockStatement {body : List Node} {span : Span} :
    Al P (Node.blockStatement body span) ↔ Al P body ∧ Al P span := by
  simp only [al_def, Sp.all, allNode, allListNode_iff]
instance {body : List Node} {span : Span} [h0 : Al P body] [h1 : Al P span] : Al P (Node.blockStatement body span) := al_Node_blockStatement.2 ⟨h0, h1⟩
@[al] theorem al_Node_classDeclaration {id : Option Node} {superClass : Option Node} {body : List MethodDefinition} {span : Span} :
    Al P (Node.classDeclaration id superClass body span) ↔ Al P id ∧ Al P superClass ∧ Al P body ∧ Al P span := by
  simp only [al_def, Sp.all, allNode, allListMethodDefinition_iff, allOptNode_iff]
instance {id : Option Node} {superClass : Option Node} {body : List MethodDefinition} {span : Span} [h0 : Al P id] [h1 : Al P superClass] [h2 : Al P body] [h3 : Al P span] : Al P (Node.classDeclaration id superClass body span) := al_Node_classDeclaration.2 ⟨h0, h1, h2, h3⟩
@[al] theorem al_Node_exportAllDeclaration {source : Literal} {span : Span} :
    Al P (Node.exportAllDeclaration source span) ↔ Al P source ∧ Al P span := by
  simp only [al_def, Sp.all, allNode]
instance {source : Literal} {span : Span} [h0 : Al P source] [h1 : Al P span] : Al P (Node.exportAllDeclaration source span) := al_Node_exportAllDeclaration.2 ⟨h0, h1⟩
@[al] theorem al_Node_exportDefaultDeclaration {declaration : Node} {span : Span} :
    Al P (Node.exportDefaultDeclaration declaration span) ↔ Al P declaration ∧ Al P span := by
  simp only [al_def, Sp.all, allNode]
instance {declaration : Node} {span : Span} [h0 : Al P declaration] [h1 : Al P span] : Al P (Node.exportDefaultDeclaration declaration span) := al_Node_exportDefaultDeclaration.2 ⟨h0, h1⟩
@[al] theorem al_Node_exportNamedDeclaration {declaration : Option Node} {specifiers : List ExportSpecifier} {source : Option Literal} {span : Span} :
    Al P (Node.exportNamedDeclaration declaration specifiers source span) ↔ Al P declaration ∧ Al P specifiers ∧ Al P source ∧ Al P span := by
  simp only [al_def, Sp.all, allNode, allOptNode_iff]
instance {declaration : Option Node} {specifiers : List ExportSpecifier} {source : Option Literal} {span : Span} [h0 : Al P declaration] [h1 : Al P specifiers] [h2 : Al P source] [h3 : Al P span] : Al P (Node.exportNamedDeclaration declaration specifiers source span) := al_Node_exportNamedDeclaration.2 ⟨h0, h1, h2, h3⟩
@[al] theorem al_Node_importDeclaration {specifiers : List ImportDeclarationSpecifier} {source : Literal} {span : Span} :
    Al P (Node.importDeclaration specifiers source span) ↔ Al P specifiers ∧ Al P source ∧ Al P span := by
  simp only [al_def, Sp.all, allNode]
instance {specifiers : List ImportDeclarationSpecifier} {source : Literal} {span : Span} [h0 : Al P specifiers] [h1 : Al P source] [h2 : Al P span] : Al P (Node.importDeclaration specifiers source span) := al_Node_importDeclaration.2 ⟨h0, h1, h2⟩
@[al] theorem al_Node_importDefaultSpecifier {loc : Identifier} {span : Span} :
    Al P (Node.importDefaultSpecifier loc span) ↔ Al P loc ∧ Al P span := by
  simp only [al_def, Sp.all, allNode]
instance {loc : Identifier} {span : Span} [h0 : Al P loc] [h1 : Al P span] : Al P (Node.importDefaultSpecifier loc span) := al_Node_importDefaultSpecifier.2 ⟨h0, h1⟩
@[al] theorem al_Node_importNamespaceSpecifier {loc : Identifier} {span : Span} :
    Al P (Node.importNamespaceSpecifier loc span) ↔ Al P loc ∧ Al P span := by
  simp only [al_def, Sp.all, allNode]
instance {loc : Identifier} {span : Span} [h0 : Al P loc] [h1 : Al P span] : Al P (Node.importNamespaceSpecifier loc span) := al_Node_importNamespaceSpecifier.2 ⟨h0, h1⟩
@[al] theorem al_Node_importSpecifier {loc : Identifier} {imported : Identifier} {span : Span} :
    Al P (Node.importSpecifier loc imported span) ↔ Al P loc ∧ Al P imported ∧ Al P span := by
  simp only [al_def, Sp.all, allNode]
instance {loc : Identifier} {imported : Identifier} {span : Span} [h0 : Al P loc] [h1 : Al P imported] [h2 : Al P span] : Al P (Node.importSpecifier loc imported span) := al_Node_importSpecifier.2 ⟨h0, h1, h2⟩
@[al] theorem al_Node_labeledStatement {label : Identifier} {body : Node} {span : Span} :
    Al P (Node.labeledStatement label body span) ↔ Al P label ∧ Al P body ∧ Al P span := by
  simp only [al_def, Sp.all, allNode]
instance {label : Identifier} {body : Node} {span : Span} [h0 : Al P label] [h1 : Al P body] [h2 : Al P span] : Al P (Node.labeledStatement label body span) := al_Node_labeledStatement.2 ⟨h0, h1, h2⟩
@[al] theorem al_Node_moduleNode {body : List Node} {sourceType : Str} {span : Span} :
    Al P (Node.moduleNode body sourceType span) ↔ Al P body ∧ Al P span := by
  simp only [al_def, Sp.all, allNode, allListNode_iff]
instance {body : List Node} {sourceType : Str} {span : Span} [h0 : Al P body] [h1 : Al P span] : Al P (Node.moduleNode body sourceType span) := al_Node_moduleNode.2 ⟨h0, h1⟩
@[al] theorem al_Node_program {body : List Node} {sourceType : Str} {span : Span} :
    Al P (Node.program body sourceType span) ↔ Al P body ∧ Al P span := by
  simp only [al_def, Sp.all, allNode, allListNode_iff]
instance {body : List Node} {sourceType : Str} {span : Span} [h0 : Al P body] [h1 : Al P span] : Al P (Node.program body sourceType span) := al_Node_program.2 ⟨h0, h1⟩
@[al] theorem al_Binding_bindingIdentifier {name : Str} {span : Span} :
    Al P (Binding.bindingIdentifier name span) ↔ Al P span := by
  simp only [al_def, Sp.all, allBinding]
@[al] theorem al_Binding_arrayPattern {elements : List (Option ArrayPatternElement)} {span : Span} :
    Al P (Binding.arrayPattern elements span) ↔ Al P elements ∧ Al P span := by
  simp only [al_def, Sp.all, allBinding, allHolesArrayPatternElement_iff]
@[al] theorem al_Binding_objectPattern {properties : List ObjectPatternProperty} {span : Span} :
    Al P (Binding.objectPattern properties span) ↔ Al P properties ∧ Al P span := by
  simp only [al_def, Sp.all, allBinding, allListObjectPatternProperty_iff]
@[al] theorem al_Binding_expression {node : Node} :
    Al P (Binding.expression node) ↔ Al P node := by
  simp only [al_def, Sp.all, allBinding]
@[al] theorem al_ArrayExpressionElement_expression {node : Node} :
    Al P (ArrayExpressionElement.expression node) ↔ Al P node := by
  simp only [al_def, Sp.all, allArrayExpressionElement]
@[al] theorem al_ArrayExpressionElement_spreadElement {argument : Node} {span : Span} :
    Al P (ArrayExpressionElement.spreadElement argument span) ↔ Al P argument ∧ Al P span := by
  simp only [al_def, Sp.all, allArrayExpressionElement]
@[al] theorem al_ArrayPatternElement_assignmentPattern {left : Binding} {right : Node} :
    Al P (ArrayPatternElement.assignmentPattern left right) ↔ Al P left ∧ Al P right := by
  simp only [al_def, Sp.all, allArrayPatternElement]
@[al] theorem al_ArrayPatternElement_bindingIdentifier {name : Str} :
    Al P (ArrayPatternElement.bindingIdentifier name) ↔ True := by
  simp only [al_def, Sp.all, allArrayPatternElement]
@[al] theorem al_ArrayPatternElement_arrayPattern {elements : List (Option ArrayPatternElement)} :
    Al P (ArrayPatternElement.arrayPattern elements) ↔ Al P elements := by
  simp only [al_def, Sp.all, allArrayPatternElement, allHolesArrayPatternElement_iff]
@[al] theorem al_ArrayPatternElement_objectPattern {properties : List ObjectPatternProperty} :
    Al P (ArrayPatternElement.objectPattern properties) ↔ Al P properties := by
  simp only [al_def, Sp.all, allArrayPatternElement, allListObjectPatternProperty_iff]
@[al] theorem al_ArrayPatternElement_restElement {argument : Binding} :
    Al P (ArrayPatternElement.restElement argument) ↔ Al P argument := by
  simp only [al_def, Sp.all, allArrayPatternElement]
@[al] theorem al_ArrayAssignmentPatternElement_expression {node : Node} :
    Al P (ArrayAssignmentPatternElement.expression node) ↔ Al P node := by
  simp only [al_def, Sp.all, allArrayAssignmentPatternElement]
@[al] theorem al_ArrayAssignmentPatternElement_restElement {argument : Binding} :
    Al P (ArrayAssignmentPatternElement.restElement argument) ↔ Al P argument := by
  simp only [al_def, Sp.all, allArrayAssignmentPatternElement]
@[al] theorem al_PropertyKey_identifier {id : Identifier} :
    Al P (PropertyKey.identifier id) ↔ Al P id := by
  simp only [al_def, Sp.all, allPropertyKey]
@[al] theorem al_PropertyKey_literal {lit : Literal} :
    Al P (PropertyKey.literal lit) ↔ Al P lit := by
  simp only [al_def, Sp.all, allPropertyKey]
@[al] theorem al_PropertyKey_expression {node : Node} :
    Al P (PropertyKey.expression node) ↔ Al P node := by
  simp only [al_def, Sp.all, allPropertyKey]
@[al] theorem al_FnExpr_mk {id : Option Node} {params : List FunctionParameter} {body : Node} {generator : Bool} {expression : Bool} {async : Bool} :
    Al P (FnExpr.mk id params body generator expression async) ↔ Al P id ∧ Al P params ∧ Al P body := by
  simp only [al_def, Sp.all, allFnExpr, allListFunctionParameter_iff, allOptNode_iff]
@[al] theorem al_PropertyValue_assignmentPattern {left : Binding} {right : Node} :
    Al P (PropertyValue.assignmentPattern left right) ↔ Al P left ∧ Al P right := by
  simp only [al_def, Sp.all, allPropertyValue]
@[al] theorem al_PropertyValue_asyncFunctionExpression {f : FnExpr} :
    Al P (PropertyValue.asyncFunctionExpression f) ↔ Al P f := by
  simp only [al_def, Sp.all, allPropertyValue]
@[al] theorem al_PropertyValue_bindingIdentifier {name : Str} {span : Span} :
    Al P (PropertyValue.bindingIdentifier name span) ↔ Al P span := by
  simp only [al_def, Sp.all, allPropertyValue]
@[al] theorem al_PropertyValue_bindingPattern {p : BindingPattern} :
    Al P (PropertyValue.bindingPattern p) ↔ Al P p := by
  simp only [al_def, Sp.all, allPropertyValue]
@[al] theorem al_PropertyValue_functionExpression {f : FnExpr} :
    Al P (PropertyValue.functionExpression f) ↔ Al P f := by
  simp only [al_def, Sp.all, allPropertyValue]
@[al] theorem al_PropertyValue_expression {node : Node} :
    Al P (PropertyValue.expression node) ↔ Al P node := by
  simp only [al_def, Sp.all, allPropertyValue]
@[al] theorem al_ObjectPatternProperty_property {key : PropertyKey} {computed : Bool} {value : Option PropertyValue} {kind : Str} {method : Bool} {shorthand : Bool} :
    Al P (ObjectPatternProperty.property key computed value kind method shorthand) ↔ Al P key ∧ Al P value := by
  simp only [al_def, Sp.all, allObjectPatternProperty, allOptPropertyValue_iff]
@[al] theorem al_ObjectPatternProperty_restElement {argument : Binding} :
    Al P (ObjectPatternProperty.restElement argument) ↔ Al P argument := by
  simp only [al_def, Sp.all, allObjectPatternProperty]
@[al] theorem al_BindingPattern_arrayPattern {elements : List (Option ArrayPatternElement)} :
    Al P (BindingPattern.arrayPattern elements) ↔ Al P elements := by
  simp only [al_def, Sp.all, allBindingPattern, allHolesArrayPatternElement_iff]
@[al] theorem al_BindingPattern_objectPattern {properties : List ObjectPatternProperty} :
    Al P (BindingPattern.objectPattern properties) ↔ Al P properties := by
  simp only [al_def, Sp.all, allBindingPattern, allListObjectPatternProperty_iff]
@[al] theorem al_FunctionParameter_assignmentPattern {left : Binding} {right : Node} :
    Al P (FunctionParameter.assignmentPattern left right) ↔ Al P left ∧ Al P right := by
  simp only [al_def, Sp.all, allFunctionParameter]
@[al] theorem al_FunctionParameter_bindingIdentifier {name : Str} :
    Al P (FunctionParameter.bindingIdentifier name) ↔ True := by
  simp only [al_def, Sp.all, allFunctionParameter]
@[al] theorem al_FunctionParameter_arrayPattern {elements : List (Option ArrayPatternElement)} :
    Al P (FunctionParameter.arrayPattern elements) ↔ Al P elements := by
  simp only [al_def, Sp.all, allFunctionParameter, allHolesArrayPatternElement_iff]
@[al] theorem al_FunctionParameter_objectPattern {properties : List ObjectPatternProperty} :
    Al P (FunctionParameter.objectPattern properties) ↔ Al P properties := by
  simp only [al_def, Sp.all, allFunctionParameter, allListObjectPatternProperty_iff]
@[al] theorem al_FunctionParameter_restElement {argument : Binding} :
    Al P (FunctionParameter.restElement argument) ↔ Al P argument := by
  simp only [al_def, Sp.all, allFunctionParameter]
@[al] theorem al_ArgumentListElement_expression {node : Node} :
    Al P (ArgumentListElement.expression node) ↔ Al P node := by
  simp only [al_def, Sp.all, allArgumentListElement]
@[al] theorem al_ArgumentListElement_spreadElement {argument : Node} {span : Span} :
    Al P (ArgumentListElement.spreadElement argument span) ↔ Al P argument ∧ Al P span := by
  simp only [al_def, Sp.all, allArgumentListElement]
@[al] theorem al_ObjectExpressionProperty_property {key : PropertyKey} {computed : Bool} {value : Option PropertyValue} {kind : Str} {method : Bool} {shorthand : Bool} {span : Span} :
    Al P (ObjectExpressionProperty.property key computed value kind method shorthand span) ↔ Al P key ∧ Al P value ∧ Al P span := by
  simp only [al_def, Sp.all, allObjectExpressionProperty, allOptPropertyValue_iff]
@[al] theorem al_ObjectExpressionProperty_spreadElement {argument : Node} {span : Span} :
    Al P (ObjectExpressionProperty.spreadElement argument span) ↔ Al P argument ∧ Al P span := by
  simp only [al_def, Sp.all, allObjectExpressionProperty]
@[al] theorem al_MethodDefinition_mk {key : Node} {computed : Bool} {value : Option FnExpr} {kind : Str} {static : Bool} :
    Al P (MethodDefinition.mk key computed value kind static) ↔ Al P key ∧ Al P value := by
  simp only [al_def, Sp.all, allMethodDefinition, allOptFnExpr_iff]
@[al] theorem al_SwitchCase_mk {test : Option Node} {consequent : List Node} :
    Al P (SwitchCase.mk test consequent) ↔ Al P test ∧ Al P consequent := by
  simp only [al_def, Sp.all, allSwitchCase, allListNode_iff, allOptNode_iff]
@[al] theorem al_VariableDeclarator_mk {id : Binding} {init : Option Node} :
    Al P (VariableDeclarator.mk id init) ↔ Al P id ∧ Al P init := by
  simp only [al_def, Sp.all, allVariableDeclarator, allOptNode_iff]
@[al] theorem al_CatchClause_mk {param : Option Binding} {body : Node} :
    Al P (CatchClause.mk param body) ↔ Al P param ∧ Al P body := by
  simp only [al_def, Sp.all, allCatchClause, allOptBinding_iff]
instance {a : α} [h : Al P a] : Al P (some a) := al_some.2 h
instance : Al P (none : Option α) := al_none.2 trivial
instance : Al P ([] : List α) := al_nil.2 trivial
instance {a : α} {l : List α} [h : Al P a] [h' : Al P l] : Al P (a :: l) := al_cons.2 ⟨h, h'⟩

end Pos
end Giron

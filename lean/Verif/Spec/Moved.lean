import Verif.Model.Estree
/-
Moved trees: `moveNode d ℓ` and its companions move every position of a tree by `d` characters and `ℓ` lines, and
change nothing else.
-/
namespace Giron

/-- the error with its line moved -/
def Error.moved (ℓ : Nat) (e : Error) : Error := { e with line := e.line + ℓ }

/-- the failure with its line moved -/
def Fail.moved (ℓ : Nat) : Fail → Fail
  | .err e => .err (e.moved ℓ)
  | .panic p => .panic p
  | .fuel => .fuel

namespace Spec

/-- a position moved by `d` characters and `ℓ` lines; columns stay -/
def moveMarker (d ℓ : Nat) (m : Marker) : Marker := ⟨m.line + ℓ, m.col, m.idx + d⟩
/-- a span moved -/
def moveSpan (d ℓ : Nat) (s : Span) : Span := ⟨moveMarker d ℓ s.start, moveMarker d ℓ s.end⟩
/-- an identifier moved -/
def moveIdentifier (d ℓ : Nat) (i : Identifier) : Identifier := ⟨i.name, moveSpan d ℓ i.span⟩
/-- a literal moved -/
def moveLiteral (d ℓ : Nat) (l : Literal) : Literal := ⟨l.value, l.raw, moveSpan d ℓ l.span⟩
/-- an export specifier moved -/
def moveExportSpecifier (d ℓ : Nat) (e : ExportSpecifier) : ExportSpecifier :=
  ⟨moveIdentifier d ℓ e.exported, moveIdentifier d ℓ e.loc⟩
/-- an import specifier moved -/
def moveImportSpecifier (d ℓ : Nat) : ImportDeclarationSpecifier → ImportDeclarationSpecifier
  | .importDefaultSpecifier l => .importDefaultSpecifier (moveIdentifier d ℓ l)
  | .importNamespaceSpecifier l => .importNamespaceSpecifier (moveIdentifier d ℓ l)
  | .importSpecifier l i => .importSpecifier (moveIdentifier d ℓ l) (moveIdentifier d ℓ i)

mutual

/-- `Node` moved -/
def moveNode (d ℓ : Nat) : Node → Node
  | .arrayExpression elements att span => .arrayExpression (moveHolesArrayExpressionElement d ℓ elements) att (moveSpan d ℓ span)
  | .arrayPattern elements att span => .arrayPattern (moveHolesArrayPatternElement d ℓ elements) att (moveSpan d ℓ span)
  | .arrayAssignmentPattern elements att span =>
    .arrayAssignmentPattern (moveHolesArrayAssignmentPatternElement d ℓ elements) att (moveSpan d ℓ span)
  | .arrowFunctionExpression id params body generator expression async att span =>
    .arrowFunctionExpression (moveOptNode d ℓ id) (moveListFunctionParameter d ℓ params) (moveNode d ℓ body) generator expression async att (moveSpan d ℓ span)
  | .assignmentExpression operator left right att span =>
    .assignmentExpression operator (moveNode d ℓ left) (moveNode d ℓ right) att (moveSpan d ℓ span)
  | .assignmentPattern left right span => .assignmentPattern (moveBinding d ℓ left) (moveNode d ℓ right) (moveSpan d ℓ span)
  | .assignmentRestElement argument span => .assignmentRestElement (moveNode d ℓ argument) (moveSpan d ℓ span)
  | .asyncArrowFunctionExpression id params body generator expression async att span =>
    .asyncArrowFunctionExpression (moveOptNode d ℓ id) (moveListFunctionParameter d ℓ params) (moveNode d ℓ body) generator expression async att (moveSpan d ℓ span)
  | .asyncFunctionExpression id params body generator expression async att span =>
    .asyncFunctionExpression (moveOptNode d ℓ id) (moveListFunctionParameter d ℓ params) (moveNode d ℓ body) generator expression async att (moveSpan d ℓ span)
  | .awaitExpression argument span => .awaitExpression (moveNode d ℓ argument) (moveSpan d ℓ span)
  | .binaryExpression operator left right att span =>
    .binaryExpression operator (moveNode d ℓ left) (moveNode d ℓ right) att (moveSpan d ℓ span)
  | .bindingIdentifier name span => .bindingIdentifier name (moveSpan d ℓ span)
  | .logicalExpression operator left right span =>
    .logicalExpression operator (moveNode d ℓ left) (moveNode d ℓ right) (moveSpan d ℓ span)
  | .callExpression callee arguments att span =>
    .callExpression (moveNode d ℓ callee) (moveListArgumentListElement d ℓ arguments) att (moveSpan d ℓ span)
  | .classExpression id superClass body att span =>
    .classExpression (moveOptNode d ℓ id) (moveOptNode d ℓ superClass) (moveListMethodDefinition d ℓ body) att (moveSpan d ℓ span)
  | .computedMemberExpression computed object property att span =>
    .computedMemberExpression computed (moveNode d ℓ object) (moveNode d ℓ property) att (moveSpan d ℓ span)
  | .conditionalExpression test consequent alternate span =>
    .conditionalExpression (moveNode d ℓ test) (moveNode d ℓ consequent) (moveNode d ℓ alternate) (moveSpan d ℓ span)
  | .identifier name att span => .identifier name att (moveSpan d ℓ span)
  | .functionExpression id params body generator expression async att span =>
    .functionExpression (moveOptNode d ℓ id) (moveListFunctionParameter d ℓ params) (moveNode d ℓ body) generator expression async att (moveSpan d ℓ span)
  | .literal value raw att span => .literal value raw att (moveSpan d ℓ span)
  | .newExpression callee arguments att span =>
    .newExpression (moveNode d ℓ callee) (moveListArgumentListElement d ℓ arguments) att (moveSpan d ℓ span)
  | .objectExpression properties att span =>
    .objectExpression (moveListObjectExpressionProperty d ℓ properties) att (moveSpan d ℓ span)
  | .objectPattern properties att span => .objectPattern (moveListObjectPatternProperty d ℓ properties) att (moveSpan d ℓ span)
  | .regexLiteral value raw regex att span => .regexLiteral value raw regex att (moveSpan d ℓ span)
  | .sequenceExpression expressions att span => .sequenceExpression (moveListNode d ℓ expressions) att (moveSpan d ℓ span)
  | .staticMemberExpression computed object property att span =>
    .staticMemberExpression computed (moveNode d ℓ object) (moveNode d ℓ property) att (moveSpan d ℓ span)
  | .taggedTemplateExpression tag quasis expressions span =>
    .taggedTemplateExpression (moveNode d ℓ tag) quasis (moveListNode d ℓ expressions) (moveSpan d ℓ span)
  | .thisExpression att span => .thisExpression att (moveSpan d ℓ span)
  | .unaryExpression operator argument isPrefix att span =>
    .unaryExpression operator (moveNode d ℓ argument) isPrefix att (moveSpan d ℓ span)
  | .updateExpression operator argument isPrefix att span =>
    .updateExpression operator (moveNode d ℓ argument) isPrefix att (moveSpan d ℓ span)
  | .yieldExpression argument delegate att span => .yieldExpression (moveOptNode d ℓ argument) delegate att (moveSpan d ℓ span)
  | .arrowParameterPlaceHolder params async span =>
    .arrowParameterPlaceHolder (moveListFunctionParameter d ℓ params) async (moveSpan d ℓ span)
  | .restElement argument span => .restElement (moveBinding d ℓ argument) (moveSpan d ℓ span)
  | .spreadElement argument span => .spreadElement (moveNode d ℓ argument) (moveSpan d ℓ span)
  | .super att span => .super att (moveSpan d ℓ span)
  | .templateLiteral quasis expressions att span => .templateLiteral quasis (moveListNode d ℓ expressions) att (moveSpan d ℓ span)
  | .metaProperty metaId property att span => .metaProperty (moveNode d ℓ metaId) (moveNode d ℓ property) att (moveSpan d ℓ span)
  | .asyncFunctionDeclaration id params body generator expression async span =>
    .asyncFunctionDeclaration (moveOptNode d ℓ id) (moveListFunctionParameter d ℓ params) (moveNode d ℓ body) generator expression async (moveSpan d ℓ span)
  | .breakStatement label span => .breakStatement (moveOptNode d ℓ label) (moveSpan d ℓ span)
  | .continueStatement label span => .continueStatement (moveOptNode d ℓ label) (moveSpan d ℓ span)
  | .debuggerStatement span => .debuggerStatement (moveSpan d ℓ span)
  | .doWhileStatement body test span => .doWhileStatement (moveNode d ℓ body) (moveNode d ℓ test) (moveSpan d ℓ span)
  | .emptyStatement span => .emptyStatement (moveSpan d ℓ span)
  | .expressionStatement expression span => .expressionStatement (moveNode d ℓ expression) (moveSpan d ℓ span)
  | .directive expression directive span => .directive (moveNode d ℓ expression) directive (moveSpan d ℓ span)
  | .forStatement init test update body span =>
    .forStatement (moveOptNode d ℓ init) (moveOptNode d ℓ test) (moveOptNode d ℓ update) (moveNode d ℓ body) (moveSpan d ℓ span)
  | .forInStatement left right body each span =>
    .forInStatement (moveNode d ℓ left) (moveNode d ℓ right) (moveNode d ℓ body) each (moveSpan d ℓ span)
  | .forOfStatement left right body span =>
    .forOfStatement (moveNode d ℓ left) (moveNode d ℓ right) (moveNode d ℓ body) (moveSpan d ℓ span)
  | .functionDeclaration id params body generator expression async span =>
    .functionDeclaration (moveOptNode d ℓ id) (moveListFunctionParameter d ℓ params) (moveNode d ℓ body) generator expression async (moveSpan d ℓ span)
  | .ifStatement test consequent alternate span =>
    .ifStatement (moveNode d ℓ test) (moveNode d ℓ consequent) (moveOptNode d ℓ alternate) (moveSpan d ℓ span)
  | .returnStatement argument span => .returnStatement (moveOptNode d ℓ argument) (moveSpan d ℓ span)
  | .switchStatement discriminant cases span =>
    .switchStatement (moveNode d ℓ discriminant) (moveListSwitchCase d ℓ cases) (moveSpan d ℓ span)
  | .throwStatement argument span => .throwStatement (moveNode d ℓ argument) (moveSpan d ℓ span)
  | .tryStatement block handler finalizer span =>
    .tryStatement (moveNode d ℓ block) (moveOptCatchClause d ℓ handler) (moveOptNode d ℓ finalizer) (moveSpan d ℓ span)
  | .variableDeclaration declarations kind span =>
    .variableDeclaration (moveListVariableDeclarator d ℓ declarations) kind (moveSpan d ℓ span)
  | .whileStatement test body span => .whileStatement (moveNode d ℓ test) (moveNode d ℓ body) (moveSpan d ℓ span)
  | .withStatement object body span => .withStatement (moveNode d ℓ object) (moveNode d ℓ body) (moveSpan d ℓ span)
  | .blockStatement body span => .blockStatement (moveListNode d ℓ body) (moveSpan d ℓ span)
  | .classDeclaration id superClass body span =>
    .classDeclaration (moveOptNode d ℓ id) (moveOptNode d ℓ superClass) (moveListMethodDefinition d ℓ body) (moveSpan d ℓ span)
  | .exportAllDeclaration source span => .exportAllDeclaration (moveLiteral d ℓ source) (moveSpan d ℓ span)
  | .exportDefaultDeclaration declaration span => .exportDefaultDeclaration (moveNode d ℓ declaration) (moveSpan d ℓ span)
  | .exportNamedDeclaration declaration specifiers source span =>
    .exportNamedDeclaration (moveOptNode d ℓ declaration) (specifiers.map (moveExportSpecifier d ℓ)) (source.map (moveLiteral d ℓ)) (moveSpan d ℓ span)
  | .importDeclaration specifiers source span =>
    .importDeclaration (specifiers.map (moveImportSpecifier d ℓ)) (moveLiteral d ℓ source) (moveSpan d ℓ span)
  | .importDefaultSpecifier loc span => .importDefaultSpecifier (moveIdentifier d ℓ loc) (moveSpan d ℓ span)
  | .importNamespaceSpecifier loc span => .importNamespaceSpecifier (moveIdentifier d ℓ loc) (moveSpan d ℓ span)
  | .importSpecifier loc imported span => .importSpecifier (moveIdentifier d ℓ loc) (moveIdentifier d ℓ imported) (moveSpan d ℓ span)
  | .labeledStatement label body span => .labeledStatement (moveIdentifier d ℓ label) (moveNode d ℓ body) (moveSpan d ℓ span)
  | .moduleNode body sourceType span => .moduleNode (moveListNode d ℓ body) sourceType (moveSpan d ℓ span)
  | .program body sourceType span => .program (moveListNode d ℓ body) sourceType (moveSpan d ℓ span)
termination_by structural x => x

/-- `Binding` moved -/
def moveBinding (d ℓ : Nat) : Binding → Binding
  | .bindingIdentifier name span => .bindingIdentifier name (moveSpan d ℓ span)
  | .arrayPattern elements span => .arrayPattern (moveHolesArrayPatternElement d ℓ elements) (moveSpan d ℓ span)
  | .objectPattern properties span => .objectPattern (moveListObjectPatternProperty d ℓ properties) (moveSpan d ℓ span)
  | .expression node => .expression (moveNode d ℓ node)
termination_by structural x => x

/-- `ArrayExpressionElement` moved -/
def moveArrayExpressionElement (d ℓ : Nat) : ArrayExpressionElement → ArrayExpressionElement
  | .expression node => .expression (moveNode d ℓ node)
  | .spreadElement argument span => .spreadElement (moveNode d ℓ argument) (moveSpan d ℓ span)
termination_by structural x => x

/-- `ArrayPatternElement` moved -/
def moveArrayPatternElement (d ℓ : Nat) : ArrayPatternElement → ArrayPatternElement
  | .assignmentPattern left right => .assignmentPattern (moveBinding d ℓ left) (moveNode d ℓ right)
  | .bindingIdentifier name => .bindingIdentifier name
  | .arrayPattern elements => .arrayPattern (moveHolesArrayPatternElement d ℓ elements)
  | .objectPattern properties => .objectPattern (moveListObjectPatternProperty d ℓ properties)
  | .restElement argument => .restElement (moveBinding d ℓ argument)
termination_by structural x => x

/-- `ArrayAssignmentPatternElement` moved -/
def moveArrayAssignmentPatternElement (d ℓ : Nat) : ArrayAssignmentPatternElement → ArrayAssignmentPatternElement
  | .expression node => .expression (moveNode d ℓ node)
  | .restElement argument => .restElement (moveBinding d ℓ argument)
termination_by structural x => x

/-- `PropertyKey` moved -/
def movePropertyKey (d ℓ : Nat) : PropertyKey → PropertyKey
  | .identifier id => .identifier (moveIdentifier d ℓ id)
  | .literal lit => .literal (moveLiteral d ℓ lit)
  | .expression node => .expression (moveNode d ℓ node)
termination_by structural x => x

/-- `FnExpr` moved -/
def moveFnExpr (d ℓ : Nat) : FnExpr → FnExpr
  | .mk id params body generator expression async =>
    .mk (moveOptNode d ℓ id) (moveListFunctionParameter d ℓ params) (moveNode d ℓ body) generator expression async
termination_by structural x => x

/-- `PropertyValue` moved -/
def movePropertyValue (d ℓ : Nat) : PropertyValue → PropertyValue
  | .assignmentPattern left right => .assignmentPattern (moveBinding d ℓ left) (moveNode d ℓ right)
  | .asyncFunctionExpression f => .asyncFunctionExpression (moveFnExpr d ℓ f)
  | .bindingIdentifier name span => .bindingIdentifier name (moveSpan d ℓ span)
  | .bindingPattern p => .bindingPattern (moveBindingPattern d ℓ p)
  | .functionExpression f => .functionExpression (moveFnExpr d ℓ f)
  | .expression node => .expression (moveNode d ℓ node)
termination_by structural x => x

/-- `ObjectPatternProperty` moved -/
def moveObjectPatternProperty (d ℓ : Nat) : ObjectPatternProperty → ObjectPatternProperty
  | .property key computed value kind method shorthand =>
    .property (movePropertyKey d ℓ key) computed (moveOptPropertyValue d ℓ value) kind method shorthand
  | .restElement argument => .restElement (moveBinding d ℓ argument)
termination_by structural x => x

/-- `BindingPattern` moved -/
def moveBindingPattern (d ℓ : Nat) : BindingPattern → BindingPattern
  | .arrayPattern elements => .arrayPattern (moveHolesArrayPatternElement d ℓ elements)
  | .objectPattern properties => .objectPattern (moveListObjectPatternProperty d ℓ properties)
termination_by structural x => x

/-- `FunctionParameter` moved -/
def moveFunctionParameter (d ℓ : Nat) : FunctionParameter → FunctionParameter
  | .assignmentPattern left right => .assignmentPattern (moveBinding d ℓ left) (moveNode d ℓ right)
  | .bindingIdentifier name => .bindingIdentifier name
  | .arrayPattern elements => .arrayPattern (moveHolesArrayPatternElement d ℓ elements)
  | .objectPattern properties => .objectPattern (moveListObjectPatternProperty d ℓ properties)
  | .restElement argument => .restElement (moveBinding d ℓ argument)
termination_by structural x => x

/-- `ArgumentListElement` moved -/
def moveArgumentListElement (d ℓ : Nat) : ArgumentListElement → ArgumentListElement
  | .expression node => .expression (moveNode d ℓ node)
  | .spreadElement argument span => .spreadElement (moveNode d ℓ argument) (moveSpan d ℓ span)
termination_by structural x => x

/-- `ObjectExpressionProperty` moved -/
def moveObjectExpressionProperty (d ℓ : Nat) : ObjectExpressionProperty → ObjectExpressionProperty
  | .property key computed value kind method shorthand span =>
    .property (movePropertyKey d ℓ key) computed (moveOptPropertyValue d ℓ value) kind method shorthand (moveSpan d ℓ span)
  | .spreadElement argument span => .spreadElement (moveNode d ℓ argument) (moveSpan d ℓ span)
termination_by structural x => x

/-- `MethodDefinition` moved -/
def moveMethodDefinition (d ℓ : Nat) : MethodDefinition → MethodDefinition
  | .mk key computed value kind static => .mk (moveNode d ℓ key) computed (moveOptFnExpr d ℓ value) kind static
termination_by structural x => x

/-- `SwitchCase` moved -/
def moveSwitchCase (d ℓ : Nat) : SwitchCase → SwitchCase
  | .mk test consequent => .mk (moveOptNode d ℓ test) (moveListNode d ℓ consequent)
termination_by structural x => x

/-- `VariableDeclarator` moved -/
def moveVariableDeclarator (d ℓ : Nat) : VariableDeclarator → VariableDeclarator
  | .mk id init => .mk (moveBinding d ℓ id) (moveOptNode d ℓ init)
termination_by structural x => x

/-- `CatchClause` moved -/
def moveCatchClause (d ℓ : Nat) : CatchClause → CatchClause
  | .mk param body => .mk (moveOptBinding d ℓ param) (moveNode d ℓ body)
termination_by structural x => x

/-- one, if there is one -/
def moveOptArrayExpressionElement (d ℓ : Nat) : Option ArrayExpressionElement → Option ArrayExpressionElement
  | none => none
  | some a => some (moveArrayExpressionElement d ℓ a)
termination_by structural x => x

/-- a list with holes -/
def moveHolesArrayExpressionElement (d ℓ : Nat) : List (Option ArrayExpressionElement) → List (Option ArrayExpressionElement)
  | [] => []
  | a :: l => moveOptArrayExpressionElement d ℓ a :: moveHolesArrayExpressionElement d ℓ l
termination_by structural x => x

/-- one, if there is one -/
def moveOptArrayPatternElement (d ℓ : Nat) : Option ArrayPatternElement → Option ArrayPatternElement
  | none => none
  | some a => some (moveArrayPatternElement d ℓ a)
termination_by structural x => x

/-- a list with holes -/
def moveHolesArrayPatternElement (d ℓ : Nat) : List (Option ArrayPatternElement) → List (Option ArrayPatternElement)
  | [] => []
  | a :: l => moveOptArrayPatternElement d ℓ a :: moveHolesArrayPatternElement d ℓ l
termination_by structural x => x

/-- one, if there is one -/
def moveOptArrayAssignmentPatternElement (d ℓ : Nat) : Option ArrayAssignmentPatternElement → Option ArrayAssignmentPatternElement
  | none => none
  | some a => some (moveArrayAssignmentPatternElement d ℓ a)
termination_by structural x => x

/-- a list with holes -/
def moveHolesArrayAssignmentPatternElement (d ℓ : Nat) : List (Option ArrayAssignmentPatternElement) → List (Option ArrayAssignmentPatternElement)
  | [] => []
  | a :: l => moveOptArrayAssignmentPatternElement d ℓ a :: moveHolesArrayAssignmentPatternElement d ℓ l
termination_by structural x => x

/-- one, if there is one -/
def moveOptNode (d ℓ : Nat) : Option Node → Option Node
  | none => none
  | some a => some (moveNode d ℓ a)
termination_by structural x => x

/-- a list of them -/
def moveListFunctionParameter (d ℓ : Nat) : List FunctionParameter → List FunctionParameter
  | [] => []
  | a :: l => moveFunctionParameter d ℓ a :: moveListFunctionParameter d ℓ l
termination_by structural x => x

/-- a list of them -/
def moveListArgumentListElement (d ℓ : Nat) : List ArgumentListElement → List ArgumentListElement
  | [] => []
  | a :: l => moveArgumentListElement d ℓ a :: moveListArgumentListElement d ℓ l
termination_by structural x => x

/-- a list of them -/
def moveListMethodDefinition (d ℓ : Nat) : List MethodDefinition → List MethodDefinition
  | [] => []
  | a :: l => moveMethodDefinition d ℓ a :: moveListMethodDefinition d ℓ l
termination_by structural x => x

/-- a list of them -/
def moveListObjectExpressionProperty (d ℓ : Nat) : List ObjectExpressionProperty → List ObjectExpressionProperty
  | [] => []
  | a :: l => moveObjectExpressionProperty d ℓ a :: moveListObjectExpressionProperty d ℓ l
termination_by structural x => x

/-- a list of them -/
def moveListObjectPatternProperty (d ℓ : Nat) : List ObjectPatternProperty → List ObjectPatternProperty
  | [] => []
  | a :: l => moveObjectPatternProperty d ℓ a :: moveListObjectPatternProperty d ℓ l
termination_by structural x => x

/-- a list of them -/
def moveListNode (d ℓ : Nat) : List Node → List Node
  | [] => []
  | a :: l => moveNode d ℓ a :: moveListNode d ℓ l
termination_by structural x => x

/-- a list of them -/
def moveListSwitchCase (d ℓ : Nat) : List SwitchCase → List SwitchCase
  | [] => []
  | a :: l => moveSwitchCase d ℓ a :: moveListSwitchCase d ℓ l
termination_by structural x => x

/-- one, if there is one -/
def moveOptCatchClause (d ℓ : Nat) : Option CatchClause → Option CatchClause
  | none => none
  | some a => some (moveCatchClause d ℓ a)
termination_by structural x => x

/-- a list of them -/
def moveListVariableDeclarator (d ℓ : Nat) : List VariableDeclarator → List VariableDeclarator
  | [] => []
  | a :: l => moveVariableDeclarator d ℓ a :: moveListVariableDeclarator d ℓ l
termination_by structural x => x

/-- one, if there is one -/
def moveOptPropertyValue (d ℓ : Nat) : Option PropertyValue → Option PropertyValue
  | none => none
  | some a => some (movePropertyValue d ℓ a)
termination_by structural x => x

/-- one, if there is one -/
def moveOptFnExpr (d ℓ : Nat) : Option FnExpr → Option FnExpr
  | none => none
  | some a => some (moveFnExpr d ℓ a)
termination_by structural x => x

/-- one, if there is one -/
def moveOptBinding (d ℓ : Nat) : Option Binding → Option Binding
  | none => none
  | some a => some (moveBinding d ℓ a)
termination_by structural x => x

end

@[simp] theorem moveOptArrayExpressionElement_eq (d ℓ : Nat) (o : Option ArrayExpressionElement) : moveOptArrayExpressionElement d ℓ o = o.map (moveArrayExpressionElement d ℓ) := by cases o <;> rfl

@[simp] theorem moveHolesArrayExpressionElement_eq (d ℓ : Nat) (l : List (Option ArrayExpressionElement)) : moveHolesArrayExpressionElement d ℓ l = l.map (Option.map (moveArrayExpressionElement d ℓ)) := by
  induction l with
  | nil => rfl
  | cons a l ih => rw [moveHolesArrayExpressionElement, ih, moveOptArrayExpressionElement_eq]; rfl

@[simp] theorem moveOptArrayPatternElement_eq (d ℓ : Nat) (o : Option ArrayPatternElement) : moveOptArrayPatternElement d ℓ o = o.map (moveArrayPatternElement d ℓ) := by cases o <;> rfl

@[simp] theorem moveHolesArrayPatternElement_eq (d ℓ : Nat) (l : List (Option ArrayPatternElement)) : moveHolesArrayPatternElement d ℓ l = l.map (Option.map (moveArrayPatternElement d ℓ)) := by
  induction l with
  | nil => rfl
  | cons a l ih => rw [moveHolesArrayPatternElement, ih, moveOptArrayPatternElement_eq]; rfl

@[simp] theorem moveOptArrayAssignmentPatternElement_eq (d ℓ : Nat) (o : Option ArrayAssignmentPatternElement) : moveOptArrayAssignmentPatternElement d ℓ o = o.map (moveArrayAssignmentPatternElement d ℓ) := by cases o <;> rfl

@[simp] theorem moveHolesArrayAssignmentPatternElement_eq (d ℓ : Nat) (l : List (Option ArrayAssignmentPatternElement)) : moveHolesArrayAssignmentPatternElement d ℓ l = l.map (Option.map (moveArrayAssignmentPatternElement d ℓ)) := by
  induction l with
  | nil => rfl
  | cons a l ih => rw [moveHolesArrayAssignmentPatternElement, ih, moveOptArrayAssignmentPatternElement_eq]; rfl

@[simp] theorem moveOptNode_eq (d ℓ : Nat) (o : Option Node) : moveOptNode d ℓ o = o.map (moveNode d ℓ) := by cases o <;> rfl

@[simp] theorem moveListFunctionParameter_eq (d ℓ : Nat) (l : List FunctionParameter) : moveListFunctionParameter d ℓ l = l.map (moveFunctionParameter d ℓ) := by
  induction l with
  | nil => rfl
  | cons a l ih => rw [moveListFunctionParameter, ih]; rfl

@[simp] theorem moveListArgumentListElement_eq (d ℓ : Nat) (l : List ArgumentListElement) : moveListArgumentListElement d ℓ l = l.map (moveArgumentListElement d ℓ) := by
  induction l with
  | nil => rfl
  | cons a l ih => rw [moveListArgumentListElement, ih]; rfl

@[simp] theorem moveListMethodDefinition_eq (d ℓ : Nat) (l : List MethodDefinition) : moveListMethodDefinition d ℓ l = l.map (moveMethodDefinition d ℓ) := by
  induction l with
  | nil => rfl
  | cons a l ih => rw [moveListMethodDefinition, ih]; rfl

@[simp] theorem moveListObjectExpressionProperty_eq (d ℓ : Nat) (l : List ObjectExpressionProperty) : moveListObjectExpressionProperty d ℓ l = l.map (moveObjectExpressionProperty d ℓ) := by
  induction l with
  | nil => rfl
  | cons a l ih => rw [moveListObjectExpressionProperty, ih]; rfl

@[simp] theorem moveListObjectPatternProperty_eq (d ℓ : Nat) (l : List ObjectPatternProperty) : moveListObjectPatternProperty d ℓ l = l.map (moveObjectPatternProperty d ℓ) := by
  induction l with
  | nil => rfl
  | cons a l ih => rw [moveListObjectPatternProperty, ih]; rfl

@[simp] theorem moveListNode_eq (d ℓ : Nat) (l : List Node) : moveListNode d ℓ l = l.map (moveNode d ℓ) := by
  induction l with
  | nil => rfl
  | cons a l ih => rw [moveListNode, ih]; rfl

@[simp] theorem moveListSwitchCase_eq (d ℓ : Nat) (l : List SwitchCase) : moveListSwitchCase d ℓ l = l.map (moveSwitchCase d ℓ) := by
  induction l with
  | nil => rfl
  | cons a l ih => rw [moveListSwitchCase, ih]; rfl

@[simp] theorem moveOptCatchClause_eq (d ℓ : Nat) (o : Option CatchClause) : moveOptCatchClause d ℓ o = o.map (moveCatchClause d ℓ) := by cases o <;> rfl

@[simp] theorem moveListVariableDeclarator_eq (d ℓ : Nat) (l : List VariableDeclarator) : moveListVariableDeclarator d ℓ l = l.map (moveVariableDeclarator d ℓ) := by
  induction l with
  | nil => rfl
  | cons a l ih => rw [moveListVariableDeclarator, ih]; rfl

@[simp] theorem moveOptPropertyValue_eq (d ℓ : Nat) (o : Option PropertyValue) : moveOptPropertyValue d ℓ o = o.map (movePropertyValue d ℓ) := by cases o <;> rfl

@[simp] theorem moveOptFnExpr_eq (d ℓ : Nat) (o : Option FnExpr) : moveOptFnExpr d ℓ o = o.map (moveFnExpr d ℓ) := by cases o <;> rfl

@[simp] theorem moveOptBinding_eq (d ℓ : Nat) (o : Option Binding) : moveOptBinding d ℓ o = o.map (moveBinding d ℓ) := by cases o <;> rfl



end Spec
end Giron

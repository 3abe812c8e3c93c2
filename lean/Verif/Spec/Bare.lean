import Verif.Model.Estree
/-
Trees without positions: `bareNode` and its companions replace every span by the default one and keep all the rest,
except `value` and `raw` of a `RegexLiteral`, which giron takes from the *following* token (parser.rs:2536-2537).
The JSON rendering has no positions either, but for those of the properties of an object literal.
-/
namespace Giron.Spec

/-- an identifier without its position -/
def bareIdentifier (i : Identifier) : Identifier := ⟨i.name, default⟩
/-- a literal without its position -/
def bareLiteral (l : Literal) : Literal := ⟨l.value, l.raw, default⟩
/-- an export specifier without positions -/
def bareExportSpecifier (e : ExportSpecifier) : ExportSpecifier := ⟨bareIdentifier e.exported, bareIdentifier e.loc⟩
/-- an import specifier without positions -/
def bareImportSpecifier : ImportDeclarationSpecifier → ImportDeclarationSpecifier
  | .importDefaultSpecifier l => .importDefaultSpecifier (bareIdentifier l)
  | .importNamespaceSpecifier l => .importNamespaceSpecifier (bareIdentifier l)
  | .importSpecifier l i => .importSpecifier (bareIdentifier l) (bareIdentifier i)

mutual

/-- `Node` without positions -/
def bareNode : Node → Node
  | .arrayExpression elements att _ => .arrayExpression (bareHolesArrayExpressionElement elements) att default
  | .arrayPattern elements att _ => .arrayPattern (bareHolesArrayPatternElement elements) att default
  | .arrayAssignmentPattern elements att _ =>
    .arrayAssignmentPattern (bareHolesArrayAssignmentPatternElement elements) att default
  | .arrowFunctionExpression id params body generator expression async att _ =>
    .arrowFunctionExpression (bareOptNode id) (bareListFunctionParameter params) (bareNode body) generator expression async att default
  | .assignmentExpression operator left right att _ =>
    .assignmentExpression operator (bareNode left) (bareNode right) att default
  | .assignmentPattern left right _ => .assignmentPattern (bareBinding left) (bareNode right) default
  | .assignmentRestElement argument _ => .assignmentRestElement (bareNode argument) default
  | .asyncArrowFunctionExpression id params body generator expression async att _ =>
    .asyncArrowFunctionExpression (bareOptNode id) (bareListFunctionParameter params) (bareNode body) generator expression async att default
  | .asyncFunctionExpression id params body generator expression async att _ =>
    .asyncFunctionExpression (bareOptNode id) (bareListFunctionParameter params) (bareNode body) generator expression async att default
  | .awaitExpression argument _ => .awaitExpression (bareNode argument) default
  | .binaryExpression operator left right att _ =>
    .binaryExpression operator (bareNode left) (bareNode right) att default
  | .bindingIdentifier name _ => .bindingIdentifier name default
  | .logicalExpression operator left right _ =>
    .logicalExpression operator (bareNode left) (bareNode right) default
  | .callExpression callee arguments att _ =>
    .callExpression (bareNode callee) (bareListArgumentListElement arguments) att default
  | .classExpression id superClass body att _ =>
    .classExpression (bareOptNode id) (bareOptNode superClass) (bareListMethodDefinition body) att default
  | .computedMemberExpression computed object property att _ =>
    .computedMemberExpression computed (bareNode object) (bareNode property) att default
  | .conditionalExpression test consequent alternate _ =>
    .conditionalExpression (bareNode test) (bareNode consequent) (bareNode alternate) default
  | .identifier name att _ => .identifier name att default
  | .functionExpression id params body generator expression async att _ =>
    .functionExpression (bareOptNode id) (bareListFunctionParameter params) (bareNode body) generator expression async att default
  | .literal value raw att _ => .literal value raw att default
  | .newExpression callee arguments att _ =>
    .newExpression (bareNode callee) (bareListArgumentListElement arguments) att default
  | .objectExpression properties att _ =>
    .objectExpression (bareListObjectExpressionProperty properties) att default
  | .objectPattern properties att _ => .objectPattern (bareListObjectPatternProperty properties) att default
  | .regexLiteral _ _ regex att _ => .regexLiteral [] [] regex att default
  | .sequenceExpression expressions att _ => .sequenceExpression (bareListNode expressions) att default
  | .staticMemberExpression computed object property att _ =>
    .staticMemberExpression computed (bareNode object) (bareNode property) att default
  | .taggedTemplateExpression tag quasis expressions _ =>
    .taggedTemplateExpression (bareNode tag) quasis (bareListNode expressions) default
  | .thisExpression att _ => .thisExpression att default
  | .unaryExpression operator argument isPrefix att _ =>
    .unaryExpression operator (bareNode argument) isPrefix att default
  | .updateExpression operator argument isPrefix att _ =>
    .updateExpression operator (bareNode argument) isPrefix att default
  | .yieldExpression argument delegate att _ => .yieldExpression (bareOptNode argument) delegate att default
  | .arrowParameterPlaceHolder params async _ =>
    .arrowParameterPlaceHolder (bareListFunctionParameter params) async default
  | .restElement argument _ => .restElement (bareBinding argument) default
  | .spreadElement argument _ => .spreadElement (bareNode argument) default
  | .super att _ => .super att default
  | .templateLiteral quasis expressions att _ => .templateLiteral quasis (bareListNode expressions) att default
  | .metaProperty metaId property att _ => .metaProperty (bareNode metaId) (bareNode property) att default
  | .asyncFunctionDeclaration id params body generator expression async _ =>
    .asyncFunctionDeclaration (bareOptNode id) (bareListFunctionParameter params) (bareNode body) generator expression async default
  | .breakStatement label _ => .breakStatement (bareOptNode label) default
  | .continueStatement label _ => .continueStatement (bareOptNode label) default
  | .debuggerStatement _ => .debuggerStatement default
  | .doWhileStatement body test _ => .doWhileStatement (bareNode body) (bareNode test) default
  | .emptyStatement _ => .emptyStatement default
  | .expressionStatement expression _ => .expressionStatement (bareNode expression) default
  | .directive expression directive _ => .directive (bareNode expression) directive default
  | .forStatement init test update body _ =>
    .forStatement (bareOptNode init) (bareOptNode test) (bareOptNode update) (bareNode body) default
  | .forInStatement left right body each _ =>
    .forInStatement (bareNode left) (bareNode right) (bareNode body) each default
  | .forOfStatement left right body _ =>
    .forOfStatement (bareNode left) (bareNode right) (bareNode body) default
  | .functionDeclaration id params body generator expression async _ =>
    .functionDeclaration (bareOptNode id) (bareListFunctionParameter params) (bareNode body) generator expression async default
  | .ifStatement test consequent alternate _ =>
    .ifStatement (bareNode test) (bareNode consequent) (bareOptNode alternate) default
  | .returnStatement argument _ => .returnStatement (bareOptNode argument) default
  | .switchStatement discriminant cases _ =>
    .switchStatement (bareNode discriminant) (bareListSwitchCase cases) default
  | .throwStatement argument _ => .throwStatement (bareNode argument) default
  | .tryStatement block handler finalizer _ =>
    .tryStatement (bareNode block) (bareOptCatchClause handler) (bareOptNode finalizer) default
  | .variableDeclaration declarations kind _ =>
    .variableDeclaration (bareListVariableDeclarator declarations) kind default
  | .whileStatement test body _ => .whileStatement (bareNode test) (bareNode body) default
  | .withStatement object body _ => .withStatement (bareNode object) (bareNode body) default
  | .blockStatement body _ => .blockStatement (bareListNode body) default
  | .classDeclaration id superClass body _ =>
    .classDeclaration (bareOptNode id) (bareOptNode superClass) (bareListMethodDefinition body) default
  | .exportAllDeclaration source _ => .exportAllDeclaration (bareLiteral source) default
  | .exportDefaultDeclaration declaration _ => .exportDefaultDeclaration (bareNode declaration) default
  | .exportNamedDeclaration declaration specifiers source _ =>
    .exportNamedDeclaration (bareOptNode declaration) (specifiers.map bareExportSpecifier) (source.map bareLiteral) default
  | .importDeclaration specifiers source _ =>
    .importDeclaration (specifiers.map bareImportSpecifier) (bareLiteral source) default
  | .importDefaultSpecifier loc _ => .importDefaultSpecifier (bareIdentifier loc) default
  | .importNamespaceSpecifier loc _ => .importNamespaceSpecifier (bareIdentifier loc) default
  | .importSpecifier loc imported _ => .importSpecifier (bareIdentifier loc) (bareIdentifier imported) default
  | .labeledStatement label body _ => .labeledStatement (bareIdentifier label) (bareNode body) default
  | .moduleNode body sourceType _ => .moduleNode (bareListNode body) sourceType default
  | .program body sourceType _ => .program (bareListNode body) sourceType default
termination_by structural x => x

/-- `Binding` without positions -/
def bareBinding : Binding → Binding
  | .bindingIdentifier name _ => .bindingIdentifier name default
  | .arrayPattern elements _ => .arrayPattern (bareHolesArrayPatternElement elements) default
  | .objectPattern properties _ => .objectPattern (bareListObjectPatternProperty properties) default
  | .expression node => .expression (bareNode node)
termination_by structural x => x

/-- `ArrayExpressionElement` without positions -/
def bareArrayExpressionElement : ArrayExpressionElement → ArrayExpressionElement
  | .expression node => .expression (bareNode node)
  | .spreadElement argument _ => .spreadElement (bareNode argument) default
termination_by structural x => x

/-- `ArrayPatternElement` without positions -/
def bareArrayPatternElement : ArrayPatternElement → ArrayPatternElement
  | .assignmentPattern left right => .assignmentPattern (bareBinding left) (bareNode right)
  | .bindingIdentifier name => .bindingIdentifier name
  | .arrayPattern elements => .arrayPattern (bareHolesArrayPatternElement elements)
  | .objectPattern properties => .objectPattern (bareListObjectPatternProperty properties)
  | .restElement argument => .restElement (bareBinding argument)
termination_by structural x => x

/-- `ArrayAssignmentPatternElement` without positions -/
def bareArrayAssignmentPatternElement : ArrayAssignmentPatternElement → ArrayAssignmentPatternElement
  | .expression node => .expression (bareNode node)
  | .restElement argument => .restElement (bareBinding argument)
termination_by structural x => x

/-- `PropertyKey` without positions -/
def barePropertyKey : PropertyKey → PropertyKey
  | .identifier id => .identifier (bareIdentifier id)
  | .literal lit => .literal (bareLiteral lit)
  | .expression node => .expression (bareNode node)
termination_by structural x => x

/-- `FnExpr` without positions -/
def bareFnExpr : FnExpr → FnExpr
  | .mk id params body generator expression async =>
    .mk (bareOptNode id) (bareListFunctionParameter params) (bareNode body) generator expression async
termination_by structural x => x

/-- `PropertyValue` without positions -/
def barePropertyValue : PropertyValue → PropertyValue
  | .assignmentPattern left right => .assignmentPattern (bareBinding left) (bareNode right)
  | .asyncFunctionExpression f => .asyncFunctionExpression (bareFnExpr f)
  | .bindingIdentifier name _ => .bindingIdentifier name default
  | .bindingPattern p => .bindingPattern (bareBindingPattern p)
  | .functionExpression f => .functionExpression (bareFnExpr f)
  | .expression node => .expression (bareNode node)
termination_by structural x => x

/-- `ObjectPatternProperty` without positions -/
def bareObjectPatternProperty : ObjectPatternProperty → ObjectPatternProperty
  | .property key computed value kind method shorthand =>
    .property (barePropertyKey key) computed (bareOptPropertyValue value) kind method shorthand
  | .restElement argument => .restElement (bareBinding argument)
termination_by structural x => x

/-- `BindingPattern` without positions -/
def bareBindingPattern : BindingPattern → BindingPattern
  | .arrayPattern elements => .arrayPattern (bareHolesArrayPatternElement elements)
  | .objectPattern properties => .objectPattern (bareListObjectPatternProperty properties)
termination_by structural x => x

/-- `FunctionParameter` without positions -/
def bareFunctionParameter : FunctionParameter → FunctionParameter
  | .assignmentPattern left right => .assignmentPattern (bareBinding left) (bareNode right)
  | .bindingIdentifier name => .bindingIdentifier name
  | .arrayPattern elements => .arrayPattern (bareHolesArrayPatternElement elements)
  | .objectPattern properties => .objectPattern (bareListObjectPatternProperty properties)
  | .restElement argument => .restElement (bareBinding argument)
termination_by structural x => x

/-- `ArgumentListElement` without positions -/
def bareArgumentListElement : ArgumentListElement → ArgumentListElement
  | .expression node => .expression (bareNode node)
  | .spreadElement argument _ => .spreadElement (bareNode argument) default
termination_by structural x => x

/-- `ObjectExpressionProperty` without positions -/
def bareObjectExpressionProperty : ObjectExpressionProperty → ObjectExpressionProperty
  | .property key computed value kind method shorthand _ =>
    .property (barePropertyKey key) computed (bareOptPropertyValue value) kind method shorthand default
  | .spreadElement argument _ => .spreadElement (bareNode argument) default
termination_by structural x => x

/-- `MethodDefinition` without positions -/
def bareMethodDefinition : MethodDefinition → MethodDefinition
  | .mk key computed value kind static => .mk (bareNode key) computed (bareOptFnExpr value) kind static
termination_by structural x => x

/-- `SwitchCase` without positions -/
def bareSwitchCase : SwitchCase → SwitchCase
  | .mk test consequent => .mk (bareOptNode test) (bareListNode consequent)
termination_by structural x => x

/-- `VariableDeclarator` without positions -/
def bareVariableDeclarator : VariableDeclarator → VariableDeclarator
  | .mk id init => .mk (bareBinding id) (bareOptNode init)
termination_by structural x => x

/-- `CatchClause` without positions -/
def bareCatchClause : CatchClause → CatchClause
  | .mk param body => .mk (bareOptBinding param) (bareNode body)
termination_by structural x => x

/-- one, if there is one -/
def bareOptArrayExpressionElement : Option ArrayExpressionElement → Option ArrayExpressionElement
  | none => none
  | some a => some (bareArrayExpressionElement a)
termination_by structural x => x

/-- a list with holes -/
def bareHolesArrayExpressionElement : List (Option ArrayExpressionElement) → List (Option ArrayExpressionElement)
  | [] => []
  | a :: l => bareOptArrayExpressionElement a :: bareHolesArrayExpressionElement l
termination_by structural x => x

/-- one, if there is one -/
def bareOptArrayPatternElement : Option ArrayPatternElement → Option ArrayPatternElement
  | none => none
  | some a => some (bareArrayPatternElement a)
termination_by structural x => x

/-- a list with holes -/
def bareHolesArrayPatternElement : List (Option ArrayPatternElement) → List (Option ArrayPatternElement)
  | [] => []
  | a :: l => bareOptArrayPatternElement a :: bareHolesArrayPatternElement l
termination_by structural x => x

/-- one, if there is one -/
def bareOptArrayAssignmentPatternElement : Option ArrayAssignmentPatternElement → Option ArrayAssignmentPatternElement
  | none => none
  | some a => some (bareArrayAssignmentPatternElement a)
termination_by structural x => x

/-- a list with holes -/
def bareHolesArrayAssignmentPatternElement : List (Option ArrayAssignmentPatternElement) → List (Option ArrayAssignmentPatternElement)
  | [] => []
  | a :: l => bareOptArrayAssignmentPatternElement a :: bareHolesArrayAssignmentPatternElement l
termination_by structural x => x

/-- one, if there is one -/
def bareOptNode : Option Node → Option Node
  | none => none
  | some a => some (bareNode a)
termination_by structural x => x

/-- a list of them -/
def bareListFunctionParameter : List FunctionParameter → List FunctionParameter
  | [] => []
  | a :: l => bareFunctionParameter a :: bareListFunctionParameter l
termination_by structural x => x

/-- a list of them -/
def bareListArgumentListElement : List ArgumentListElement → List ArgumentListElement
  | [] => []
  | a :: l => bareArgumentListElement a :: bareListArgumentListElement l
termination_by structural x => x

/-- a list of them -/
def bareListMethodDefinition : List MethodDefinition → List MethodDefinition
  | [] => []
  | a :: l => bareMethodDefinition a :: bareListMethodDefinition l
termination_by structural x => x

/-- a list of them -/
def bareListObjectExpressionProperty : List ObjectExpressionProperty → List ObjectExpressionProperty
  | [] => []
  | a :: l => bareObjectExpressionProperty a :: bareListObjectExpressionProperty l
termination_by structural x => x

/-- a list of them -/
def bareListObjectPatternProperty : List ObjectPatternProperty → List ObjectPatternProperty
  | [] => []
  | a :: l => bareObjectPatternProperty a :: bareListObjectPatternProperty l
termination_by structural x => x

/-- a list of them -/
def bareListNode : List Node → List Node
  | [] => []
  | a :: l => bareNode a :: bareListNode l
termination_by structural x => x

/-- a list of them -/
def bareListSwitchCase : List SwitchCase → List SwitchCase
  | [] => []
  | a :: l => bareSwitchCase a :: bareListSwitchCase l
termination_by structural x => x

/-- one, if there is one -/
def bareOptCatchClause : Option CatchClause → Option CatchClause
  | none => none
  | some a => some (bareCatchClause a)
termination_by structural x => x

/-- a list of them -/
def bareListVariableDeclarator : List VariableDeclarator → List VariableDeclarator
  | [] => []
  | a :: l => bareVariableDeclarator a :: bareListVariableDeclarator l
termination_by structural x => x

/-- one, if there is one -/
def bareOptPropertyValue : Option PropertyValue → Option PropertyValue
  | none => none
  | some a => some (barePropertyValue a)
termination_by structural x => x

/-- one, if there is one -/
def bareOptFnExpr : Option FnExpr → Option FnExpr
  | none => none
  | some a => some (bareFnExpr a)
termination_by structural x => x

/-- one, if there is one -/
def bareOptBinding : Option Binding → Option Binding
  | none => none
  | some a => some (bareBinding a)
termination_by structural x => x

end

theorem bareOptArrayExpressionElement_eq (o : Option ArrayExpressionElement) : bareOptArrayExpressionElement o = o.map bareArrayExpressionElement := by cases o <;> rfl

theorem bareHolesArrayExpressionElement_eq (l : List (Option ArrayExpressionElement)) : bareHolesArrayExpressionElement l = l.map (Option.map bareArrayExpressionElement) := by
  induction l with
  | nil => rfl
  | cons a l ih => rw [bareHolesArrayExpressionElement, ih, bareOptArrayExpressionElement_eq]; rfl

theorem bareOptArrayPatternElement_eq (o : Option ArrayPatternElement) : bareOptArrayPatternElement o = o.map bareArrayPatternElement := by cases o <;> rfl

theorem bareHolesArrayPatternElement_eq (l : List (Option ArrayPatternElement)) : bareHolesArrayPatternElement l = l.map (Option.map bareArrayPatternElement) := by
  induction l with
  | nil => rfl
  | cons a l ih => rw [bareHolesArrayPatternElement, ih, bareOptArrayPatternElement_eq]; rfl

theorem bareOptArrayAssignmentPatternElement_eq (o : Option ArrayAssignmentPatternElement) : bareOptArrayAssignmentPatternElement o = o.map bareArrayAssignmentPatternElement := by cases o <;> rfl

theorem bareHolesArrayAssignmentPatternElement_eq (l : List (Option ArrayAssignmentPatternElement)) : bareHolesArrayAssignmentPatternElement l = l.map (Option.map bareArrayAssignmentPatternElement) := by
  induction l with
  | nil => rfl
  | cons a l ih => rw [bareHolesArrayAssignmentPatternElement, ih, bareOptArrayAssignmentPatternElement_eq]; rfl

theorem bareOptNode_eq (o : Option Node) : bareOptNode o = o.map bareNode := by cases o <;> rfl

theorem bareListFunctionParameter_eq (l : List FunctionParameter) : bareListFunctionParameter l = l.map bareFunctionParameter := by
  induction l with
  | nil => rfl
  | cons a l ih => rw [bareListFunctionParameter, ih]; rfl

theorem bareListArgumentListElement_eq (l : List ArgumentListElement) : bareListArgumentListElement l = l.map bareArgumentListElement := by
  induction l with
  | nil => rfl
  | cons a l ih => rw [bareListArgumentListElement, ih]; rfl

theorem bareListMethodDefinition_eq (l : List MethodDefinition) : bareListMethodDefinition l = l.map bareMethodDefinition := by
  induction l with
  | nil => rfl
  | cons a l ih => rw [bareListMethodDefinition, ih]; rfl

theorem bareListObjectExpressionProperty_eq (l : List ObjectExpressionProperty) : bareListObjectExpressionProperty l = l.map bareObjectExpressionProperty := by
  induction l with
  | nil => rfl
  | cons a l ih => rw [bareListObjectExpressionProperty, ih]; rfl

theorem bareListObjectPatternProperty_eq (l : List ObjectPatternProperty) : bareListObjectPatternProperty l = l.map bareObjectPatternProperty := by
  induction l with
  | nil => rfl
  | cons a l ih => rw [bareListObjectPatternProperty, ih]; rfl

theorem bareListNode_eq (l : List Node) : bareListNode l = l.map bareNode := by
  induction l with
  | nil => rfl
  | cons a l ih => rw [bareListNode, ih]; rfl

theorem bareListSwitchCase_eq (l : List SwitchCase) : bareListSwitchCase l = l.map bareSwitchCase := by
  induction l with
  | nil => rfl
  | cons a l ih => rw [bareListSwitchCase, ih]; rfl

theorem bareOptCatchClause_eq (o : Option CatchClause) : bareOptCatchClause o = o.map bareCatchClause := by cases o <;> rfl

theorem bareListVariableDeclarator_eq (l : List VariableDeclarator) : bareListVariableDeclarator l = l.map bareVariableDeclarator := by
  induction l with
  | nil => rfl
  | cons a l ih => rw [bareListVariableDeclarator, ih]; rfl

theorem bareOptPropertyValue_eq (o : Option PropertyValue) : bareOptPropertyValue o = o.map barePropertyValue := by cases o <;> rfl

theorem bareOptFnExpr_eq (o : Option FnExpr) : bareOptFnExpr o = o.map bareFnExpr := by cases o <;> rfl

theorem bareOptBinding_eq (o : Option Binding) : bareOptBinding o = o.map bareBinding := by cases o <;> rfl

end Giron.Spec

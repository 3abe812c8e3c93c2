import Verif.Proofs.Pos.Convert
/-
Trees have nothing to hide when nothing is asked of spans.  (Generated.)
-/
namespace Giron
namespace Pos

theorem trE {P : Pr} (h : ∀ sp, P sp) (e : ExportSpecifier) : allExportSpecifier P e := ⟨h _, h _⟩
theorem trI {P : Pr} (h : ∀ sp, P sp) (e : ImportDeclarationSpecifier) : allImportDeclarationSpecifier P e := by
  cases e
  · exact h _
  · exact h _
  · exact ⟨h _, h _⟩

mutual

theorem trNode {P : Pr} (h : ∀ sp, P sp) : (x : Node) → allNode P x
  | .arrayExpression elements _ span => ⟨trHolesArrayExpressionElement h elements, h _⟩
  | .arrayPattern elements _ span => ⟨trHolesArrayPatternElement h elements, h _⟩
  | .arrayAssignmentPattern elements _ span => ⟨trHolesArrayAssignmentPatternElement h elements, h _⟩
  | .arrowFunctionExpression id params body _ _ _ _ span => ⟨trOptNode h id, trListFunctionParameter h params, trNode h body, h _⟩
  | .assignmentExpression _ left right _ span => ⟨trNode h left, trNode h right, h _⟩
  | .assignmentPattern left right span => ⟨trBinding h left, trNode h right, h _⟩
  | .assignmentRestElement argument span => ⟨trNode h argument, h _⟩
  | .asyncArrowFunctionExpression id params body _ _ _ _ span => ⟨trOptNode h id, trListFunctionParameter h params, trNode h body, h _⟩
  | .asyncFunctionExpression id params body _ _ _ _ span => ⟨trOptNode h id, trListFunctionParameter h params, trNode h body, h _⟩
  | .awaitExpression argument span => ⟨trNode h argument, h _⟩
  | .binaryExpression _ left right _ span => ⟨trNode h left, trNode h right, h _⟩
  | .bindingIdentifier _ span => h _
  | .logicalExpression _ left right span => ⟨trNode h left, trNode h right, h _⟩
  | .callExpression callee arguments _ span => ⟨trNode h callee, trListArgumentListElement h arguments, h _⟩
  | .classExpression id superClass body _ span => ⟨trOptNode h id, trOptNode h superClass, trListMethodDefinition h body, h _⟩
  | .computedMemberExpression _ object property _ span => ⟨trNode h object, trNode h property, h _⟩
  | .conditionalExpression test consequent alternate span => ⟨trNode h test, trNode h consequent, trNode h alternate, h _⟩
  | .identifier _ _ span => h _
  | .functionExpression id params body _ _ _ _ span => ⟨trOptNode h id, trListFunctionParameter h params, trNode h body, h _⟩
  | .literal _ _ _ span => h _
  | .newExpression callee arguments _ span => ⟨trNode h callee, trListArgumentListElement h arguments, h _⟩
  | .objectExpression properties _ span => ⟨trListObjectExpressionProperty h properties, h _⟩
  | .objectPattern properties _ span => ⟨trListObjectPatternProperty h properties, h _⟩
  | .regexLiteral _ _ _ _ span => h _
  | .sequenceExpression expressions _ span => ⟨trListNode h expressions, h _⟩
  | .staticMemberExpression _ object property _ span => ⟨trNode h object, trNode h property, h _⟩
  | .taggedTemplateExpression tag _ expressions span => ⟨trNode h tag, trListNode h expressions, h _⟩
  | .thisExpression _ span => h _
  | .unaryExpression _ argument _ _ span => ⟨trNode h argument, h _⟩
  | .updateExpression _ argument _ _ span => ⟨trNode h argument, h _⟩
  | .yieldExpression argument _ _ span => ⟨trOptNode h argument, h _⟩
  | .arrowParameterPlaceHolder params _ span => ⟨trListFunctionParameter h params, h _⟩
  | .restElement argument span => ⟨trBinding h argument, h _⟩
  | .spreadElement argument span => ⟨trNode h argument, h _⟩
  | .super _ span => h _
  | .templateLiteral _ expressions _ span => ⟨trListNode h expressions, h _⟩
  | .metaProperty metaId property _ span => ⟨trNode h metaId, trNode h property, h _⟩
  | .asyncFunctionDeclaration id params body _ _ _ span => ⟨trOptNode h id, trListFunctionParameter h params, trNode h body, h _⟩
  | .breakStatement label span => ⟨trOptNode h label, h _⟩
  | .continueStatement label span => ⟨trOptNode h label, h _⟩
  | .debuggerStatement span => h _
  | .doWhileStatement body test span => ⟨trNode h body, trNode h test, h _⟩
  | .emptyStatement span => h _
  | .expressionStatement expression span => ⟨trNode h expression, h _⟩
  | .directive expression _ span => ⟨trNode h expression, h _⟩
  | .forStatement init test update body span => ⟨trOptNode h init, trOptNode h test, trOptNode h update, trNode h body, h _⟩
  | .forInStatement left right body _ span => ⟨trNode h left, trNode h right, trNode h body, h _⟩
  | .forOfStatement left right body span => ⟨trNode h left, trNode h right, trNode h body, h _⟩
  | .functionDeclaration id params body _ _ _ span => ⟨trOptNode h id, trListFunctionParameter h params, trNode h body, h _⟩
  | .ifStatement test consequent alternate span => ⟨trNode h test, trNode h consequent, trOptNode h alternate, h _⟩
  | .returnStatement argument span => ⟨trOptNode h argument, h _⟩
  | .switchStatement discriminant cases span => ⟨trNode h discriminant, trListSwitchCase h cases, h _⟩
  | .throwStatement argument span => ⟨trNode h argument, h _⟩
  | .tryStatement block handler finalizer span => ⟨trNode h block, trOptCatchClause h handler, trOptNode h finalizer, h _⟩
  | .variableDeclaration declarations _ span => ⟨trListVariableDeclarator h declarations, h _⟩
  | .whileStatement test body span => ⟨trNode h test, trNode h body, h _⟩
  | .withStatement object body span => ⟨trNode h object, trNode h body, h _⟩
  | .blockStatement body span => ⟨trListNode h body, h _⟩
  | .classDeclaration id superClass body span => ⟨trOptNode h id, trOptNode h superClass, trListMethodDefinition h body, h _⟩
  | .exportAllDeclaration source span => ⟨h _, h _⟩
  | .exportDefaultDeclaration declaration span => ⟨trNode h declaration, h _⟩
  | .exportNamedDeclaration declaration specifiers source span => ⟨trOptNode h declaration, fun e _ => trE h e, fun _ _ => h _, h _⟩
  | .importDeclaration specifiers source span => ⟨fun e _ => trI h e, h _, h _⟩
  | .importDefaultSpecifier loc span => ⟨h _, h _⟩
  | .importNamespaceSpecifier loc span => ⟨h _, h _⟩
  | .importSpecifier loc imported span => ⟨h _, h _, h _⟩
  | .labeledStatement label body span => ⟨h _, trNode h body, h _⟩
  | .moduleNode body _ span => ⟨trListNode h body, h _⟩
  | .program body _ span => ⟨trListNode h body, h _⟩
termination_by structural x => x

theorem trBinding {P : Pr} (h : ∀ sp, P sp) : (x : Binding) → allBinding P x
  | .bindingIdentifier _ span => h _
  | .arrayPattern elements span => ⟨trHolesArrayPatternElement h elements, h _⟩
  | .objectPattern properties span => ⟨trListObjectPatternProperty h properties, h _⟩
  | .expression node => trNode h node
termination_by structural x => x

theorem trArrayExpressionElement {P : Pr} (h : ∀ sp, P sp) : (x : ArrayExpressionElement) → allArrayExpressionElement P x
  | .expression node => trNode h node
  | .spreadElement argument span => ⟨trNode h argument, h _⟩
termination_by structural x => x

theorem trArrayPatternElement {P : Pr} (h : ∀ sp, P sp) : (x : ArrayPatternElement) → allArrayPatternElement P x
  | .assignmentPattern left right => ⟨trBinding h left, trNode h right⟩
  | .bindingIdentifier _ => trivial
  | .arrayPattern elements => trHolesArrayPatternElement h elements
  | .objectPattern properties => trListObjectPatternProperty h properties
  | .restElement argument => trBinding h argument
termination_by structural x => x

theorem trArrayAssignmentPatternElement {P : Pr} (h : ∀ sp, P sp) : (x : ArrayAssignmentPatternElement) → allArrayAssignmentPatternElement P x
  | .expression node => trNode h node
  | .restElement argument => trBinding h argument
termination_by structural x => x

theorem trPropertyKey {P : Pr} (h : ∀ sp, P sp) : (x : PropertyKey) → allPropertyKey P x
  | .identifier id => h _
  | .literal lit => h _
  | .expression node => trNode h node
termination_by structural x => x

theorem trFnExpr {P : Pr} (h : ∀ sp, P sp) : (x : FnExpr) → allFnExpr P x
  | .mk id params body _ _ _ => ⟨trOptNode h id, trListFunctionParameter h params, trNode h body⟩
termination_by structural x => x

theorem trPropertyValue {P : Pr} (h : ∀ sp, P sp) : (x : PropertyValue) → allPropertyValue P x
  | .assignmentPattern left right => ⟨trBinding h left, trNode h right⟩
  | .asyncFunctionExpression f => trFnExpr h f
  | .bindingIdentifier _ span => h _
  | .bindingPattern p => trBindingPattern h p
  | .functionExpression f => trFnExpr h f
  | .expression node => trNode h node
termination_by structural x => x

theorem trObjectPatternProperty {P : Pr} (h : ∀ sp, P sp) : (x : ObjectPatternProperty) → allObjectPatternProperty P x
  | .property key _ value _ _ _ => ⟨trPropertyKey h key, trOptPropertyValue h value⟩
  | .restElement argument => trBinding h argument
termination_by structural x => x

theorem trBindingPattern {P : Pr} (h : ∀ sp, P sp) : (x : BindingPattern) → allBindingPattern P x
  | .arrayPattern elements => trHolesArrayPatternElement h elements
  | .objectPattern properties => trListObjectPatternProperty h properties
termination_by structural x => x

theorem trFunctionParameter {P : Pr} (h : ∀ sp, P sp) : (x : FunctionParameter) → allFunctionParameter P x
  | .assignmentPattern left right => ⟨trBinding h left, trNode h right⟩
  | .bindingIdentifier _ => trivial
  | .arrayPattern elements => trHolesArrayPatternElement h elements
  | .objectPattern properties => trListObjectPatternProperty h properties
  | .restElement argument => trBinding h argument
termination_by structural x => x

theorem trArgumentListElement {P : Pr} (h : ∀ sp, P sp) : (x : ArgumentListElement) → allArgumentListElement P x
  | .expression node => trNode h node
  | .spreadElement argument span => ⟨trNode h argument, h _⟩
termination_by structural x => x

theorem trObjectExpressionProperty {P : Pr} (h : ∀ sp, P sp) : (x : ObjectExpressionProperty) → allObjectExpressionProperty P x
  | .property key _ value _ _ _ span => ⟨trPropertyKey h key, trOptPropertyValue h value, h _⟩
  | .spreadElement argument span => ⟨trNode h argument, h _⟩
termination_by structural x => x

theorem trMethodDefinition {P : Pr} (h : ∀ sp, P sp) : (x : MethodDefinition) → allMethodDefinition P x
  | .mk key _ value _ _ => ⟨trNode h key, trOptFnExpr h value⟩
termination_by structural x => x

theorem trSwitchCase {P : Pr} (h : ∀ sp, P sp) : (x : SwitchCase) → allSwitchCase P x
  | .mk test consequent => ⟨trOptNode h test, trListNode h consequent⟩
termination_by structural x => x

theorem trVariableDeclarator {P : Pr} (h : ∀ sp, P sp) : (x : VariableDeclarator) → allVariableDeclarator P x
  | .mk id init => ⟨trBinding h id, trOptNode h init⟩
termination_by structural x => x

theorem trCatchClause {P : Pr} (h : ∀ sp, P sp) : (x : CatchClause) → allCatchClause P x
  | .mk param body => ⟨trOptBinding h param, trNode h body⟩
termination_by structural x => x

theorem trHolesArrayAssignmentPatternElement {P : Pr} (h : ∀ sp, P sp) : (x : List (Option ArrayAssignmentPatternElement)) → allHolesArrayAssignmentPatternElement P x
  | [] => trivial
  | a :: l => ⟨trOptArrayAssignmentPatternElement h a, trHolesArrayAssignmentPatternElement h l⟩
termination_by structural x => x

theorem trHolesArrayExpressionElement {P : Pr} (h : ∀ sp, P sp) : (x : List (Option ArrayExpressionElement)) → allHolesArrayExpressionElement P x
  | [] => trivial
  | a :: l => ⟨trOptArrayExpressionElement h a, trHolesArrayExpressionElement h l⟩
termination_by structural x => x

theorem trHolesArrayPatternElement {P : Pr} (h : ∀ sp, P sp) : (x : List (Option ArrayPatternElement)) → allHolesArrayPatternElement P x
  | [] => trivial
  | a :: l => ⟨trOptArrayPatternElement h a, trHolesArrayPatternElement h l⟩
termination_by structural x => x

theorem trListArgumentListElement {P : Pr} (h : ∀ sp, P sp) : (x : List ArgumentListElement) → allListArgumentListElement P x
  | [] => trivial
  | a :: l => ⟨trArgumentListElement h a, trListArgumentListElement h l⟩
termination_by structural x => x

theorem trListFunctionParameter {P : Pr} (h : ∀ sp, P sp) : (x : List FunctionParameter) → allListFunctionParameter P x
  | [] => trivial
  | a :: l => ⟨trFunctionParameter h a, trListFunctionParameter h l⟩
termination_by structural x => x

theorem trListMethodDefinition {P : Pr} (h : ∀ sp, P sp) : (x : List MethodDefinition) → allListMethodDefinition P x
  | [] => trivial
  | a :: l => ⟨trMethodDefinition h a, trListMethodDefinition h l⟩
termination_by structural x => x

theorem trListNode {P : Pr} (h : ∀ sp, P sp) : (x : List Node) → allListNode P x
  | [] => trivial
  | a :: l => ⟨trNode h a, trListNode h l⟩
termination_by structural x => x

theorem trListObjectExpressionProperty {P : Pr} (h : ∀ sp, P sp) : (x : List ObjectExpressionProperty) → allListObjectExpressionProperty P x
  | [] => trivial
  | a :: l => ⟨trObjectExpressionProperty h a, trListObjectExpressionProperty h l⟩
termination_by structural x => x

theorem trListObjectPatternProperty {P : Pr} (h : ∀ sp, P sp) : (x : List ObjectPatternProperty) → allListObjectPatternProperty P x
  | [] => trivial
  | a :: l => ⟨trObjectPatternProperty h a, trListObjectPatternProperty h l⟩
termination_by structural x => x

theorem trListSwitchCase {P : Pr} (h : ∀ sp, P sp) : (x : List SwitchCase) → allListSwitchCase P x
  | [] => trivial
  | a :: l => ⟨trSwitchCase h a, trListSwitchCase h l⟩
termination_by structural x => x

theorem trListVariableDeclarator {P : Pr} (h : ∀ sp, P sp) : (x : List VariableDeclarator) → allListVariableDeclarator P x
  | [] => trivial
  | a :: l => ⟨trVariableDeclarator h a, trListVariableDeclarator h l⟩
termination_by structural x => x

theorem trOptArrayAssignmentPatternElement {P : Pr} (h : ∀ sp, P sp) : (x : Option ArrayAssignmentPatternElement) → allOptArrayAssignmentPatternElement P x
  | none => trivial
  | some a => trArrayAssignmentPatternElement h a
termination_by structural x => x

theorem trOptArrayExpressionElement {P : Pr} (h : ∀ sp, P sp) : (x : Option ArrayExpressionElement) → allOptArrayExpressionElement P x
  | none => trivial
  | some a => trArrayExpressionElement h a
termination_by structural x => x

theorem trOptArrayPatternElement {P : Pr} (h : ∀ sp, P sp) : (x : Option ArrayPatternElement) → allOptArrayPatternElement P x
  | none => trivial
  | some a => trArrayPatternElement h a
termination_by structural x => x

theorem trOptBinding {P : Pr} (h : ∀ sp, P sp) : (x : Option Binding) → allOptBinding P x
  | none => trivial
  | some a => trBinding h a
termination_by structural x => x

theorem trOptCatchClause {P : Pr} (h : ∀ sp, P sp) : (x : Option CatchClause) → allOptCatchClause P x
  | none => trivial
  | some a => trCatchClause h a
termination_by structural x => x

theorem trOptFnExpr {P : Pr} (h : ∀ sp, P sp) : (x : Option FnExpr) → allOptFnExpr P x
  | none => trivial
  | some a => trFnExpr h a
termination_by structural x => x

theorem trOptNode {P : Pr} (h : ∀ sp, P sp) : (x : Option Node) → allOptNode P x
  | none => trivial
  | some a => trNode h a
termination_by structural x => x

theorem trOptPropertyValue {P : Pr} (h : ∀ sp, P sp) : (x : Option PropertyValue) → allOptPropertyValue P x
  | none => trivial
  | some a => trPropertyValue h a
termination_by structural x => x

end

end Pos
end Giron

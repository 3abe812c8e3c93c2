import Verif.Proofs.Pos.Tree
/-
If all spans have the property, so have the spans of every tree.
-/
namespace Giron
namespace Pos
variable {P : Pr}

theorem allIdentifier_any (h : ∀ sp, P.span sp) (i : Identifier) : allIdentifier P i := h _
theorem allLiteral_any (h : ∀ sp, P.span sp) (l : Literal) : allLiteral P l := h _
theorem allExportSpecifier_any (h : ∀ sp, P.span sp) (l : ExportSpecifier) : allExportSpecifier P l := ⟨h _, h _⟩
theorem allImportDeclarationSpecifier_any (h : ∀ sp, P.span sp) : ∀ l : ImportDeclarationSpecifier, allImportDeclarationSpecifier P l
  | .importDefaultSpecifier _ => h _
  | .importNamespaceSpecifier _ => h _
  | .importSpecifier _ _ => ⟨h _, h _⟩

mutual

theorem allNode_any (h : ∀ sp, P.span sp) : ∀ x : Node, allNode P x
  | .arrayExpression elements _ span => by unfold allNode; exact ⟨allHolesArrayExpressionElement_any h elements, h _⟩
  | .arrayPattern elements _ span => by unfold allNode; exact ⟨allHolesArrayPatternElement_any h elements, h _⟩
  | .arrayAssignmentPattern elements _ span => by unfold allNode; exact ⟨allHolesArrayAssignmentPatternElement_any h elements, h _⟩
  | .arrowFunctionExpression id params body _ _ _ _ span => by unfold allNode; exact ⟨allOptNode_any h id, allListFunctionParameter_any h params, allNode_any h body, h _⟩
  | .assignmentExpression _ left right _ span => by unfold allNode; exact ⟨allNode_any h left, allNode_any h right, h _⟩
  | .assignmentPattern left right span => by unfold allNode; exact ⟨allBinding_any h left, allNode_any h right, h _⟩
  | .assignmentRestElement argument span => by unfold allNode; exact ⟨allNode_any h argument, h _⟩
  | .asyncArrowFunctionExpression id params body _ _ _ _ span => by unfold allNode; exact ⟨allOptNode_any h id, allListFunctionParameter_any h params, allNode_any h body, h _⟩
  | .asyncFunctionExpression id params body _ _ _ _ span => by unfold allNode; exact ⟨allOptNode_any h id, allListFunctionParameter_any h params, allNode_any h body, h _⟩
  | .awaitExpression argument span => by unfold allNode; exact ⟨allNode_any h argument, h _⟩
  | .binaryExpression _ left right _ span => by unfold allNode; exact ⟨allNode_any h left, allNode_any h right, h _⟩
  | .bindingIdentifier _ span => by unfold allNode; exact h _
  | .logicalExpression _ left right span => by unfold allNode; exact ⟨allNode_any h left, allNode_any h right, h _⟩
  | .callExpression callee arguments _ span => by unfold allNode; exact ⟨allNode_any h callee, allListArgumentListElement_any h arguments, h _⟩
  | .classExpression id superClass body _ span => by unfold allNode; exact ⟨allOptNode_any h id, allOptNode_any h superClass, allListMethodDefinition_any h body, h _⟩
  | .computedMemberExpression _ object property _ span => by unfold allNode; exact ⟨allNode_any h object, allNode_any h property, h _⟩
  | .conditionalExpression test consequent alternate span => by unfold allNode; exact ⟨allNode_any h test, allNode_any h consequent, allNode_any h alternate, h _⟩
  | .identifier _ _ span => by unfold allNode; exact h _
  | .functionExpression id params body _ _ _ _ span => by unfold allNode; exact ⟨allOptNode_any h id, allListFunctionParameter_any h params, allNode_any h body, h _⟩
  | .literal _ _ _ span => by unfold allNode; exact h _
  | .newExpression callee arguments _ span => by unfold allNode; exact ⟨allNode_any h callee, allListArgumentListElement_any h arguments, h _⟩
  | .objectExpression properties _ span => by unfold allNode; exact ⟨allListObjectExpressionProperty_any h properties, h _⟩
  | .objectPattern properties _ span => by unfold allNode; exact ⟨allListObjectPatternProperty_any h properties, h _⟩
  | .regexLiteral _ _ _ _ span => by unfold allNode; exact h _
  | .sequenceExpression expressions _ span => by unfold allNode; exact ⟨allListNode_any h expressions, h _⟩
  | .staticMemberExpression _ object property _ span => by unfold allNode; exact ⟨allNode_any h object, allNode_any h property, h _⟩
  | .taggedTemplateExpression tag _ expressions span => by unfold allNode; exact ⟨allNode_any h tag, allListNode_any h expressions, h _⟩
  | .thisExpression _ span => by unfold allNode; exact h _
  | .unaryExpression _ argument _ _ span => by unfold allNode; exact ⟨allNode_any h argument, h _⟩
  | .updateExpression _ argument _ _ span => by unfold allNode; exact ⟨allNode_any h argument, h _⟩
  | .yieldExpression argument _ _ span => by unfold allNode; exact ⟨allOptNode_any h argument, h _⟩
  | .arrowParameterPlaceHolder params _ span => by unfold allNode; exact ⟨allListFunctionParameter_any h params, h _⟩
  | .restElement argument span => by unfold allNode; exact ⟨allBinding_any h argument, h _⟩
  | .spreadElement argument span => by unfold allNode; exact ⟨allNode_any h argument, h _⟩
  | .super _ span => by unfold allNode; exact h _
  | .templateLiteral _ expressions _ span => by unfold allNode; exact ⟨allListNode_any h expressions, h _⟩
  | .metaProperty metaId property _ span => by unfold allNode; exact ⟨allNode_any h metaId, allNode_any h property, h _⟩
  | .asyncFunctionDeclaration id params body _ _ _ span => by unfold allNode; exact ⟨allOptNode_any h id, allListFunctionParameter_any h params, allNode_any h body, h _⟩
  | .breakStatement label span => by unfold allNode; exact ⟨allOptNode_any h label, h _⟩
  | .continueStatement label span => by unfold allNode; exact ⟨allOptNode_any h label, h _⟩
  | .debuggerStatement span => by unfold allNode; exact h _
  | .doWhileStatement body test span => by unfold allNode; exact ⟨allNode_any h body, allNode_any h test, h _⟩
  | .emptyStatement span => by unfold allNode; exact h _
  | .expressionStatement expression span => by unfold allNode; exact ⟨allNode_any h expression, h _⟩
  | .directive expression _ span => by unfold allNode; exact ⟨allNode_any h expression, h _⟩
  | .forStatement init test update body span => by unfold allNode; exact ⟨allOptNode_any h init, allOptNode_any h test, allOptNode_any h update, allNode_any h body, h _⟩
  | .forInStatement left right body _ span => by unfold allNode; exact ⟨allNode_any h left, allNode_any h right, allNode_any h body, h _⟩
  | .forOfStatement left right body span => by unfold allNode; exact ⟨allNode_any h left, allNode_any h right, allNode_any h body, h _⟩
  | .functionDeclaration id params body _ _ _ span => by unfold allNode; exact ⟨allOptNode_any h id, allListFunctionParameter_any h params, allNode_any h body, h _⟩
  | .ifStatement test consequent alternate span => by unfold allNode; exact ⟨allNode_any h test, allNode_any h consequent, allOptNode_any h alternate, h _⟩
  | .returnStatement argument span => by unfold allNode; exact ⟨allOptNode_any h argument, h _⟩
  | .switchStatement discriminant cases span => by unfold allNode; exact ⟨allNode_any h discriminant, allListSwitchCase_any h cases, h _⟩
  | .throwStatement argument span => by unfold allNode; exact ⟨allNode_any h argument, h _⟩
  | .tryStatement block handler finalizer span => by unfold allNode; exact ⟨allNode_any h block, allOptCatchClause_any h handler, allOptNode_any h finalizer, h _⟩
  | .variableDeclaration declarations _ span => by unfold allNode; exact ⟨allListVariableDeclarator_any h declarations, h _⟩
  | .whileStatement test body span => by unfold allNode; exact ⟨allNode_any h test, allNode_any h body, h _⟩
  | .withStatement object body span => by unfold allNode; exact ⟨allNode_any h object, allNode_any h body, h _⟩
  | .blockStatement body span => by unfold allNode; exact ⟨allListNode_any h body, h _⟩
  | .classDeclaration id superClass body span => by unfold allNode; exact ⟨allOptNode_any h id, allOptNode_any h superClass, allListMethodDefinition_any h body, h _⟩
  | .exportAllDeclaration source span => by unfold allNode; exact ⟨allLiteral_any h source, h _⟩
  | .exportDefaultDeclaration declaration span => by unfold allNode; exact ⟨allNode_any h declaration, h _⟩
  | .exportNamedDeclaration declaration specifiers source span => by unfold allNode; exact ⟨allOptNode_any h declaration, fun a _ => allExportSpecifier_any h a, fun a _ => allLiteral_any h a, h _⟩
  | .importDeclaration specifiers source span => by unfold allNode; exact ⟨fun a _ => allImportDeclarationSpecifier_any h a, allLiteral_any h source, h _⟩
  | .importDefaultSpecifier loc span => by unfold allNode; exact ⟨allIdentifier_any h loc, h _⟩
  | .importNamespaceSpecifier loc span => by unfold allNode; exact ⟨allIdentifier_any h loc, h _⟩
  | .importSpecifier loc imported span => by unfold allNode; exact ⟨allIdentifier_any h loc, allIdentifier_any h imported, h _⟩
  | .labeledStatement label body span => by unfold allNode; exact ⟨allIdentifier_any h label, allNode_any h body, h _⟩
  | .moduleNode body _ span => by unfold allNode; exact ⟨allListNode_any h body, h _⟩
  | .program body _ span => by unfold allNode; exact ⟨allListNode_any h body, h _⟩
termination_by structural x => x

theorem allBinding_any (h : ∀ sp, P.span sp) : ∀ x : Binding, allBinding P x
  | .bindingIdentifier _ span => by unfold allBinding; exact h _
  | .arrayPattern elements span => by unfold allBinding; exact ⟨allHolesArrayPatternElement_any h elements, h _⟩
  | .objectPattern properties span => by unfold allBinding; exact ⟨allListObjectPatternProperty_any h properties, h _⟩
  | .expression node => by unfold allBinding; exact allNode_any h node
termination_by structural x => x

theorem allArrayExpressionElement_any (h : ∀ sp, P.span sp) : ∀ x : ArrayExpressionElement, allArrayExpressionElement P x
  | .expression node => by unfold allArrayExpressionElement; exact allNode_any h node
  | .spreadElement argument span => by unfold allArrayExpressionElement; exact ⟨allNode_any h argument, h _⟩
termination_by structural x => x

theorem allArrayPatternElement_any (h : ∀ sp, P.span sp) : ∀ x : ArrayPatternElement, allArrayPatternElement P x
  | .assignmentPattern left right => by unfold allArrayPatternElement; exact ⟨allBinding_any h left, allNode_any h right⟩
  | .bindingIdentifier _ => by unfold allArrayPatternElement; exact trivial
  | .arrayPattern elements => by unfold allArrayPatternElement; exact allHolesArrayPatternElement_any h elements
  | .objectPattern properties => by unfold allArrayPatternElement; exact allListObjectPatternProperty_any h properties
  | .restElement argument => by unfold allArrayPatternElement; exact allBinding_any h argument
termination_by structural x => x

theorem allArrayAssignmentPatternElement_any (h : ∀ sp, P.span sp) : ∀ x : ArrayAssignmentPatternElement, allArrayAssignmentPatternElement P x
  | .expression node => by unfold allArrayAssignmentPatternElement; exact allNode_any h node
  | .restElement argument => by unfold allArrayAssignmentPatternElement; exact allBinding_any h argument
termination_by structural x => x

theorem allPropertyKey_any (h : ∀ sp, P.span sp) : ∀ x : PropertyKey, allPropertyKey P x
  | .identifier id => by unfold allPropertyKey; exact allIdentifier_any h id
  | .literal lit => by unfold allPropertyKey; exact allLiteral_any h lit
  | .expression node => by unfold allPropertyKey; exact allNode_any h node
termination_by structural x => x

theorem allFnExpr_any (h : ∀ sp, P.span sp) : ∀ x : FnExpr, allFnExpr P x
  | .mk id params body _ _ _ => by unfold allFnExpr; exact ⟨allOptNode_any h id, allListFunctionParameter_any h params, allNode_any h body⟩
termination_by structural x => x

theorem allPropertyValue_any (h : ∀ sp, P.span sp) : ∀ x : PropertyValue, allPropertyValue P x
  | .assignmentPattern left right => by unfold allPropertyValue; exact ⟨allBinding_any h left, allNode_any h right⟩
  | .asyncFunctionExpression f => by unfold allPropertyValue; exact allFnExpr_any h f
  | .bindingIdentifier _ span => by unfold allPropertyValue; exact h _
  | .bindingPattern p => by unfold allPropertyValue; exact allBindingPattern_any h p
  | .functionExpression f => by unfold allPropertyValue; exact allFnExpr_any h f
  | .expression node => by unfold allPropertyValue; exact allNode_any h node
termination_by structural x => x

theorem allObjectPatternProperty_any (h : ∀ sp, P.span sp) : ∀ x : ObjectPatternProperty, allObjectPatternProperty P x
  | .property key _ value _ _ _ => by unfold allObjectPatternProperty; exact ⟨allPropertyKey_any h key, allOptPropertyValue_any h value⟩
  | .restElement argument => by unfold allObjectPatternProperty; exact allBinding_any h argument
termination_by structural x => x

theorem allBindingPattern_any (h : ∀ sp, P.span sp) : ∀ x : BindingPattern, allBindingPattern P x
  | .arrayPattern elements => by unfold allBindingPattern; exact allHolesArrayPatternElement_any h elements
  | .objectPattern properties => by unfold allBindingPattern; exact allListObjectPatternProperty_any h properties
termination_by structural x => x

theorem allFunctionParameter_any (h : ∀ sp, P.span sp) : ∀ x : FunctionParameter, allFunctionParameter P x
  | .assignmentPattern left right => by unfold allFunctionParameter; exact ⟨allBinding_any h left, allNode_any h right⟩
  | .bindingIdentifier _ => by unfold allFunctionParameter; exact trivial
  | .arrayPattern elements => by unfold allFunctionParameter; exact allHolesArrayPatternElement_any h elements
  | .objectPattern properties => by unfold allFunctionParameter; exact allListObjectPatternProperty_any h properties
  | .restElement argument => by unfold allFunctionParameter; exact allBinding_any h argument
termination_by structural x => x

theorem allArgumentListElement_any (h : ∀ sp, P.span sp) : ∀ x : ArgumentListElement, allArgumentListElement P x
  | .expression node => by unfold allArgumentListElement; exact allNode_any h node
  | .spreadElement argument span => by unfold allArgumentListElement; exact ⟨allNode_any h argument, h _⟩
termination_by structural x => x

theorem allObjectExpressionProperty_any (h : ∀ sp, P.span sp) : ∀ x : ObjectExpressionProperty, allObjectExpressionProperty P x
  | .property key _ value _ _ _ span => by unfold allObjectExpressionProperty; exact ⟨allPropertyKey_any h key, allOptPropertyValue_any h value, h _⟩
  | .spreadElement argument span => by unfold allObjectExpressionProperty; exact ⟨allNode_any h argument, h _⟩
termination_by structural x => x

theorem allMethodDefinition_any (h : ∀ sp, P.span sp) : ∀ x : MethodDefinition, allMethodDefinition P x
  | .mk key _ value _ _ => by unfold allMethodDefinition; exact ⟨allNode_any h key, allOptFnExpr_any h value⟩
termination_by structural x => x

theorem allSwitchCase_any (h : ∀ sp, P.span sp) : ∀ x : SwitchCase, allSwitchCase P x
  | .mk test consequent => by unfold allSwitchCase; exact ⟨allOptNode_any h test, allListNode_any h consequent⟩
termination_by structural x => x

theorem allVariableDeclarator_any (h : ∀ sp, P.span sp) : ∀ x : VariableDeclarator, allVariableDeclarator P x
  | .mk id init => by unfold allVariableDeclarator; exact ⟨allBinding_any h id, allOptNode_any h init⟩
termination_by structural x => x

theorem allCatchClause_any (h : ∀ sp, P.span sp) : ∀ x : CatchClause, allCatchClause P x
  | .mk param body => by unfold allCatchClause; exact ⟨allOptBinding_any h param, allNode_any h body⟩
termination_by structural x => x

theorem allHolesArrayAssignmentPatternElement_any (h : ∀ sp, P.span sp) : ∀ x : List (Option ArrayAssignmentPatternElement), allHolesArrayAssignmentPatternElement P x
  | [] => by unfold allHolesArrayAssignmentPatternElement; exact trivial
  | a :: l => by unfold allHolesArrayAssignmentPatternElement; exact ⟨allOptArrayAssignmentPatternElement_any h a, allHolesArrayAssignmentPatternElement_any h l⟩
termination_by structural x => x

theorem allHolesArrayExpressionElement_any (h : ∀ sp, P.span sp) : ∀ x : List (Option ArrayExpressionElement), allHolesArrayExpressionElement P x
  | [] => by unfold allHolesArrayExpressionElement; exact trivial
  | a :: l => by unfold allHolesArrayExpressionElement; exact ⟨allOptArrayExpressionElement_any h a, allHolesArrayExpressionElement_any h l⟩
termination_by structural x => x

theorem allHolesArrayPatternElement_any (h : ∀ sp, P.span sp) : ∀ x : List (Option ArrayPatternElement), allHolesArrayPatternElement P x
  | [] => by unfold allHolesArrayPatternElement; exact trivial
  | a :: l => by unfold allHolesArrayPatternElement; exact ⟨allOptArrayPatternElement_any h a, allHolesArrayPatternElement_any h l⟩
termination_by structural x => x

theorem allListArgumentListElement_any (h : ∀ sp, P.span sp) : ∀ x : List ArgumentListElement, allListArgumentListElement P x
  | [] => by unfold allListArgumentListElement; exact trivial
  | a :: l => by unfold allListArgumentListElement; exact ⟨allArgumentListElement_any h a, allListArgumentListElement_any h l⟩
termination_by structural x => x

theorem allListFunctionParameter_any (h : ∀ sp, P.span sp) : ∀ x : List FunctionParameter, allListFunctionParameter P x
  | [] => by unfold allListFunctionParameter; exact trivial
  | a :: l => by unfold allListFunctionParameter; exact ⟨allFunctionParameter_any h a, allListFunctionParameter_any h l⟩
termination_by structural x => x

theorem allListMethodDefinition_any (h : ∀ sp, P.span sp) : ∀ x : List MethodDefinition, allListMethodDefinition P x
  | [] => by unfold allListMethodDefinition; exact trivial
  | a :: l => by unfold allListMethodDefinition; exact ⟨allMethodDefinition_any h a, allListMethodDefinition_any h l⟩
termination_by structural x => x

theorem allListNode_any (h : ∀ sp, P.span sp) : ∀ x : List Node, allListNode P x
  | [] => by unfold allListNode; exact trivial
  | a :: l => by unfold allListNode; exact ⟨allNode_any h a, allListNode_any h l⟩
termination_by structural x => x

theorem allListObjectExpressionProperty_any (h : ∀ sp, P.span sp) : ∀ x : List ObjectExpressionProperty, allListObjectExpressionProperty P x
  | [] => by unfold allListObjectExpressionProperty; exact trivial
  | a :: l => by unfold allListObjectExpressionProperty; exact ⟨allObjectExpressionProperty_any h a, allListObjectExpressionProperty_any h l⟩
termination_by structural x => x

theorem allListObjectPatternProperty_any (h : ∀ sp, P.span sp) : ∀ x : List ObjectPatternProperty, allListObjectPatternProperty P x
  | [] => by unfold allListObjectPatternProperty; exact trivial
  | a :: l => by unfold allListObjectPatternProperty; exact ⟨allObjectPatternProperty_any h a, allListObjectPatternProperty_any h l⟩
termination_by structural x => x

theorem allListSwitchCase_any (h : ∀ sp, P.span sp) : ∀ x : List SwitchCase, allListSwitchCase P x
  | [] => by unfold allListSwitchCase; exact trivial
  | a :: l => by unfold allListSwitchCase; exact ⟨allSwitchCase_any h a, allListSwitchCase_any h l⟩
termination_by structural x => x

theorem allListVariableDeclarator_any (h : ∀ sp, P.span sp) : ∀ x : List VariableDeclarator, allListVariableDeclarator P x
  | [] => by unfold allListVariableDeclarator; exact trivial
  | a :: l => by unfold allListVariableDeclarator; exact ⟨allVariableDeclarator_any h a, allListVariableDeclarator_any h l⟩
termination_by structural x => x

theorem allOptArrayAssignmentPatternElement_any (h : ∀ sp, P.span sp) : ∀ x : Option ArrayAssignmentPatternElement, allOptArrayAssignmentPatternElement P x
  | none => by unfold allOptArrayAssignmentPatternElement; exact trivial
  | some a => by unfold allOptArrayAssignmentPatternElement; exact allArrayAssignmentPatternElement_any h a
termination_by structural x => x

theorem allOptArrayExpressionElement_any (h : ∀ sp, P.span sp) : ∀ x : Option ArrayExpressionElement, allOptArrayExpressionElement P x
  | none => by unfold allOptArrayExpressionElement; exact trivial
  | some a => by unfold allOptArrayExpressionElement; exact allArrayExpressionElement_any h a
termination_by structural x => x

theorem allOptArrayPatternElement_any (h : ∀ sp, P.span sp) : ∀ x : Option ArrayPatternElement, allOptArrayPatternElement P x
  | none => by unfold allOptArrayPatternElement; exact trivial
  | some a => by unfold allOptArrayPatternElement; exact allArrayPatternElement_any h a
termination_by structural x => x

theorem allOptBinding_any (h : ∀ sp, P.span sp) : ∀ x : Option Binding, allOptBinding P x
  | none => by unfold allOptBinding; exact trivial
  | some a => by unfold allOptBinding; exact allBinding_any h a
termination_by structural x => x

theorem allOptCatchClause_any (h : ∀ sp, P.span sp) : ∀ x : Option CatchClause, allOptCatchClause P x
  | none => by unfold allOptCatchClause; exact trivial
  | some a => by unfold allOptCatchClause; exact allCatchClause_any h a
termination_by structural x => x

theorem allOptFnExpr_any (h : ∀ sp, P.span sp) : ∀ x : Option FnExpr, allOptFnExpr P x
  | none => by unfold allOptFnExpr; exact trivial
  | some a => by unfold allOptFnExpr; exact allFnExpr_any h a
termination_by structural x => x

theorem allOptNode_any (h : ∀ sp, P.span sp) : ∀ x : Option Node, allOptNode P x
  | none => by unfold allOptNode; exact trivial
  | some a => by unfold allOptNode; exact allNode_any h a
termination_by structural x => x

theorem allOptPropertyValue_any (h : ∀ sp, P.span sp) : ∀ x : Option PropertyValue, allOptPropertyValue P x
  | none => by unfold allOptPropertyValue; exact trivial
  | some a => by unfold allOptPropertyValue; exact allPropertyValue_any h a
termination_by structural x => x

end

end Pos
end Giron

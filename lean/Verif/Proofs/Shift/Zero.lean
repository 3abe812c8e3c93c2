import Verif.Spec.Moved
/-
A tree moved by nothing is itself.  (Generated from Spec/Moved.lean.)
-/
namespace Giron.Spec

@[simp] theorem moveMarker_zero (m : Marker) : moveMarker 0 0 m = m := rfl
@[simp] theorem moveSpan_zero (s : Span) : moveSpan 0 0 s = s := rfl
@[simp] theorem moveIdentifier_zero (s : Identifier) : moveIdentifier 0 0 s = s := rfl
@[simp] theorem moveLiteral_zero (s : Literal) : moveLiteral 0 0 s = s := rfl
@[simp] theorem moveExportSpecifier_zero (s : ExportSpecifier) : moveExportSpecifier 0 0 s = s := rfl
@[simp] theorem moveImportSpecifier_zero (s : ImportDeclarationSpecifier) : moveImportSpecifier 0 0 s = s := by cases s <;> rfl

theorem map_exportSpecifier_zero (l : List ExportSpecifier) : l.map (moveExportSpecifier 0 0) = l := by
  induction l with
  | nil => rfl
  | cons a l ih => rw [List.map_cons, ih]; rfl
theorem map_importSpecifier_zero (l : List ImportDeclarationSpecifier) : l.map (moveImportSpecifier 0 0) = l := by
  induction l with
  | nil => rfl
  | cons a l ih => rw [List.map_cons, ih, moveImportSpecifier_zero]
theorem map_literal_zero (l : Option Literal) : l.map (moveLiteral 0 0) = l := by cases l <;> rfl

mutual

theorem moveNode_zero : (x : Node) → moveNode 0 0 x = x
  | .arrayExpression elements att span => by simp only [moveNode, moveHolesArrayExpressionElement_zero elements, moveSpan_zero]
  | .arrayPattern elements att span => by simp only [moveNode, moveHolesArrayPatternElement_zero elements, moveSpan_zero]
  | .arrayAssignmentPattern elements att span => by simp only [moveNode, moveHolesArrayAssignmentPatternElement_zero elements, moveSpan_zero]
  | .arrowFunctionExpression id params body generator expression async att span => by simp only [moveNode, moveOptNode_zero id, moveListFunctionParameter_zero params, moveNode_zero body, moveSpan_zero]
  | .assignmentExpression operator left right att span => by simp only [moveNode, moveNode_zero left, moveNode_zero right, moveSpan_zero]
  | .assignmentPattern left right span => by simp only [moveNode, moveBinding_zero left, moveNode_zero right, moveSpan_zero]
  | .assignmentRestElement argument span => by simp only [moveNode, moveNode_zero argument, moveSpan_zero]
  | .asyncArrowFunctionExpression id params body generator expression async att span => by simp only [moveNode, moveOptNode_zero id, moveListFunctionParameter_zero params, moveNode_zero body, moveSpan_zero]
  | .asyncFunctionExpression id params body generator expression async att span => by simp only [moveNode, moveOptNode_zero id, moveListFunctionParameter_zero params, moveNode_zero body, moveSpan_zero]
  | .awaitExpression argument span => by simp only [moveNode, moveNode_zero argument, moveSpan_zero]
  | .binaryExpression operator left right att span => by simp only [moveNode, moveNode_zero left, moveNode_zero right, moveSpan_zero]
  | .bindingIdentifier name span => by simp only [moveNode, moveSpan_zero]
  | .logicalExpression operator left right span => by simp only [moveNode, moveNode_zero left, moveNode_zero right, moveSpan_zero]
  | .callExpression callee arguments att span => by simp only [moveNode, moveNode_zero callee, moveListArgumentListElement_zero arguments, moveSpan_zero]
  | .classExpression id superClass body att span => by simp only [moveNode, moveOptNode_zero id, moveOptNode_zero superClass, moveListMethodDefinition_zero body, moveSpan_zero]
  | .computedMemberExpression computed object property att span => by simp only [moveNode, moveNode_zero object, moveNode_zero property, moveSpan_zero]
  | .conditionalExpression test consequent alternate span => by simp only [moveNode, moveNode_zero test, moveNode_zero consequent, moveNode_zero alternate, moveSpan_zero]
  | .identifier name att span => by simp only [moveNode, moveSpan_zero]
  | .functionExpression id params body generator expression async att span => by simp only [moveNode, moveOptNode_zero id, moveListFunctionParameter_zero params, moveNode_zero body, moveSpan_zero]
  | .literal value raw att span => by simp only [moveNode, moveSpan_zero]
  | .newExpression callee arguments att span => by simp only [moveNode, moveNode_zero callee, moveListArgumentListElement_zero arguments, moveSpan_zero]
  | .objectExpression properties att span => by simp only [moveNode, moveListObjectExpressionProperty_zero properties, moveSpan_zero]
  | .objectPattern properties att span => by simp only [moveNode, moveListObjectPatternProperty_zero properties, moveSpan_zero]
  | .regexLiteral value raw regex att span => by simp only [moveNode, moveSpan_zero]
  | .sequenceExpression expressions att span => by simp only [moveNode, moveListNode_zero expressions, moveSpan_zero]
  | .staticMemberExpression computed object property att span => by simp only [moveNode, moveNode_zero object, moveNode_zero property, moveSpan_zero]
  | .taggedTemplateExpression tag quasis expressions span => by simp only [moveNode, moveNode_zero tag, moveListNode_zero expressions, moveSpan_zero]
  | .thisExpression att span => by simp only [moveNode, moveSpan_zero]
  | .unaryExpression operator argument isPrefix att span => by simp only [moveNode, moveNode_zero argument, moveSpan_zero]
  | .updateExpression operator argument isPrefix att span => by simp only [moveNode, moveNode_zero argument, moveSpan_zero]
  | .yieldExpression argument delegate att span => by simp only [moveNode, moveOptNode_zero argument, moveSpan_zero]
  | .arrowParameterPlaceHolder params async span => by simp only [moveNode, moveListFunctionParameter_zero params, moveSpan_zero]
  | .restElement argument span => by simp only [moveNode, moveBinding_zero argument, moveSpan_zero]
  | .spreadElement argument span => by simp only [moveNode, moveNode_zero argument, moveSpan_zero]
  | .super att span => by simp only [moveNode, moveSpan_zero]
  | .templateLiteral quasis expressions att span => by simp only [moveNode, moveListNode_zero expressions, moveSpan_zero]
  | .metaProperty metaId property att span => by simp only [moveNode, moveNode_zero metaId, moveNode_zero property, moveSpan_zero]
  | .asyncFunctionDeclaration id params body generator expression async span => by simp only [moveNode, moveOptNode_zero id, moveListFunctionParameter_zero params, moveNode_zero body, moveSpan_zero]
  | .breakStatement label span => by simp only [moveNode, moveOptNode_zero label, moveSpan_zero]
  | .continueStatement label span => by simp only [moveNode, moveOptNode_zero label, moveSpan_zero]
  | .debuggerStatement span => by simp only [moveNode, moveSpan_zero]
  | .doWhileStatement body test span => by simp only [moveNode, moveNode_zero body, moveNode_zero test, moveSpan_zero]
  | .emptyStatement span => by simp only [moveNode, moveSpan_zero]
  | .expressionStatement expression span => by simp only [moveNode, moveNode_zero expression, moveSpan_zero]
  | .directive expression directive span => by simp only [moveNode, moveNode_zero expression, moveSpan_zero]
  | .forStatement init test update body span => by simp only [moveNode, moveOptNode_zero init, moveOptNode_zero test, moveOptNode_zero update, moveNode_zero body, moveSpan_zero]
  | .forInStatement left right body each span => by simp only [moveNode, moveNode_zero left, moveNode_zero right, moveNode_zero body, moveSpan_zero]
  | .forOfStatement left right body span => by simp only [moveNode, moveNode_zero left, moveNode_zero right, moveNode_zero body, moveSpan_zero]
  | .functionDeclaration id params body generator expression async span => by simp only [moveNode, moveOptNode_zero id, moveListFunctionParameter_zero params, moveNode_zero body, moveSpan_zero]
  | .ifStatement test consequent alternate span => by simp only [moveNode, moveNode_zero test, moveNode_zero consequent, moveOptNode_zero alternate, moveSpan_zero]
  | .returnStatement argument span => by simp only [moveNode, moveOptNode_zero argument, moveSpan_zero]
  | .switchStatement discriminant cases span => by simp only [moveNode, moveNode_zero discriminant, moveListSwitchCase_zero cases, moveSpan_zero]
  | .throwStatement argument span => by simp only [moveNode, moveNode_zero argument, moveSpan_zero]
  | .tryStatement block handler finalizer span => by simp only [moveNode, moveNode_zero block, moveOptCatchClause_zero handler, moveOptNode_zero finalizer, moveSpan_zero]
  | .variableDeclaration declarations kind span => by simp only [moveNode, moveListVariableDeclarator_zero declarations, moveSpan_zero]
  | .whileStatement test body span => by simp only [moveNode, moveNode_zero test, moveNode_zero body, moveSpan_zero]
  | .withStatement object body span => by simp only [moveNode, moveNode_zero object, moveNode_zero body, moveSpan_zero]
  | .blockStatement body span => by simp only [moveNode, moveListNode_zero body, moveSpan_zero]
  | .classDeclaration id superClass body span => by simp only [moveNode, moveOptNode_zero id, moveOptNode_zero superClass, moveListMethodDefinition_zero body, moveSpan_zero]
  | .exportAllDeclaration source span => by simp only [moveNode, moveLiteral_zero, moveSpan_zero]
  | .exportDefaultDeclaration declaration span => by simp only [moveNode, moveNode_zero declaration, moveSpan_zero]
  | .exportNamedDeclaration declaration specifiers source span => by simp only [moveNode, moveOptNode_zero declaration, moveSpan_zero, map_exportSpecifier_zero, map_importSpecifier_zero, map_literal_zero]
  | .importDeclaration specifiers source span => by simp only [moveNode, moveLiteral_zero, moveSpan_zero, map_exportSpecifier_zero, map_importSpecifier_zero, map_literal_zero]
  | .importDefaultSpecifier loc span => by simp only [moveNode, moveIdentifier_zero, moveSpan_zero]
  | .importNamespaceSpecifier loc span => by simp only [moveNode, moveIdentifier_zero, moveSpan_zero]
  | .importSpecifier loc imported span => by simp only [moveNode, moveIdentifier_zero, moveSpan_zero]
  | .labeledStatement label body span => by simp only [moveNode, moveIdentifier_zero, moveNode_zero body, moveSpan_zero]
  | .moduleNode body sourceType span => by simp only [moveNode, moveListNode_zero body, moveSpan_zero]
  | .program body sourceType span => by simp only [moveNode, moveListNode_zero body, moveSpan_zero]

theorem moveBinding_zero : (x : Binding) → moveBinding 0 0 x = x
  | .bindingIdentifier name span => by simp only [moveBinding, moveSpan_zero]
  | .arrayPattern elements span => by simp only [moveBinding, moveHolesArrayPatternElement_zero elements, moveSpan_zero]
  | .objectPattern properties span => by simp only [moveBinding, moveListObjectPatternProperty_zero properties, moveSpan_zero]
  | .expression node => by simp only [moveBinding, moveNode_zero node]

theorem moveArrayExpressionElement_zero : (x : ArrayExpressionElement) → moveArrayExpressionElement 0 0 x = x
  | .expression node => by simp only [moveArrayExpressionElement, moveNode_zero node]
  | .spreadElement argument span => by simp only [moveArrayExpressionElement, moveNode_zero argument, moveSpan_zero]

theorem moveArrayPatternElement_zero : (x : ArrayPatternElement) → moveArrayPatternElement 0 0 x = x
  | .assignmentPattern left right => by simp only [moveArrayPatternElement, moveBinding_zero left, moveNode_zero right]
  | .bindingIdentifier name => by simp only [moveArrayPatternElement]
  | .arrayPattern elements => by simp only [moveArrayPatternElement, moveHolesArrayPatternElement_zero elements]
  | .objectPattern properties => by simp only [moveArrayPatternElement, moveListObjectPatternProperty_zero properties]
  | .restElement argument => by simp only [moveArrayPatternElement, moveBinding_zero argument]

theorem moveArrayAssignmentPatternElement_zero : (x : ArrayAssignmentPatternElement) → moveArrayAssignmentPatternElement 0 0 x = x
  | .expression node => by simp only [moveArrayAssignmentPatternElement, moveNode_zero node]
  | .restElement argument => by simp only [moveArrayAssignmentPatternElement, moveBinding_zero argument]

theorem movePropertyKey_zero : (x : PropertyKey) → movePropertyKey 0 0 x = x
  | .identifier id => by simp only [movePropertyKey, moveIdentifier_zero]
  | .literal lit => by simp only [movePropertyKey, moveLiteral_zero]
  | .expression node => by simp only [movePropertyKey, moveNode_zero node]

theorem moveFnExpr_zero : (x : FnExpr) → moveFnExpr 0 0 x = x
  | .mk id params body generator expression async => by simp only [moveFnExpr, moveOptNode_zero id, moveListFunctionParameter_zero params, moveNode_zero body]

theorem movePropertyValue_zero : (x : PropertyValue) → movePropertyValue 0 0 x = x
  | .assignmentPattern left right => by simp only [movePropertyValue, moveBinding_zero left, moveNode_zero right]
  | .asyncFunctionExpression f => by simp only [movePropertyValue, moveFnExpr_zero f]
  | .bindingIdentifier name span => by simp only [movePropertyValue, moveSpan_zero]
  | .bindingPattern p => by simp only [movePropertyValue, moveBindingPattern_zero p]
  | .functionExpression f => by simp only [movePropertyValue, moveFnExpr_zero f]
  | .expression node => by simp only [movePropertyValue, moveNode_zero node]

theorem moveObjectPatternProperty_zero : (x : ObjectPatternProperty) → moveObjectPatternProperty 0 0 x = x
  | .property key computed value kind method shorthand => by simp only [moveObjectPatternProperty, movePropertyKey_zero key, moveOptPropertyValue_zero value]
  | .restElement argument => by simp only [moveObjectPatternProperty, moveBinding_zero argument]

theorem moveBindingPattern_zero : (x : BindingPattern) → moveBindingPattern 0 0 x = x
  | .arrayPattern elements => by simp only [moveBindingPattern, moveHolesArrayPatternElement_zero elements]
  | .objectPattern properties => by simp only [moveBindingPattern, moveListObjectPatternProperty_zero properties]

theorem moveFunctionParameter_zero : (x : FunctionParameter) → moveFunctionParameter 0 0 x = x
  | .assignmentPattern left right => by simp only [moveFunctionParameter, moveBinding_zero left, moveNode_zero right]
  | .bindingIdentifier name => by simp only [moveFunctionParameter]
  | .arrayPattern elements => by simp only [moveFunctionParameter, moveHolesArrayPatternElement_zero elements]
  | .objectPattern properties => by simp only [moveFunctionParameter, moveListObjectPatternProperty_zero properties]
  | .restElement argument => by simp only [moveFunctionParameter, moveBinding_zero argument]

theorem moveArgumentListElement_zero : (x : ArgumentListElement) → moveArgumentListElement 0 0 x = x
  | .expression node => by simp only [moveArgumentListElement, moveNode_zero node]
  | .spreadElement argument span => by simp only [moveArgumentListElement, moveNode_zero argument, moveSpan_zero]

theorem moveObjectExpressionProperty_zero : (x : ObjectExpressionProperty) → moveObjectExpressionProperty 0 0 x = x
  | .property key computed value kind method shorthand span => by simp only [moveObjectExpressionProperty, movePropertyKey_zero key, moveOptPropertyValue_zero value, moveSpan_zero]
  | .spreadElement argument span => by simp only [moveObjectExpressionProperty, moveNode_zero argument, moveSpan_zero]

theorem moveMethodDefinition_zero : (x : MethodDefinition) → moveMethodDefinition 0 0 x = x
  | .mk key computed value kind static => by simp only [moveMethodDefinition, moveNode_zero key, moveOptFnExpr_zero value]

theorem moveSwitchCase_zero : (x : SwitchCase) → moveSwitchCase 0 0 x = x
  | .mk test consequent => by simp only [moveSwitchCase, moveOptNode_zero test, moveListNode_zero consequent]

theorem moveVariableDeclarator_zero : (x : VariableDeclarator) → moveVariableDeclarator 0 0 x = x
  | .mk id init => by simp only [moveVariableDeclarator, moveBinding_zero id, moveOptNode_zero init]

theorem moveCatchClause_zero : (x : CatchClause) → moveCatchClause 0 0 x = x
  | .mk param body => by simp only [moveCatchClause, moveOptBinding_zero param, moveNode_zero body]

theorem moveOptArrayExpressionElement_zero : (x : Option ArrayExpressionElement) → moveOptArrayExpressionElement 0 0 x = x
  | none => by simp only [moveOptArrayExpressionElement]
  | some a => by simp only [moveOptArrayExpressionElement, moveArrayExpressionElement_zero a]

theorem moveHolesArrayExpressionElement_zero : (x : List (Option ArrayExpressionElement)) → moveHolesArrayExpressionElement 0 0 x = x
  | [] => by simp only [moveHolesArrayExpressionElement]
  | a :: l => by simp only [moveHolesArrayExpressionElement, moveOptArrayExpressionElement_zero a, moveHolesArrayExpressionElement_zero l]

theorem moveOptArrayPatternElement_zero : (x : Option ArrayPatternElement) → moveOptArrayPatternElement 0 0 x = x
  | none => by simp only [moveOptArrayPatternElement]
  | some a => by simp only [moveOptArrayPatternElement, moveArrayPatternElement_zero a]

theorem moveHolesArrayPatternElement_zero : (x : List (Option ArrayPatternElement)) → moveHolesArrayPatternElement 0 0 x = x
  | [] => by simp only [moveHolesArrayPatternElement]
  | a :: l => by simp only [moveHolesArrayPatternElement, moveOptArrayPatternElement_zero a, moveHolesArrayPatternElement_zero l]

theorem moveOptArrayAssignmentPatternElement_zero : (x : Option ArrayAssignmentPatternElement) → moveOptArrayAssignmentPatternElement 0 0 x = x
  | none => by simp only [moveOptArrayAssignmentPatternElement]
  | some a => by simp only [moveOptArrayAssignmentPatternElement, moveArrayAssignmentPatternElement_zero a]

theorem moveHolesArrayAssignmentPatternElement_zero : (x : List (Option ArrayAssignmentPatternElement)) → moveHolesArrayAssignmentPatternElement 0 0 x = x
  | [] => by simp only [moveHolesArrayAssignmentPatternElement]
  | a :: l => by simp only [moveHolesArrayAssignmentPatternElement, moveOptArrayAssignmentPatternElement_zero a, moveHolesArrayAssignmentPatternElement_zero l]

theorem moveOptNode_zero : (x : Option Node) → moveOptNode 0 0 x = x
  | none => by simp only [moveOptNode]
  | some a => by simp only [moveOptNode, moveNode_zero a]

theorem moveListFunctionParameter_zero : (x : List FunctionParameter) → moveListFunctionParameter 0 0 x = x
  | [] => by simp only [moveListFunctionParameter]
  | a :: l => by simp only [moveListFunctionParameter, moveFunctionParameter_zero a, moveListFunctionParameter_zero l]

theorem moveListArgumentListElement_zero : (x : List ArgumentListElement) → moveListArgumentListElement 0 0 x = x
  | [] => by simp only [moveListArgumentListElement]
  | a :: l => by simp only [moveListArgumentListElement, moveArgumentListElement_zero a, moveListArgumentListElement_zero l]

theorem moveListMethodDefinition_zero : (x : List MethodDefinition) → moveListMethodDefinition 0 0 x = x
  | [] => by simp only [moveListMethodDefinition]
  | a :: l => by simp only [moveListMethodDefinition, moveMethodDefinition_zero a, moveListMethodDefinition_zero l]

theorem moveListObjectExpressionProperty_zero : (x : List ObjectExpressionProperty) → moveListObjectExpressionProperty 0 0 x = x
  | [] => by simp only [moveListObjectExpressionProperty]
  | a :: l => by simp only [moveListObjectExpressionProperty, moveObjectExpressionProperty_zero a, moveListObjectExpressionProperty_zero l]

theorem moveListObjectPatternProperty_zero : (x : List ObjectPatternProperty) → moveListObjectPatternProperty 0 0 x = x
  | [] => by simp only [moveListObjectPatternProperty]
  | a :: l => by simp only [moveListObjectPatternProperty, moveObjectPatternProperty_zero a, moveListObjectPatternProperty_zero l]

theorem moveListNode_zero : (x : List Node) → moveListNode 0 0 x = x
  | [] => by simp only [moveListNode]
  | a :: l => by simp only [moveListNode, moveNode_zero a, moveListNode_zero l]

theorem moveListSwitchCase_zero : (x : List SwitchCase) → moveListSwitchCase 0 0 x = x
  | [] => by simp only [moveListSwitchCase]
  | a :: l => by simp only [moveListSwitchCase, moveSwitchCase_zero a, moveListSwitchCase_zero l]

theorem moveOptCatchClause_zero : (x : Option CatchClause) → moveOptCatchClause 0 0 x = x
  | none => by simp only [moveOptCatchClause]
  | some a => by simp only [moveOptCatchClause, moveCatchClause_zero a]

theorem moveListVariableDeclarator_zero : (x : List VariableDeclarator) → moveListVariableDeclarator 0 0 x = x
  | [] => by simp only [moveListVariableDeclarator]
  | a :: l => by simp only [moveListVariableDeclarator, moveVariableDeclarator_zero a, moveListVariableDeclarator_zero l]

theorem moveOptPropertyValue_zero : (x : Option PropertyValue) → moveOptPropertyValue 0 0 x = x
  | none => by simp only [moveOptPropertyValue]
  | some a => by simp only [moveOptPropertyValue, movePropertyValue_zero a]

theorem moveOptFnExpr_zero : (x : Option FnExpr) → moveOptFnExpr 0 0 x = x
  | none => by simp only [moveOptFnExpr]
  | some a => by simp only [moveOptFnExpr, moveFnExpr_zero a]

theorem moveOptBinding_zero : (x : Option Binding) → moveOptBinding 0 0 x = x
  | none => by simp only [moveOptBinding]
  | some a => by simp only [moveOptBinding, moveBinding_zero a]

end

end Giron.Spec

import Verif.Spec.Eased
import Verif.Model.Json
/-
Eased trees are rendered alike.  (Generated.)
-/
namespace Giron.Ease
open Spec
variable [Env]

mutual

theorem j_Node : ∀ (n n' : Node), EasedNode n n' → nodeJson n' = nodeJson n
  | .arrayExpression elements _ _, _, h => by
    cases h with | arrayExpression h_elements _ =>
    simp only [nodeJson, jh_ArrayExpressionElement elements _ h_elements]
  | .arrayPattern elements _ _, _, h => by
    cases h with | arrayPattern h_elements _ =>
    simp only [nodeJson, jh_ArrayPatternElement elements _ h_elements]
  | .arrayAssignmentPattern elements _ _, _, h => by
    cases h with | arrayAssignmentPattern h_elements _ =>
    simp only [nodeJson, jh_ArrayAssignmentPatternElement elements _ h_elements]
  | .arrowFunctionExpression id params body _ _ _ _ _, _, h => by
    cases h with | arrowFunctionExpression h_id h_params h_body _ =>
    simp only [nodeJson, jo_Node id _ h_id, jl_FunctionParameter params _ h_params, j_Node body _ h_body]
  | .assignmentExpression _ left right _ _, _, h => by
    cases h with | assignmentExpression h_left h_right _ =>
    simp only [nodeJson, j_Node left _ h_left, j_Node right _ h_right]
  | .assignmentPattern left right _, _, h => by
    cases h with | assignmentPattern h_left h_right =>
    simp only [nodeJson, j_Binding left _ h_left, j_Node right _ h_right]
  | .assignmentRestElement argument _, _, h => by
    cases h with | assignmentRestElement h_argument =>
    simp only [nodeJson, j_Node argument _ h_argument]
  | .asyncArrowFunctionExpression id params body _ _ _ _ _, _, h => by
    cases h with | asyncArrowFunctionExpression h_id h_params h_body _ =>
    simp only [nodeJson, jo_Node id _ h_id, jl_FunctionParameter params _ h_params, j_Node body _ h_body]
  | .asyncFunctionExpression id params body _ _ _ _ _, _, h => by
    cases h with | asyncFunctionExpression h_id h_params h_body _ =>
    simp only [nodeJson, jo_Node id _ h_id, jl_FunctionParameter params _ h_params, j_Node body _ h_body]
  | .awaitExpression argument _, _, h => by
    cases h with | awaitExpression h_argument =>
    simp only [nodeJson, j_Node argument _ h_argument]
  | .binaryExpression _ left right _ _, _, h => by
    cases h with | binaryExpression h_left h_right _ =>
    simp only [nodeJson, j_Node left _ h_left, j_Node right _ h_right]
  | .bindingIdentifier _ _, _, h => by
    cases h with | bindingIdentifier =>
    simp only [nodeJson]
  | .logicalExpression _ left right _, _, h => by
    cases h with | logicalExpression h_left h_right =>
    simp only [nodeJson, j_Node left _ h_left, j_Node right _ h_right]
  | .callExpression callee arguments _ _, _, h => by
    cases h with | callExpression h_callee h_arguments _ =>
    simp only [nodeJson, j_Node callee _ h_callee, jl_ArgumentListElement arguments _ h_arguments]
  | .classExpression id superClass body _ _, _, h => by
    cases h with | classExpression h_id h_superClass h_body _ =>
    simp only [nodeJson, jo_Node id _ h_id, jo_Node superClass _ h_superClass, jl_MethodDefinition body _ h_body]
  | .computedMemberExpression _ object property _ _, _, h => by
    cases h with | computedMemberExpression h_object h_property _ =>
    simp only [nodeJson, j_Node object _ h_object, j_Node property _ h_property]
  | .conditionalExpression test consequent alternate _, _, h => by
    cases h with | conditionalExpression h_test h_consequent h_alternate =>
    simp only [nodeJson, j_Node test _ h_test, j_Node consequent _ h_consequent, j_Node alternate _ h_alternate]
  | .identifier _ _ _, _, h => by
    cases h with | identifier _ =>
    simp only [nodeJson]
  | .functionExpression id params body _ _ _ _ _, _, h => by
    cases h with | functionExpression h_id h_params h_body _ =>
    simp only [nodeJson, jo_Node id _ h_id, jl_FunctionParameter params _ h_params, j_Node body _ h_body]
  | .literal _ _ _ _, _, h => by
    cases h with | literal _ =>
    simp only [nodeJson]
  | .newExpression callee arguments _ _, _, h => by
    cases h with | newExpression h_callee h_arguments _ =>
    simp only [nodeJson, j_Node callee _ h_callee, jl_ArgumentListElement arguments _ h_arguments]
  | .objectExpression properties _ _, _, h => by
    cases h with | objectExpression h_properties _ =>
    simp only [nodeJson, jl_ObjectExpressionProperty properties _ h_properties]
  | .objectPattern properties _ _, _, h => by
    cases h with | objectPattern h_properties _ =>
    simp only [nodeJson, jl_ObjectPatternProperty properties _ h_properties]
  | .regexLiteral _ _ _ _ _, _, h => by
    cases h with | regexLiteral _ =>
    simp only [nodeJson]
  | .sequenceExpression expressions _ _, _, h => by
    cases h with | sequenceExpression h_expressions _ =>
    simp only [nodeJson, jl_Node expressions _ h_expressions]
  | .staticMemberExpression _ object property _ _, _, h => by
    cases h with | staticMemberExpression h_object h_property _ =>
    simp only [nodeJson, j_Node object _ h_object, j_Node property _ h_property]
  | .taggedTemplateExpression tag _ expressions _, _, h => by
    cases h with | taggedTemplateExpression h_tag h_expressions =>
    simp only [nodeJson, j_Node tag _ h_tag, jl_Node expressions _ h_expressions]
  | .thisExpression _ _, _, h => by
    cases h with | thisExpression _ =>
    simp only [nodeJson]
  | .unaryExpression _ argument _ _ _, _, h => by
    cases h with | unaryExpression h_argument _ =>
    simp only [nodeJson, j_Node argument _ h_argument]
  | .updateExpression _ argument _ _ _, _, h => by
    cases h with | updateExpression h_argument _ =>
    simp only [nodeJson, j_Node argument _ h_argument]
  | .yieldExpression argument _ _ _, _, h => by
    cases h with | yieldExpression h_argument _ =>
    simp only [nodeJson, jo_Node argument _ h_argument]
  | .arrowParameterPlaceHolder params _ _, _, h => by
    cases h with | arrowParameterPlaceHolder h_params =>
    simp only [nodeJson, jl_FunctionParameter params _ h_params]
  | .restElement argument _, _, h => by
    cases h with | restElement h_argument =>
    simp only [nodeJson, j_Binding argument _ h_argument]
  | .spreadElement argument _, _, h => by
    cases h with | spreadElement h_argument =>
    simp only [nodeJson, j_Node argument _ h_argument]
  | .super _ _, _, h => by
    cases h with | super _ =>
    simp only [nodeJson]
  | .templateLiteral _ expressions _ _, _, h => by
    cases h with | templateLiteral h_expressions _ =>
    simp only [nodeJson, jl_Node expressions _ h_expressions]
  | .metaProperty metaId property _ _, _, h => by
    cases h with | metaProperty h_metaId h_property _ =>
    simp only [nodeJson, j_Node metaId _ h_metaId, j_Node property _ h_property]
  | .asyncFunctionDeclaration id params body _ _ _ _, _, h => by
    cases h with | asyncFunctionDeclaration h_id h_params h_body =>
    simp only [nodeJson, jo_Node id _ h_id, jl_FunctionParameter params _ h_params, j_Node body _ h_body]
  | .breakStatement label _, _, h => by
    cases h with | breakStatement h_label =>
    simp only [nodeJson, jo_Node label _ h_label]
  | .continueStatement label _, _, h => by
    cases h with | continueStatement h_label =>
    simp only [nodeJson, jo_Node label _ h_label]
  | .debuggerStatement _, _, h => by
    cases h with | debuggerStatement =>
    simp only [nodeJson]
  | .doWhileStatement body test _, _, h => by
    cases h with | doWhileStatement h_body h_test =>
    simp only [nodeJson, j_Node body _ h_body, j_Node test _ h_test]
  | .emptyStatement _, _, h => by
    cases h with | emptyStatement =>
    simp only [nodeJson]
  | .expressionStatement expression _, _, h => by
    cases h with | expressionStatement h_expression =>
    simp only [nodeJson, j_Node expression _ h_expression]
  | .directive expression _ _, _, h => by
    cases h with | directive h_expression =>
    simp only [nodeJson, j_Node expression _ h_expression]
  | .forStatement init test update body _, _, h => by
    cases h with | forStatement h_init h_test h_update h_body =>
    simp only [nodeJson, jo_Node init _ h_init, jo_Node test _ h_test, jo_Node update _ h_update, j_Node body _ h_body]
  | .forInStatement left right body _ _, _, h => by
    cases h with | forInStatement h_left h_right h_body =>
    simp only [nodeJson, j_Node left _ h_left, j_Node right _ h_right, j_Node body _ h_body]
  | .forOfStatement left right body _, _, h => by
    cases h with | forOfStatement h_left h_right h_body =>
    simp only [nodeJson, j_Node left _ h_left, j_Node right _ h_right, j_Node body _ h_body]
  | .functionDeclaration id params body _ _ _ _, _, h => by
    cases h with | functionDeclaration h_id h_params h_body =>
    simp only [nodeJson, jo_Node id _ h_id, jl_FunctionParameter params _ h_params, j_Node body _ h_body]
  | .ifStatement test consequent alternate _, _, h => by
    cases h with | ifStatement h_test h_consequent h_alternate =>
    simp only [nodeJson, j_Node test _ h_test, j_Node consequent _ h_consequent, jo_Node alternate _ h_alternate]
  | .returnStatement argument _, _, h => by
    cases h with | returnStatement h_argument =>
    simp only [nodeJson, jo_Node argument _ h_argument]
  | .switchStatement discriminant cases _, _, h => by
    cases h with | switchStatement h_discriminant h_cases =>
    simp only [nodeJson, j_Node discriminant _ h_discriminant, jl_SwitchCase cases _ h_cases]
  | .throwStatement argument _, _, h => by
    cases h with | throwStatement h_argument =>
    simp only [nodeJson, j_Node argument _ h_argument]
  | .tryStatement block handler finalizer _, _, h => by
    cases h with | tryStatement h_block h_handler h_finalizer =>
    simp only [nodeJson, j_Node block _ h_block, jo_CatchClause handler _ h_handler, jo_Node finalizer _ h_finalizer]
  | .variableDeclaration declarations _ _, _, h => by
    cases h with | variableDeclaration h_declarations =>
    simp only [nodeJson, jl_VariableDeclarator declarations _ h_declarations]
  | .whileStatement test body _, _, h => by
    cases h with | whileStatement h_test h_body =>
    simp only [nodeJson, j_Node test _ h_test, j_Node body _ h_body]
  | .withStatement object body _, _, h => by
    cases h with | withStatement h_object h_body =>
    simp only [nodeJson, j_Node object _ h_object, j_Node body _ h_body]
  | .blockStatement body _, _, h => by
    cases h with | blockStatement h_body =>
    simp only [nodeJson, jl_Node body _ h_body]
  | .classDeclaration id superClass body _, _, h => by
    cases h with | classDeclaration h_id h_superClass h_body =>
    simp only [nodeJson, jo_Node id _ h_id, jo_Node superClass _ h_superClass, jl_MethodDefinition body _ h_body]
  | .exportAllDeclaration _ _, _, h => by
    cases h with | exportAllDeclaration =>
    simp only [nodeJson]
  | .exportDefaultDeclaration declaration _, _, h => by
    cases h with | exportDefaultDeclaration h_declaration =>
    simp only [nodeJson, j_Node declaration _ h_declaration]
  | .exportNamedDeclaration declaration _ _ _, _, h => by
    cases h with | exportNamedDeclaration h_declaration =>
    simp only [nodeJson, jo_Node declaration _ h_declaration]
  | .importDeclaration _ _ _, _, h => by
    cases h with | importDeclaration =>
    simp only [nodeJson]
  | .importDefaultSpecifier _ _, _, h => by
    cases h with | importDefaultSpecifier =>
    simp only [nodeJson]
  | .importNamespaceSpecifier _ _, _, h => by
    cases h with | importNamespaceSpecifier =>
    simp only [nodeJson]
  | .importSpecifier _ _ _, _, h => by
    cases h with | importSpecifier =>
    simp only [nodeJson]
  | .labeledStatement _ body _, _, h => by
    cases h with | labeledStatement h_body =>
    simp only [nodeJson, j_Node body _ h_body]
  | .moduleNode body _ _, _, h => by
    cases h with | moduleNode h_body =>
    simp only [nodeJson, jl_Node body _ h_body]
  | .program body _ _, _, h => by
    cases h with | program h_body =>
    simp only [nodeJson, jl_Node body _ h_body]
termination_by structural n => n

theorem j_Binding : ∀ (n n' : Binding), EasedBinding n n' → bindingJson n' = bindingJson n
  | .bindingIdentifier _ _, _, h => by
    cases h with | bindingIdentifier =>
    simp only [bindingJson]
  | .arrayPattern elements _, _, h => by
    cases h with | arrayPattern h_elements =>
    simp only [bindingJson, jh_ArrayPatternElement elements _ h_elements]
  | .objectPattern properties _, _, h => by
    cases h with | objectPattern h_properties =>
    simp only [bindingJson, jl_ObjectPatternProperty properties _ h_properties]
  | .expression node, _, h => by
    cases h with | expression h_node =>
    simp only [bindingJson, j_Node node _ h_node]
termination_by structural n => n

theorem j_ArrayExpressionElement : ∀ (n n' : ArrayExpressionElement), EasedArrayExpressionElement n n' → arrayExpressionElementJson n' = arrayExpressionElementJson n
  | .expression node, _, h => by
    cases h with | expression h_node =>
    simp only [arrayExpressionElementJson, j_Node node _ h_node]
  | .spreadElement argument _, _, h => by
    cases h with | spreadElement h_argument =>
    simp only [arrayExpressionElementJson, j_Node argument _ h_argument]
termination_by structural n => n

theorem j_ArrayPatternElement : ∀ (n n' : ArrayPatternElement), EasedArrayPatternElement n n' → arrayPatternElementJson n' = arrayPatternElementJson n
  | .assignmentPattern left right, _, h => by
    cases h with | assignmentPattern h_left h_right =>
    simp only [arrayPatternElementJson, j_Binding left _ h_left, j_Node right _ h_right]
  | .bindingIdentifier _, _, h => by
    cases h with | bindingIdentifier =>
    simp only [arrayPatternElementJson]
  | .arrayPattern elements, _, h => by
    cases h with | arrayPattern h_elements =>
    simp only [arrayPatternElementJson, jh_ArrayPatternElement elements _ h_elements]
  | .objectPattern properties, _, h => by
    cases h with | objectPattern h_properties =>
    simp only [arrayPatternElementJson, jl_ObjectPatternProperty properties _ h_properties]
  | .restElement argument, _, h => by
    cases h with | restElement h_argument =>
    simp only [arrayPatternElementJson, j_Binding argument _ h_argument]
termination_by structural n => n

theorem j_ArrayAssignmentPatternElement : ∀ (n n' : ArrayAssignmentPatternElement), EasedArrayAssignmentPatternElement n n' → arrayAssignmentPatternElementJson n' = arrayAssignmentPatternElementJson n
  | .expression node, _, h => by
    cases h with | expression h_node =>
    simp only [arrayAssignmentPatternElementJson, j_Node node _ h_node]
  | .restElement argument, _, h => by
    cases h with | restElement h_argument =>
    simp only [arrayAssignmentPatternElementJson, j_Binding argument _ h_argument]
termination_by structural n => n

theorem j_PropertyKey : ∀ (n n' : PropertyKey), EasedPropertyKey n n' → propertyKeyJson n' = propertyKeyJson n
  | .identifier _, _, h => by
    cases h with | identifier =>
    simp only [propertyKeyJson]
  | .literal _, _, h => by
    cases h with | literal =>
    simp only [propertyKeyJson]
  | .expression node, _, h => by
    cases h with | expression h_node =>
    simp only [propertyKeyJson, j_Node node _ h_node]
termination_by structural n => n

theorem j_FnExpr : ∀ (n n' : FnExpr) (tag : Str), EasedFnExpr n n' → fnExprJson tag n' = fnExprJson tag n
  | .mk id params body _ _ _, _, _, h => by
    cases h with | mk h_id h_params h_body =>
    simp only [fnExprJson, jo_Node id _ h_id, jl_FunctionParameter params _ h_params, j_Node body _ h_body]
termination_by structural n => n

theorem j_PropertyValue : ∀ (n n' : PropertyValue), EasedPropertyValue n n' → propertyValueJson n' = propertyValueJson n
  | .assignmentPattern left right, _, h => by
    cases h with | assignmentPattern h_left h_right =>
    simp only [propertyValueJson, j_Binding left _ h_left, j_Node right _ h_right]
  | .asyncFunctionExpression f, _, h => by
    cases h with | asyncFunctionExpression h_f =>
    simp only [propertyValueJson, j_FnExpr f _ _ h_f]
  | .bindingIdentifier _ _, _, h => by
    cases h with | bindingIdentifier =>
    simp only [propertyValueJson]
  | .bindingPattern p, _, h => by
    cases h with | bindingPattern h_p =>
    simp only [propertyValueJson, j_BindingPattern p _ h_p]
  | .functionExpression f, _, h => by
    cases h with | functionExpression h_f =>
    simp only [propertyValueJson, j_FnExpr f _ _ h_f]
  | .expression node, _, h => by
    cases h with | expression h_node =>
    simp only [propertyValueJson, j_Node node _ h_node]
termination_by structural n => n

theorem j_ObjectPatternProperty : ∀ (n n' : ObjectPatternProperty), EasedObjectPatternProperty n n' → objectPatternPropertyJson n' = objectPatternPropertyJson n
  | .property key _ value _ _ _, _, h => by
    cases h with | property h_key h_value =>
    simp only [objectPatternPropertyJson, j_PropertyKey key _ h_key, jo_PropertyValue value _ h_value]
  | .restElement argument, _, h => by
    cases h with | restElement h_argument =>
    simp only [objectPatternPropertyJson, j_Binding argument _ h_argument]
termination_by structural n => n

theorem j_BindingPattern : ∀ (n n' : BindingPattern), EasedBindingPattern n n' → bindingPatternJson n' = bindingPatternJson n
  | .arrayPattern elements, _, h => by
    cases h with | arrayPattern h_elements =>
    simp only [bindingPatternJson, jh_ArrayPatternElement elements _ h_elements]
  | .objectPattern properties, _, h => by
    cases h with | objectPattern h_properties =>
    simp only [bindingPatternJson, jl_ObjectPatternProperty properties _ h_properties]
termination_by structural n => n

theorem j_FunctionParameter : ∀ (n n' : FunctionParameter), EasedFunctionParameter n n' → functionParameterJson n' = functionParameterJson n
  | .assignmentPattern left right, _, h => by
    cases h with | assignmentPattern h_left h_right =>
    simp only [functionParameterJson, j_Binding left _ h_left, j_Node right _ h_right]
  | .bindingIdentifier _, _, h => by
    cases h with | bindingIdentifier =>
    simp only [functionParameterJson]
  | .arrayPattern elements, _, h => by
    cases h with | arrayPattern h_elements =>
    simp only [functionParameterJson, jh_ArrayPatternElement elements _ h_elements]
  | .objectPattern properties, _, h => by
    cases h with | objectPattern h_properties =>
    simp only [functionParameterJson, jl_ObjectPatternProperty properties _ h_properties]
  | .restElement argument, _, h => by
    cases h with | restElement h_argument =>
    simp only [functionParameterJson, j_Binding argument _ h_argument]
termination_by structural n => n

theorem j_ArgumentListElement : ∀ (n n' : ArgumentListElement), EasedArgumentListElement n n' → argumentListElementJson n' = argumentListElementJson n
  | .expression node, _, h => by
    cases h with | expression h_node =>
    simp only [argumentListElementJson, j_Node node _ h_node]
  | .spreadElement argument _, _, h => by
    cases h with | spreadElement h_argument =>
    simp only [argumentListElementJson, j_Node argument _ h_argument]
termination_by structural n => n

theorem j_ObjectExpressionProperty : ∀ (n n' : ObjectExpressionProperty), EasedObjectExpressionProperty n n' → objectExpressionPropertyJson n' = objectExpressionPropertyJson n
  | .property key _ value _ _ _ _, _, h => by
    cases h with | property h_key h_value =>
    simp only [objectExpressionPropertyJson, j_PropertyKey key _ h_key, jo_PropertyValue value _ h_value]
  | .spreadElement argument _, _, h => by
    cases h with | spreadElement h_argument =>
    simp only [objectExpressionPropertyJson, j_Node argument _ h_argument]
termination_by structural n => n

theorem j_MethodDefinition : ∀ (n n' : MethodDefinition), EasedMethodDefinition n n' → methodDefinitionJson n' = methodDefinitionJson n
  | .mk key _ value _ _, _, h => by
    cases h with | mk h_key h_value =>
    simp only [methodDefinitionJson, j_Node key _ h_key, jo_FnExpr value _ h_value]
termination_by structural n => n

theorem j_SwitchCase : ∀ (n n' : SwitchCase), EasedSwitchCase n n' → switchCaseJson n' = switchCaseJson n
  | .mk test consequent, _, h => by
    cases h with | mk h_test h_consequent =>
    simp only [switchCaseJson, jo_Node test _ h_test, jl_Node consequent _ h_consequent]
termination_by structural n => n

theorem j_VariableDeclarator : ∀ (n n' : VariableDeclarator), EasedVariableDeclarator n n' → variableDeclaratorJson n' = variableDeclaratorJson n
  | .mk id init, _, h => by
    cases h with | mk h_id h_init =>
    simp only [variableDeclaratorJson, j_Binding id _ h_id, jo_Node init _ h_init]
termination_by structural n => n

theorem j_CatchClause : ∀ (n n' : CatchClause), EasedCatchClause n n' → catchClauseJson n' = catchClauseJson n
  | .mk param body, _, h => by
    cases h with | mk h_param h_body =>
    simp only [catchClauseJson, jo_Binding param _ h_param, j_Node body _ h_body]
termination_by structural n => n

theorem jh_ArrayAssignmentPatternElement : ∀ (n n' : List (Option ArrayAssignmentPatternElement)), EasedList (EasedOpt EasedArrayAssignmentPatternElement) n n' → holesArrayAssignmentPatternElementJson n' = holesArrayAssignmentPatternElementJson n
  | [], _, h => by cases h with | nil => rfl
  | x :: l, _, h => by
    cases h with | cons h1 h2 =>
    simp only [holesArrayAssignmentPatternElementJson, jo_ArrayAssignmentPatternElement x _ h1, jh_ArrayAssignmentPatternElement l _ h2]
termination_by structural n => n

theorem jh_ArrayExpressionElement : ∀ (n n' : List (Option ArrayExpressionElement)), EasedList (EasedOpt EasedArrayExpressionElement) n n' → holesArrayExpressionElementJson n' = holesArrayExpressionElementJson n
  | [], _, h => by cases h with | nil => rfl
  | x :: l, _, h => by
    cases h with | cons h1 h2 =>
    simp only [holesArrayExpressionElementJson, jo_ArrayExpressionElement x _ h1, jh_ArrayExpressionElement l _ h2]
termination_by structural n => n

theorem jh_ArrayPatternElement : ∀ (n n' : List (Option ArrayPatternElement)), EasedList (EasedOpt EasedArrayPatternElement) n n' → holesArrayPatternElementJson n' = holesArrayPatternElementJson n
  | [], _, h => by cases h with | nil => rfl
  | x :: l, _, h => by
    cases h with | cons h1 h2 =>
    simp only [holesArrayPatternElementJson, jo_ArrayPatternElement x _ h1, jh_ArrayPatternElement l _ h2]
termination_by structural n => n

theorem jl_ArgumentListElement : ∀ (n n' : List ArgumentListElement), EasedList EasedArgumentListElement n n' → listArgumentListElementJson n' = listArgumentListElementJson n
  | [], _, h => by cases h with | nil => rfl
  | x :: l, _, h => by
    cases h with | cons h1 h2 =>
    simp only [listArgumentListElementJson, j_ArgumentListElement x _ h1, jl_ArgumentListElement l _ h2]
termination_by structural n => n

theorem jl_FunctionParameter : ∀ (n n' : List FunctionParameter), EasedList EasedFunctionParameter n n' → listFunctionParameterJson n' = listFunctionParameterJson n
  | [], _, h => by cases h with | nil => rfl
  | x :: l, _, h => by
    cases h with | cons h1 h2 =>
    simp only [listFunctionParameterJson, j_FunctionParameter x _ h1, jl_FunctionParameter l _ h2]
termination_by structural n => n

theorem jl_MethodDefinition : ∀ (n n' : List MethodDefinition), EasedList EasedMethodDefinition n n' → listMethodDefinitionJson n' = listMethodDefinitionJson n
  | [], _, h => by cases h with | nil => rfl
  | x :: l, _, h => by
    cases h with | cons h1 h2 =>
    simp only [listMethodDefinitionJson, j_MethodDefinition x _ h1, jl_MethodDefinition l _ h2]
termination_by structural n => n

theorem jl_Node : ∀ (n n' : List Node), EasedList EasedNode n n' → listNodeJson n' = listNodeJson n
  | [], _, h => by cases h with | nil => rfl
  | x :: l, _, h => by
    cases h with | cons h1 h2 =>
    simp only [listNodeJson, j_Node x _ h1, jl_Node l _ h2]
termination_by structural n => n

theorem jl_ObjectExpressionProperty : ∀ (n n' : List ObjectExpressionProperty), EasedList EasedObjectExpressionProperty n n' → listObjectExpressionPropertyJson n' = listObjectExpressionPropertyJson n
  | [], _, h => by cases h with | nil => rfl
  | x :: l, _, h => by
    cases h with | cons h1 h2 =>
    simp only [listObjectExpressionPropertyJson, j_ObjectExpressionProperty x _ h1, jl_ObjectExpressionProperty l _ h2]
termination_by structural n => n

theorem jl_ObjectPatternProperty : ∀ (n n' : List ObjectPatternProperty), EasedList EasedObjectPatternProperty n n' → listObjectPatternPropertyJson n' = listObjectPatternPropertyJson n
  | [], _, h => by cases h with | nil => rfl
  | x :: l, _, h => by
    cases h with | cons h1 h2 =>
    simp only [listObjectPatternPropertyJson, j_ObjectPatternProperty x _ h1, jl_ObjectPatternProperty l _ h2]
termination_by structural n => n

theorem jl_SwitchCase : ∀ (n n' : List SwitchCase), EasedList EasedSwitchCase n n' → listSwitchCaseJson n' = listSwitchCaseJson n
  | [], _, h => by cases h with | nil => rfl
  | x :: l, _, h => by
    cases h with | cons h1 h2 =>
    simp only [listSwitchCaseJson, j_SwitchCase x _ h1, jl_SwitchCase l _ h2]
termination_by structural n => n

theorem jl_VariableDeclarator : ∀ (n n' : List VariableDeclarator), EasedList EasedVariableDeclarator n n' → listVariableDeclaratorJson n' = listVariableDeclaratorJson n
  | [], _, h => by cases h with | nil => rfl
  | x :: l, _, h => by
    cases h with | cons h1 h2 =>
    simp only [listVariableDeclaratorJson, j_VariableDeclarator x _ h1, jl_VariableDeclarator l _ h2]
termination_by structural n => n

theorem jo_ArrayAssignmentPatternElement : ∀ (n n' : Option ArrayAssignmentPatternElement), EasedOpt EasedArrayAssignmentPatternElement n n' → optArrayAssignmentPatternElementJson n' = optArrayAssignmentPatternElementJson n
  | none, _, h => by cases h with | none => rfl
  | some x, _, h => by
    cases h with | some h1 =>
    simp only [optArrayAssignmentPatternElementJson, j_ArrayAssignmentPatternElement x _ h1]
termination_by structural n => n

theorem jo_ArrayExpressionElement : ∀ (n n' : Option ArrayExpressionElement), EasedOpt EasedArrayExpressionElement n n' → optArrayExpressionElementJson n' = optArrayExpressionElementJson n
  | none, _, h => by cases h with | none => rfl
  | some x, _, h => by
    cases h with | some h1 =>
    simp only [optArrayExpressionElementJson, j_ArrayExpressionElement x _ h1]
termination_by structural n => n

theorem jo_ArrayPatternElement : ∀ (n n' : Option ArrayPatternElement), EasedOpt EasedArrayPatternElement n n' → optArrayPatternElementJson n' = optArrayPatternElementJson n
  | none, _, h => by cases h with | none => rfl
  | some x, _, h => by
    cases h with | some h1 =>
    simp only [optArrayPatternElementJson, j_ArrayPatternElement x _ h1]
termination_by structural n => n

theorem jo_Binding : ∀ (n n' : Option Binding), EasedOpt EasedBinding n n' → optBindingJson n' = optBindingJson n
  | none, _, h => by cases h with | none => rfl
  | some x, _, h => by
    cases h with | some h1 =>
    simp only [optBindingJson, j_Binding x _ h1]
termination_by structural n => n

theorem jo_CatchClause : ∀ (n n' : Option CatchClause), EasedOpt EasedCatchClause n n' → optCatchClauseJson n' = optCatchClauseJson n
  | none, _, h => by cases h with | none => rfl
  | some x, _, h => by
    cases h with | some h1 =>
    simp only [optCatchClauseJson, j_CatchClause x _ h1]
termination_by structural n => n

theorem jo_FnExpr : ∀ (n n' : Option FnExpr), EasedOpt EasedFnExpr n n' → optFnExprJson n' = optFnExprJson n
  | none, _, h => by cases h with | none => rfl
  | some x, _, h => by
    cases h with | some h1 =>
    simp only [optFnExprJson, j_FnExpr x _ _ h1]
termination_by structural n => n

theorem jo_Node : ∀ (n n' : Option Node), EasedOpt EasedNode n n' → optNodeJson n' = optNodeJson n
  | none, _, h => by cases h with | none => rfl
  | some x, _, h => by
    cases h with | some h1 =>
    simp only [optNodeJson, j_Node x _ h1]
termination_by structural n => n

theorem jo_PropertyValue : ∀ (n n' : Option PropertyValue), EasedOpt EasedPropertyValue n n' → optPropertyValueJson n' = optPropertyValueJson n
  | none, _, h => by cases h with | none => rfl
  | some x, _, h => by
    cases h with | some h1 =>
    simp only [optPropertyValueJson, j_PropertyValue x _ h1]
termination_by structural n => n

end

end Giron.Ease

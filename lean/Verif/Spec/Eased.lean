import Verif.Model.Estree
/-
The same tree, but for the words `eval` and `arguments`, which may be assigned to on the right although not on the left:
specification for C52.  (Generated: one rule per kind of node, which says that all the fields are the same, but for the
`assign_target_type`.)
-/
namespace Giron.Spec

/-- `assign_target_type`: the same, or `strict` on the left and `simple` on the right -/
inductive EasedAtt : ATT → ATT → Prop
  | same {a} : EasedAtt a a
  | eased : EasedAtt .strict .simple

/-- lists, item by item -/
inductive EasedList {α : Type} (R : α → α → Prop) : List α → List α → Prop
  | nil : EasedList R [] []
  | cons {a a' l l'} : R a a' → EasedList R l l' → EasedList R (a :: l) (a' :: l')

/-- what may be absent -/
inductive EasedOpt {α : Type} (R : α → α → Prop) : Option α → Option α → Prop
  | none : EasedOpt R none none
  | some {a a'} : R a a' → EasedOpt R (some a) (some a')

mutual

/-- `Node`: the same but for `assign_target_type` -/
inductive EasedNode : Node → Node → Prop
  | arrayExpression {elements att span elements' att'} (h_elements : EasedList (EasedOpt EasedArrayExpressionElement) elements elements') (h_att : EasedAtt att att') :
    EasedNode (.arrayExpression elements att span) (.arrayExpression elements' att' span)
  | arrayPattern {elements att span elements' att'} (h_elements : EasedList (EasedOpt EasedArrayPatternElement) elements elements') (h_att : EasedAtt att att') :
    EasedNode (.arrayPattern elements att span) (.arrayPattern elements' att' span)
  | arrayAssignmentPattern {elements att span elements' att'} (h_elements : EasedList (EasedOpt EasedArrayAssignmentPatternElement) elements elements') (h_att : EasedAtt att att') :
    EasedNode (.arrayAssignmentPattern elements att span) (.arrayAssignmentPattern elements' att' span)
  | arrowFunctionExpression {id params body generator expression async att span id' params' body' att'} (h_id : EasedOpt EasedNode id id') (h_params : EasedList EasedFunctionParameter params params') (h_body : EasedNode body body') (h_att : EasedAtt att att') :
    EasedNode (.arrowFunctionExpression id params body generator expression async att span) (.arrowFunctionExpression id' params' body' generator expression async att' span)
  | assignmentExpression {operator left right att span left' right' att'} (h_left : EasedNode left left') (h_right : EasedNode right right') (h_att : EasedAtt att att') :
    EasedNode (.assignmentExpression operator left right att span) (.assignmentExpression operator left' right' att' span)
  | assignmentPattern {left right span left' right'} (h_left : EasedBinding left left') (h_right : EasedNode right right') :
    EasedNode (.assignmentPattern left right span) (.assignmentPattern left' right' span)
  | assignmentRestElement {argument span argument'} (h_argument : EasedNode argument argument') :
    EasedNode (.assignmentRestElement argument span) (.assignmentRestElement argument' span)
  | asyncArrowFunctionExpression {id params body generator expression async att span id' params' body' att'} (h_id : EasedOpt EasedNode id id') (h_params : EasedList EasedFunctionParameter params params') (h_body : EasedNode body body') (h_att : EasedAtt att att') :
    EasedNode (.asyncArrowFunctionExpression id params body generator expression async att span) (.asyncArrowFunctionExpression id' params' body' generator expression async att' span)
  | asyncFunctionExpression {id params body generator expression async att span id' params' body' att'} (h_id : EasedOpt EasedNode id id') (h_params : EasedList EasedFunctionParameter params params') (h_body : EasedNode body body') (h_att : EasedAtt att att') :
    EasedNode (.asyncFunctionExpression id params body generator expression async att span) (.asyncFunctionExpression id' params' body' generator expression async att' span)
  | awaitExpression {argument span argument'} (h_argument : EasedNode argument argument') :
    EasedNode (.awaitExpression argument span) (.awaitExpression argument' span)
  | binaryExpression {operator left right att span left' right' att'} (h_left : EasedNode left left') (h_right : EasedNode right right') (h_att : EasedAtt att att') :
    EasedNode (.binaryExpression operator left right att span) (.binaryExpression operator left' right' att' span)
  | bindingIdentifier {name span}  :
    EasedNode (.bindingIdentifier name span) (.bindingIdentifier name span)
  | logicalExpression {operator left right span left' right'} (h_left : EasedNode left left') (h_right : EasedNode right right') :
    EasedNode (.logicalExpression operator left right span) (.logicalExpression operator left' right' span)
  | callExpression {callee arguments att span callee' arguments' att'} (h_callee : EasedNode callee callee') (h_arguments : EasedList EasedArgumentListElement arguments arguments') (h_att : EasedAtt att att') :
    EasedNode (.callExpression callee arguments att span) (.callExpression callee' arguments' att' span)
  | classExpression {id superClass body att span id' superClass' body' att'} (h_id : EasedOpt EasedNode id id') (h_superClass : EasedOpt EasedNode superClass superClass') (h_body : EasedList EasedMethodDefinition body body') (h_att : EasedAtt att att') :
    EasedNode (.classExpression id superClass body att span) (.classExpression id' superClass' body' att' span)
  | computedMemberExpression {computed object property att span object' property' att'} (h_object : EasedNode object object') (h_property : EasedNode property property') (h_att : EasedAtt att att') :
    EasedNode (.computedMemberExpression computed object property att span) (.computedMemberExpression computed object' property' att' span)
  | conditionalExpression {test consequent alternate span test' consequent' alternate'} (h_test : EasedNode test test') (h_consequent : EasedNode consequent consequent') (h_alternate : EasedNode alternate alternate') :
    EasedNode (.conditionalExpression test consequent alternate span) (.conditionalExpression test' consequent' alternate' span)
  | identifier {name att span att'} (h_att : EasedAtt att att') :
    EasedNode (.identifier name att span) (.identifier name att' span)
  | functionExpression {id params body generator expression async att span id' params' body' att'} (h_id : EasedOpt EasedNode id id') (h_params : EasedList EasedFunctionParameter params params') (h_body : EasedNode body body') (h_att : EasedAtt att att') :
    EasedNode (.functionExpression id params body generator expression async att span) (.functionExpression id' params' body' generator expression async att' span)
  | literal {value raw att span att'} (h_att : EasedAtt att att') :
    EasedNode (.literal value raw att span) (.literal value raw att' span)
  | newExpression {callee arguments att span callee' arguments' att'} (h_callee : EasedNode callee callee') (h_arguments : EasedList EasedArgumentListElement arguments arguments') (h_att : EasedAtt att att') :
    EasedNode (.newExpression callee arguments att span) (.newExpression callee' arguments' att' span)
  | objectExpression {properties att span properties' att'} (h_properties : EasedList EasedObjectExpressionProperty properties properties') (h_att : EasedAtt att att') :
    EasedNode (.objectExpression properties att span) (.objectExpression properties' att' span)
  | objectPattern {properties att span properties' att'} (h_properties : EasedList EasedObjectPatternProperty properties properties') (h_att : EasedAtt att att') :
    EasedNode (.objectPattern properties att span) (.objectPattern properties' att' span)
  | regexLiteral {value raw regex att span att'} (h_att : EasedAtt att att') :
    EasedNode (.regexLiteral value raw regex att span) (.regexLiteral value raw regex att' span)
  | sequenceExpression {expressions att span expressions' att'} (h_expressions : EasedList EasedNode expressions expressions') (h_att : EasedAtt att att') :
    EasedNode (.sequenceExpression expressions att span) (.sequenceExpression expressions' att' span)
  | staticMemberExpression {computed object property att span object' property' att'} (h_object : EasedNode object object') (h_property : EasedNode property property') (h_att : EasedAtt att att') :
    EasedNode (.staticMemberExpression computed object property att span) (.staticMemberExpression computed object' property' att' span)
  | taggedTemplateExpression {tag quasis expressions span tag' expressions'} (h_tag : EasedNode tag tag') (h_expressions : EasedList EasedNode expressions expressions') :
    EasedNode (.taggedTemplateExpression tag quasis expressions span) (.taggedTemplateExpression tag' quasis expressions' span)
  | thisExpression {att span att'} (h_att : EasedAtt att att') :
    EasedNode (.thisExpression att span) (.thisExpression att' span)
  | unaryExpression {operator argument isPrefix att span argument' att'} (h_argument : EasedNode argument argument') (h_att : EasedAtt att att') :
    EasedNode (.unaryExpression operator argument isPrefix att span) (.unaryExpression operator argument' isPrefix att' span)
  | updateExpression {operator argument isPrefix att span argument' att'} (h_argument : EasedNode argument argument') (h_att : EasedAtt att att') :
    EasedNode (.updateExpression operator argument isPrefix att span) (.updateExpression operator argument' isPrefix att' span)
  | yieldExpression {argument delegate att span argument' att'} (h_argument : EasedOpt EasedNode argument argument') (h_att : EasedAtt att att') :
    EasedNode (.yieldExpression argument delegate att span) (.yieldExpression argument' delegate att' span)
  | arrowParameterPlaceHolder {params async span params'} (h_params : EasedList EasedFunctionParameter params params') :
    EasedNode (.arrowParameterPlaceHolder params async span) (.arrowParameterPlaceHolder params' async span)
  | restElement {argument span argument'} (h_argument : EasedBinding argument argument') :
    EasedNode (.restElement argument span) (.restElement argument' span)
  | spreadElement {argument span argument'} (h_argument : EasedNode argument argument') :
    EasedNode (.spreadElement argument span) (.spreadElement argument' span)
  | super {att span att'} (h_att : EasedAtt att att') :
    EasedNode (.super att span) (.super att' span)
  | templateLiteral {quasis expressions att span expressions' att'} (h_expressions : EasedList EasedNode expressions expressions') (h_att : EasedAtt att att') :
    EasedNode (.templateLiteral quasis expressions att span) (.templateLiteral quasis expressions' att' span)
  | metaProperty {metaId property att span metaId' property' att'} (h_metaId : EasedNode metaId metaId') (h_property : EasedNode property property') (h_att : EasedAtt att att') :
    EasedNode (.metaProperty metaId property att span) (.metaProperty metaId' property' att' span)
  | asyncFunctionDeclaration {id params body generator expression async span id' params' body'} (h_id : EasedOpt EasedNode id id') (h_params : EasedList EasedFunctionParameter params params') (h_body : EasedNode body body') :
    EasedNode (.asyncFunctionDeclaration id params body generator expression async span) (.asyncFunctionDeclaration id' params' body' generator expression async span)
  | breakStatement {label span label'} (h_label : EasedOpt EasedNode label label') :
    EasedNode (.breakStatement label span) (.breakStatement label' span)
  | continueStatement {label span label'} (h_label : EasedOpt EasedNode label label') :
    EasedNode (.continueStatement label span) (.continueStatement label' span)
  | debuggerStatement {span}  :
    EasedNode (.debuggerStatement span) (.debuggerStatement span)
  | doWhileStatement {body test span body' test'} (h_body : EasedNode body body') (h_test : EasedNode test test') :
    EasedNode (.doWhileStatement body test span) (.doWhileStatement body' test' span)
  | emptyStatement {span}  :
    EasedNode (.emptyStatement span) (.emptyStatement span)
  | expressionStatement {expression span expression'} (h_expression : EasedNode expression expression') :
    EasedNode (.expressionStatement expression span) (.expressionStatement expression' span)
  | directive {expression directive span expression'} (h_expression : EasedNode expression expression') :
    EasedNode (.directive expression directive span) (.directive expression' directive span)
  | forStatement {init test update body span init' test' update' body'} (h_init : EasedOpt EasedNode init init') (h_test : EasedOpt EasedNode test test') (h_update : EasedOpt EasedNode update update') (h_body : EasedNode body body') :
    EasedNode (.forStatement init test update body span) (.forStatement init' test' update' body' span)
  | forInStatement {left right body each span left' right' body'} (h_left : EasedNode left left') (h_right : EasedNode right right') (h_body : EasedNode body body') :
    EasedNode (.forInStatement left right body each span) (.forInStatement left' right' body' each span)
  | forOfStatement {left right body span left' right' body'} (h_left : EasedNode left left') (h_right : EasedNode right right') (h_body : EasedNode body body') :
    EasedNode (.forOfStatement left right body span) (.forOfStatement left' right' body' span)
  | functionDeclaration {id params body generator expression async span id' params' body'} (h_id : EasedOpt EasedNode id id') (h_params : EasedList EasedFunctionParameter params params') (h_body : EasedNode body body') :
    EasedNode (.functionDeclaration id params body generator expression async span) (.functionDeclaration id' params' body' generator expression async span)
  | ifStatement {test consequent alternate span test' consequent' alternate'} (h_test : EasedNode test test') (h_consequent : EasedNode consequent consequent') (h_alternate : EasedOpt EasedNode alternate alternate') :
    EasedNode (.ifStatement test consequent alternate span) (.ifStatement test' consequent' alternate' span)
  | returnStatement {argument span argument'} (h_argument : EasedOpt EasedNode argument argument') :
    EasedNode (.returnStatement argument span) (.returnStatement argument' span)
  | switchStatement {discriminant cases span discriminant' cases'} (h_discriminant : EasedNode discriminant discriminant') (h_cases : EasedList EasedSwitchCase cases cases') :
    EasedNode (.switchStatement discriminant cases span) (.switchStatement discriminant' cases' span)
  | throwStatement {argument span argument'} (h_argument : EasedNode argument argument') :
    EasedNode (.throwStatement argument span) (.throwStatement argument' span)
  | tryStatement {block handler finalizer span block' handler' finalizer'} (h_block : EasedNode block block') (h_handler : EasedOpt EasedCatchClause handler handler') (h_finalizer : EasedOpt EasedNode finalizer finalizer') :
    EasedNode (.tryStatement block handler finalizer span) (.tryStatement block' handler' finalizer' span)
  | variableDeclaration {declarations kind span declarations'} (h_declarations : EasedList EasedVariableDeclarator declarations declarations') :
    EasedNode (.variableDeclaration declarations kind span) (.variableDeclaration declarations' kind span)
  | whileStatement {test body span test' body'} (h_test : EasedNode test test') (h_body : EasedNode body body') :
    EasedNode (.whileStatement test body span) (.whileStatement test' body' span)
  | withStatement {object body span object' body'} (h_object : EasedNode object object') (h_body : EasedNode body body') :
    EasedNode (.withStatement object body span) (.withStatement object' body' span)
  | blockStatement {body span body'} (h_body : EasedList EasedNode body body') :
    EasedNode (.blockStatement body span) (.blockStatement body' span)
  | classDeclaration {id superClass body span id' superClass' body'} (h_id : EasedOpt EasedNode id id') (h_superClass : EasedOpt EasedNode superClass superClass') (h_body : EasedList EasedMethodDefinition body body') :
    EasedNode (.classDeclaration id superClass body span) (.classDeclaration id' superClass' body' span)
  | exportAllDeclaration {source span}  :
    EasedNode (.exportAllDeclaration source span) (.exportAllDeclaration source span)
  | exportDefaultDeclaration {declaration span declaration'} (h_declaration : EasedNode declaration declaration') :
    EasedNode (.exportDefaultDeclaration declaration span) (.exportDefaultDeclaration declaration' span)
  | exportNamedDeclaration {declaration specifiers source span declaration'} (h_declaration : EasedOpt EasedNode declaration declaration') :
    EasedNode (.exportNamedDeclaration declaration specifiers source span) (.exportNamedDeclaration declaration' specifiers source span)
  | importDeclaration {specifiers source span}  :
    EasedNode (.importDeclaration specifiers source span) (.importDeclaration specifiers source span)
  | importDefaultSpecifier {loc span}  :
    EasedNode (.importDefaultSpecifier loc span) (.importDefaultSpecifier loc span)
  | importNamespaceSpecifier {loc span}  :
    EasedNode (.importNamespaceSpecifier loc span) (.importNamespaceSpecifier loc span)
  | importSpecifier {loc imported span}  :
    EasedNode (.importSpecifier loc imported span) (.importSpecifier loc imported span)
  | labeledStatement {label body span body'} (h_body : EasedNode body body') :
    EasedNode (.labeledStatement label body span) (.labeledStatement label body' span)
  | moduleNode {body sourceType span body'} (h_body : EasedList EasedNode body body') :
    EasedNode (.moduleNode body sourceType span) (.moduleNode body' sourceType span)
  | program {body sourceType span body'} (h_body : EasedList EasedNode body body') :
    EasedNode (.program body sourceType span) (.program body' sourceType span)

/-- `Binding`: the same but for `assign_target_type` -/
inductive EasedBinding : Binding → Binding → Prop
  | bindingIdentifier {name span}  :
    EasedBinding (.bindingIdentifier name span) (.bindingIdentifier name span)
  | arrayPattern {elements span elements'} (h_elements : EasedList (EasedOpt EasedArrayPatternElement) elements elements') :
    EasedBinding (.arrayPattern elements span) (.arrayPattern elements' span)
  | objectPattern {properties span properties'} (h_properties : EasedList EasedObjectPatternProperty properties properties') :
    EasedBinding (.objectPattern properties span) (.objectPattern properties' span)
  | expression {node node'} (h_node : EasedNode node node') :
    EasedBinding (.expression node) (.expression node')

/-- `ArrayExpressionElement`: the same but for `assign_target_type` -/
inductive EasedArrayExpressionElement : ArrayExpressionElement → ArrayExpressionElement → Prop
  | expression {node node'} (h_node : EasedNode node node') :
    EasedArrayExpressionElement (.expression node) (.expression node')
  | spreadElement {argument span argument'} (h_argument : EasedNode argument argument') :
    EasedArrayExpressionElement (.spreadElement argument span) (.spreadElement argument' span)

/-- `ArrayPatternElement`: the same but for `assign_target_type` -/
inductive EasedArrayPatternElement : ArrayPatternElement → ArrayPatternElement → Prop
  | assignmentPattern {left right left' right'} (h_left : EasedBinding left left') (h_right : EasedNode right right') :
    EasedArrayPatternElement (.assignmentPattern left right) (.assignmentPattern left' right')
  | bindingIdentifier {name}  :
    EasedArrayPatternElement (.bindingIdentifier name) (.bindingIdentifier name)
  | arrayPattern {elements elements'} (h_elements : EasedList (EasedOpt EasedArrayPatternElement) elements elements') :
    EasedArrayPatternElement (.arrayPattern elements) (.arrayPattern elements')
  | objectPattern {properties properties'} (h_properties : EasedList EasedObjectPatternProperty properties properties') :
    EasedArrayPatternElement (.objectPattern properties) (.objectPattern properties')
  | restElement {argument argument'} (h_argument : EasedBinding argument argument') :
    EasedArrayPatternElement (.restElement argument) (.restElement argument')

/-- `ArrayAssignmentPatternElement`: the same but for `assign_target_type` -/
inductive EasedArrayAssignmentPatternElement : ArrayAssignmentPatternElement → ArrayAssignmentPatternElement → Prop
  | expression {node node'} (h_node : EasedNode node node') :
    EasedArrayAssignmentPatternElement (.expression node) (.expression node')
  | restElement {argument argument'} (h_argument : EasedBinding argument argument') :
    EasedArrayAssignmentPatternElement (.restElement argument) (.restElement argument')

/-- `PropertyKey`: the same but for `assign_target_type` -/
inductive EasedPropertyKey : PropertyKey → PropertyKey → Prop
  | identifier {id}  :
    EasedPropertyKey (.identifier id) (.identifier id)
  | literal {lit}  :
    EasedPropertyKey (.literal lit) (.literal lit)
  | expression {node node'} (h_node : EasedNode node node') :
    EasedPropertyKey (.expression node) (.expression node')

/-- `FnExpr`: the same but for `assign_target_type` -/
inductive EasedFnExpr : FnExpr → FnExpr → Prop
  | mk {id params body generator expression async id' params' body'} (h_id : EasedOpt EasedNode id id') (h_params : EasedList EasedFunctionParameter params params') (h_body : EasedNode body body') :
    EasedFnExpr (.mk id params body generator expression async) (.mk id' params' body' generator expression async)

/-- `PropertyValue`: the same but for `assign_target_type` -/
inductive EasedPropertyValue : PropertyValue → PropertyValue → Prop
  | assignmentPattern {left right left' right'} (h_left : EasedBinding left left') (h_right : EasedNode right right') :
    EasedPropertyValue (.assignmentPattern left right) (.assignmentPattern left' right')
  | asyncFunctionExpression {f f'} (h_f : EasedFnExpr f f') :
    EasedPropertyValue (.asyncFunctionExpression f) (.asyncFunctionExpression f')
  | bindingIdentifier {name span}  :
    EasedPropertyValue (.bindingIdentifier name span) (.bindingIdentifier name span)
  | bindingPattern {p p'} (h_p : EasedBindingPattern p p') :
    EasedPropertyValue (.bindingPattern p) (.bindingPattern p')
  | functionExpression {f f'} (h_f : EasedFnExpr f f') :
    EasedPropertyValue (.functionExpression f) (.functionExpression f')
  | expression {node node'} (h_node : EasedNode node node') :
    EasedPropertyValue (.expression node) (.expression node')

/-- `ObjectPatternProperty`: the same but for `assign_target_type` -/
inductive EasedObjectPatternProperty : ObjectPatternProperty → ObjectPatternProperty → Prop
  | property {key computed value kind method shorthand key' value'} (h_key : EasedPropertyKey key key') (h_value : EasedOpt EasedPropertyValue value value') :
    EasedObjectPatternProperty (.property key computed value kind method shorthand) (.property key' computed value' kind method shorthand)
  | restElement {argument argument'} (h_argument : EasedBinding argument argument') :
    EasedObjectPatternProperty (.restElement argument) (.restElement argument')

/-- `BindingPattern`: the same but for `assign_target_type` -/
inductive EasedBindingPattern : BindingPattern → BindingPattern → Prop
  | arrayPattern {elements elements'} (h_elements : EasedList (EasedOpt EasedArrayPatternElement) elements elements') :
    EasedBindingPattern (.arrayPattern elements) (.arrayPattern elements')
  | objectPattern {properties properties'} (h_properties : EasedList EasedObjectPatternProperty properties properties') :
    EasedBindingPattern (.objectPattern properties) (.objectPattern properties')

/-- `FunctionParameter`: the same but for `assign_target_type` -/
inductive EasedFunctionParameter : FunctionParameter → FunctionParameter → Prop
  | assignmentPattern {left right left' right'} (h_left : EasedBinding left left') (h_right : EasedNode right right') :
    EasedFunctionParameter (.assignmentPattern left right) (.assignmentPattern left' right')
  | bindingIdentifier {name}  :
    EasedFunctionParameter (.bindingIdentifier name) (.bindingIdentifier name)
  | arrayPattern {elements elements'} (h_elements : EasedList (EasedOpt EasedArrayPatternElement) elements elements') :
    EasedFunctionParameter (.arrayPattern elements) (.arrayPattern elements')
  | objectPattern {properties properties'} (h_properties : EasedList EasedObjectPatternProperty properties properties') :
    EasedFunctionParameter (.objectPattern properties) (.objectPattern properties')
  | restElement {argument argument'} (h_argument : EasedBinding argument argument') :
    EasedFunctionParameter (.restElement argument) (.restElement argument')

/-- `ArgumentListElement`: the same but for `assign_target_type` -/
inductive EasedArgumentListElement : ArgumentListElement → ArgumentListElement → Prop
  | expression {node node'} (h_node : EasedNode node node') :
    EasedArgumentListElement (.expression node) (.expression node')
  | spreadElement {argument span argument'} (h_argument : EasedNode argument argument') :
    EasedArgumentListElement (.spreadElement argument span) (.spreadElement argument' span)

/-- `ObjectExpressionProperty`: the same but for `assign_target_type` -/
inductive EasedObjectExpressionProperty : ObjectExpressionProperty → ObjectExpressionProperty → Prop
  | property {key computed value kind method shorthand span key' value'} (h_key : EasedPropertyKey key key') (h_value : EasedOpt EasedPropertyValue value value') :
    EasedObjectExpressionProperty (.property key computed value kind method shorthand span) (.property key' computed value' kind method shorthand span)
  | spreadElement {argument span argument'} (h_argument : EasedNode argument argument') :
    EasedObjectExpressionProperty (.spreadElement argument span) (.spreadElement argument' span)

/-- `MethodDefinition`: the same but for `assign_target_type` -/
inductive EasedMethodDefinition : MethodDefinition → MethodDefinition → Prop
  | mk {key computed value kind static key' value'} (h_key : EasedNode key key') (h_value : EasedOpt EasedFnExpr value value') :
    EasedMethodDefinition (.mk key computed value kind static) (.mk key' computed value' kind static)

/-- `SwitchCase`: the same but for `assign_target_type` -/
inductive EasedSwitchCase : SwitchCase → SwitchCase → Prop
  | mk {test consequent test' consequent'} (h_test : EasedOpt EasedNode test test') (h_consequent : EasedList EasedNode consequent consequent') :
    EasedSwitchCase (.mk test consequent) (.mk test' consequent')

/-- `VariableDeclarator`: the same but for `assign_target_type` -/
inductive EasedVariableDeclarator : VariableDeclarator → VariableDeclarator → Prop
  | mk {id init id' init'} (h_id : EasedBinding id id') (h_init : EasedOpt EasedNode init init') :
    EasedVariableDeclarator (.mk id init) (.mk id' init')

/-- `CatchClause`: the same but for `assign_target_type` -/
inductive EasedCatchClause : CatchClause → CatchClause → Prop
  | mk {param body param' body'} (h_param : EasedOpt EasedBinding param param') (h_body : EasedNode body body') :
    EasedCatchClause (.mk param body) (.mk param' body')

end

end Giron.Spec

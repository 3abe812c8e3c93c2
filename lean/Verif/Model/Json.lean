import Verif.Model.Parser.Module
import Verif.Model.Errors
/-
The JSON a tree is serialised to: the `#[derive(Serialize)]` attributes of giron/src/estree/estree.rs,
giron/src/span/span.rs and giron/src/token/value.rs, and giron-wasm/src/lib.rs.

serde rules used: a struct or struct variant under `#[serde(tag = "type")]` is an object whose first member is
`"type": name`, followed by the fields in order of declaration (`#[serde(skip)]` fields left out,
`#[serde(rename = ..)]` names used); an enum under `#[serde(untagged)]` is its payload; `Option::None` and unit are
`null`; a unit variant is its name; a `char` is a one character string; `Vec` is an array; `Box` is transparent.
The rounding of numbers to `f64` is in Model/Double.lean, the text of the JSON in Model/JsonText.lean.
-/
namespace Giron

/-- JSON values (serde's data model as `serde_json` renders it). -/
inductive Json
  | null
  | bool (b : Bool)
  /-- a `usize` -/
  | nat (n : Nat)
  /-- an `f64` -/
  | num (x : Num)
  | str (s : Str)
  | arr (items : List Json)
  | obj (members : List (Str × Json))
deriving Inhabited

/-- `#[serde(tag = "type")]` -/
def tagged (tag : Str) (members : List (Str × Json)) : Json := .obj ((cs!"type", .str tag) :: members)

/-- a `usize` -/
def natJson (n : Nat) : Json := .nat n

/-- span.rs:3-9 `Marker` -/
def markerJson (m : Marker) : Json :=
  tagged cs!"Marker" [(cs!"line", natJson m.line), (cs!"col", natJson m.col), (cs!"idx", natJson m.idx)]

/-- span.rs:11-16 `Span` -/
def spanJson (s : Span) : Json :=
  tagged cs!"Span" [(cs!"start", markerJson s.start), (cs!"end", markerJson s.end)]

/-- punctuators.rs:3-62: the variants are serialised under `#[serde(tag = "type")]` -/
def punctuatorJson : Punctuator → Json
  | .lBrace => tagged cs!"LBrace" []
  | .lParen => tagged cs!"LParen" []
  | .rParen => tagged cs!"RParen" []
  | .lBracket => tagged cs!"LBracket" []
  | .rBracket => tagged cs!"RBracket" []
  | .dot => tagged cs!"Dot" []
  | .ellipsis => tagged cs!"Ellipsis" []
  | .semicolon => tagged cs!"Semicolon" []
  | .comma => tagged cs!"Comma" []
  | .lAngle => tagged cs!"LAngle" []
  | .rAngle => tagged cs!"RAngle" []
  | .lEqual => tagged cs!"LEqual" []
  | .gEqual => tagged cs!"GEqual" []
  | .equal => tagged cs!"Equal" []
  | .nEqual => tagged cs!"NEqual" []
  | .strictEqual => tagged cs!"StrictEqual" []
  | .strictNEqual => tagged cs!"StrictNEqual" []
  | .plus => tagged cs!"Plus" []
  | .minus => tagged cs!"Minus" []
  | .star => tagged cs!"Star" []
  | .mod => tagged cs!"Mod" []
  | .pow => tagged cs!"Pow" []
  | .inc => tagged cs!"Inc" []
  | .dec => tagged cs!"Dec" []
  | .lShift => tagged cs!"LShift" []
  | .rShift => tagged cs!"RShift" []
  | .zRShift => tagged cs!"ZRShift" []
  | .bitAnd => tagged cs!"BitAnd" []
  | .bitOr => tagged cs!"BitOr" []
  | .bitXor => tagged cs!"BitXor" []
  | .bang => tagged cs!"Bang" []
  | .tilde => tagged cs!"Tilde" []
  | .logicalAnd => tagged cs!"LogicalAnd" []
  | .logicalOr => tagged cs!"LogicalOr" []
  | .question => tagged cs!"Question" []
  | .colon => tagged cs!"Colon" []
  | .assign => tagged cs!"Assign" []
  | .plusAssign => tagged cs!"PlusAssign" []
  | .minusAssign => tagged cs!"MinusAssign" []
  | .starAssign => tagged cs!"StarAssign" []
  | .modAssign => tagged cs!"ModAssign" []
  | .powAssign => tagged cs!"PowAssign" []
  | .lShiftAssign => tagged cs!"LShiftAssign" []
  | .rShiftAssign => tagged cs!"RShiftAssign" []
  | .zRShiftAssign => tagged cs!"ZRShiftAssign" []
  | .bitAndAssign => tagged cs!"BitAndAssign" []
  | .bitOrAssign => tagged cs!"BitOrAssign" []
  | .bitXorAssign => tagged cs!"BitXorAssign" []
  | .fatArrow => tagged cs!"FatArrow" []
  | .slash => tagged cs!"Slash" []
  | .slashAssign => tagged cs!"SlashAssign" []
  | .rBrace => tagged cs!"RBrace" []
  | .instanceof => tagged cs!"Instanceof" []
  | .qMarkDot => tagged cs!"QMarkDot" []
  | .doubleQMark => tagged cs!"DoubleQMark" []

/-- value.rs:4-11 `Value`, untagged -/
def valueJson : Value → Json
  | .str s => .str s
  | .num x => .num x
  | .punc p => punctuatorJson p
  | .null => .null

/-- estree.rs:59-64 `Regex`; `flags` is an array of one character strings -/
def regexJson (r : Regex) : Json :=
  tagged cs!"Regex" [(cs!"pattern", .str r.pattern), (cs!"flags", .arr (r.flags.map fun c => .str [c]))]

/-- estree.rs:172-178 `Identifier` -/
def identifierJson (i : Identifier) : Json := tagged cs!"Identifier" [(cs!"name", .str i.name)]

/-- estree.rs:180-187 `Literal` -/
def literalJson (l : Literal) : Json :=
  tagged cs!"Literal" [(cs!"value", valueJson l.value), (cs!"raw", .str l.raw)]

/-- estree.rs:36-41 `ExportSpecifier` -/
def exportSpecifierJson (e : ExportSpecifier) : Json :=
  tagged cs!"ExportSpecifier" [(cs!"exported", identifierJson e.exported), (cs!"local", identifierJson e.loc)]

/-- estree.rs:14-27 `ImportDeclarationSpecifier` -/
def importSpecifierJson : ImportDeclarationSpecifier → Json
  | .importDefaultSpecifier loc => tagged cs!"ImportDefaultSpecifier" [(cs!"local", identifierJson loc)]
  | .importNamespaceSpecifier loc => tagged cs!"ImportNamespaceSpecifier" [(cs!"local", identifierJson loc)]
  | .importSpecifier loc imported =>
    tagged cs!"ImportSpecifier" [(cs!"local", identifierJson loc), (cs!"imported", identifierJson imported)]

/-- estree.rs:388-400 `TemplateElement`, `TemplateElementValue` -/
def templateElementJson (t : TemplateElement) : Json :=
  tagged cs!"TemplateElement"
    [(cs!"value", tagged cs!"TemplateElementValue" [(cs!"cooked", .str t.cooked), (cs!"raw", .str t.raw)]),
     (cs!"tail", .bool t.tail)]

mutual

/-- estree.rs:423-914 `Node` -/
def nodeJson : Node → Json
  | .arrayExpression elements _ _ =>
    tagged cs!"ArrayExpression" [(cs!"elements", .arr (holesArrayExpressionElementJson elements))]
  | .arrayPattern elements _ _ =>
    tagged cs!"ArrayPattern" [(cs!"elements", .arr (holesArrayPatternElementJson elements))]
  | .arrayAssignmentPattern elements _ _ =>
    tagged cs!"ArrayPattern" [(cs!"elements", .arr (holesArrayAssignmentPatternElementJson elements))]
  | .arrowFunctionExpression id params body generator expression async _ _ =>
    tagged cs!"ArrowFunctionExpression" [(cs!"id", optNodeJson id),
      (cs!"params", .arr (listFunctionParameterJson params)), (cs!"body", nodeJson body),
      (cs!"generator", .bool generator), (cs!"expression", .bool expression), (cs!"async", .bool async)]
  | .assignmentExpression operator left right _ _ =>
    tagged cs!"AssignmentExpression" [(cs!"operator", .str operator), (cs!"left", nodeJson left),
      (cs!"right", nodeJson right)]
  | .assignmentPattern left right _ =>
    tagged cs!"AssignmentPattern" [(cs!"left", bindingJson left), (cs!"right", nodeJson right)]
  | .assignmentRestElement argument _ =>
    tagged cs!"AssignmentRestElement" [(cs!"argument", nodeJson argument)]
  | .asyncArrowFunctionExpression id params body generator expression async _ _ =>
    tagged cs!"AsyncArrowFunctionExpression" [(cs!"id", optNodeJson id),
      (cs!"params", .arr (listFunctionParameterJson params)), (cs!"body", nodeJson body),
      (cs!"generator", .bool generator), (cs!"expression", .bool expression), (cs!"async", .bool async)]
  | .asyncFunctionExpression id params body generator expression async _ _ =>
    tagged cs!"AsyncFunctionExpression" [(cs!"id", optNodeJson id),
      (cs!"params", .arr (listFunctionParameterJson params)), (cs!"body", nodeJson body),
      (cs!"generator", .bool generator), (cs!"expression", .bool expression), (cs!"async", .bool async)]
  | .awaitExpression argument _ => tagged cs!"AwaitExpression" [(cs!"argument", nodeJson argument)]
  | .binaryExpression operator left right _ _ =>
    tagged cs!"BinaryExpression" [(cs!"operator", .str operator), (cs!"left", nodeJson left),
      (cs!"right", nodeJson right)]
  | .bindingIdentifier name _ => tagged cs!"Identifier" [(cs!"name", .str name)]
  | .logicalExpression operator left right _ =>
    tagged cs!"LogicalExpression" [(cs!"operator", .str operator), (cs!"left", nodeJson left),
      (cs!"right", nodeJson right)]
  | .callExpression callee arguments _ _ =>
    tagged cs!"CallExpression" [(cs!"callee", nodeJson callee),
      (cs!"arguments", .arr (listArgumentListElementJson arguments))]
  | .classExpression id superClass body _ _ =>
    tagged cs!"ClassExpression" [(cs!"id", optNodeJson id), (cs!"super_class", optNodeJson superClass),
      (cs!"body", tagged cs!"ClassBody" [(cs!"body", .arr (listMethodDefinitionJson body))])]
  | .computedMemberExpression computed object property _ _ =>
    tagged cs!"ComputedMemberExpression" [(cs!"computed", .bool computed), (cs!"object", nodeJson object),
      (cs!"property", nodeJson property)]
  | .conditionalExpression test consequent alternate _ =>
    tagged cs!"ConditionalExpression" [(cs!"test", nodeJson test), (cs!"consequent", nodeJson consequent),
      (cs!"alternate", nodeJson alternate)]
  | .identifier name _ _ => tagged cs!"Identifier" [(cs!"name", .str name)]
  | .functionExpression id params body generator expression async _ _ =>
    tagged cs!"FunctionExpression" [(cs!"id", optNodeJson id),
      (cs!"params", .arr (listFunctionParameterJson params)), (cs!"body", nodeJson body),
      (cs!"generator", .bool generator), (cs!"expression", .bool expression), (cs!"async", .bool async)]
  | .literal value raw _ _ => tagged cs!"Literal" [(cs!"value", valueJson value), (cs!"raw", .str raw)]
  | .newExpression callee arguments _ _ =>
    tagged cs!"NewExpression" [(cs!"callee", nodeJson callee),
      (cs!"arguments", .arr (listArgumentListElementJson arguments))]
  | .objectExpression properties _ _ =>
    tagged cs!"ObjectExpression" [(cs!"properties", .arr (listObjectExpressionPropertyJson properties))]
  | .objectPattern properties _ _ =>
    tagged cs!"ObjectPattern" [(cs!"properties", .arr (listObjectPatternPropertyJson properties))]
  | .regexLiteral value raw regex _ _ =>
    tagged cs!"RegexLiteral" [(cs!"value", .str value), (cs!"raw", .str raw), (cs!"regex", regexJson regex)]
  | .sequenceExpression expressions _ _ =>
    tagged cs!"SequenceExpression" [(cs!"expressions", .arr (listNodeJson expressions))]
  | .staticMemberExpression computed object property _ _ =>
    tagged cs!"StaticMemberExpression" [(cs!"computed", .bool computed), (cs!"object", nodeJson object),
      (cs!"property", nodeJson property)]
  | .taggedTemplateExpression tag quasis expressions _ =>
    tagged cs!"TaggedTemplateExpression" [(cs!"tag", nodeJson tag),
      (cs!"quasi", tagged cs!"TemplateLiteral" [(cs!"quasis", .arr (quasis.map templateElementJson)),
      (cs!"expressions", .arr (listNodeJson expressions))])]
  | .thisExpression _ _ => tagged cs!"ThisExpression" []
  | .unaryExpression operator argument isPrefix _ _ =>
    tagged cs!"UnaryExpression" [(cs!"operator", .str operator), (cs!"argument", nodeJson argument),
      (cs!"prefix", .bool isPrefix)]
  | .updateExpression operator argument isPrefix _ _ =>
    tagged cs!"UpdateExpression" [(cs!"operator", .str operator), (cs!"argument", nodeJson argument),
      (cs!"prefix", .bool isPrefix)]
  | .yieldExpression argument delegate _ _ =>
    tagged cs!"YieldExpression" [(cs!"argument", optNodeJson argument), (cs!"delegate", .bool delegate)]
  | .arrowParameterPlaceHolder params async _ =>
    tagged cs!"ArrowParameterPlaceHolder" [(cs!"params", .arr (listFunctionParameterJson params)),
      (cs!"async", .bool async)]
  | .restElement argument _ => tagged cs!"RestElement" [(cs!"argument", bindingJson argument)]
  | .spreadElement argument _ => tagged cs!"SpreadElement" [(cs!"argument", nodeJson argument)]
  | .super _ _ => tagged cs!"Super" []
  | .templateLiteral quasis expressions _ _ =>
    tagged cs!"TemplateLiteral" [(cs!"quasis", .arr (quasis.map templateElementJson)),
      (cs!"expressions", .arr (listNodeJson expressions))]
  | .metaProperty metaId property _ _ =>
    tagged cs!"MetaProperty" [(cs!"meta", nodeJson metaId), (cs!"property", nodeJson property)]
  | .asyncFunctionDeclaration id params body generator expression async _ =>
    tagged cs!"AsyncFunctionDeclaration" [(cs!"id", optNodeJson id),
      (cs!"params", .arr (listFunctionParameterJson params)), (cs!"body", nodeJson body),
      (cs!"generator", .bool generator), (cs!"expression", .bool expression), (cs!"async", .bool async)]
  | .breakStatement label _ => tagged cs!"BreakStatement" [(cs!"label", optNodeJson label)]
  | .continueStatement label _ => tagged cs!"ContinueStatement" [(cs!"label", optNodeJson label)]
  | .debuggerStatement _ => tagged cs!"DebuggerStatement" []
  | .doWhileStatement body test _ =>
    tagged cs!"DoWhileStatement" [(cs!"body", nodeJson body), (cs!"test", nodeJson test)]
  | .emptyStatement _ => tagged cs!"EmptyStatement" []
  | .expressionStatement expression _ =>
    tagged cs!"ExpressionStatement" [(cs!"expression", nodeJson expression)]
  | .directive expression directive _ =>
    tagged cs!"Directive" [(cs!"expression", nodeJson expression), (cs!"directive", .str directive)]
  | .forStatement init test update body _ =>
    tagged cs!"ForStatement" [(cs!"init", optNodeJson init), (cs!"test", optNodeJson test),
      (cs!"update", optNodeJson update), (cs!"body", nodeJson body)]
  | .forInStatement left right body each _ =>
    tagged cs!"ForInStatement" [(cs!"left", nodeJson left), (cs!"right", nodeJson right),
      (cs!"body", nodeJson body), (cs!"each", .bool each)]
  | .forOfStatement left right body _ =>
    tagged cs!"ForOfStatement" [(cs!"left", nodeJson left), (cs!"right", nodeJson right),
      (cs!"body", nodeJson body)]
  | .functionDeclaration id params body generator expression async _ =>
    tagged cs!"FunctionDeclaration" [(cs!"id", optNodeJson id),
      (cs!"params", .arr (listFunctionParameterJson params)), (cs!"body", nodeJson body),
      (cs!"generator", .bool generator), (cs!"expression", .bool expression), (cs!"async", .bool async)]
  | .ifStatement test consequent alternate _ =>
    tagged cs!"IfStatement" [(cs!"test", nodeJson test), (cs!"consequent", nodeJson consequent),
      (cs!"alternate", optNodeJson alternate)]
  | .returnStatement argument _ => tagged cs!"ReturnStatement" [(cs!"argument", optNodeJson argument)]
  | .switchStatement discriminant cases _ =>
    tagged cs!"SwitchStatement" [(cs!"discriminant", nodeJson discriminant),
      (cs!"cases", .arr (listSwitchCaseJson cases))]
  | .throwStatement argument _ => tagged cs!"ThrowStatement" [(cs!"argument", nodeJson argument)]
  | .tryStatement block handler finalizer _ =>
    tagged cs!"TryStatement" [(cs!"block", nodeJson block), (cs!"handler", optCatchClauseJson handler),
      (cs!"finalizer", optNodeJson finalizer)]
  | .variableDeclaration declarations kind _ =>
    tagged cs!"VariableDeclaration" [(cs!"declarations", .arr (listVariableDeclaratorJson declarations)),
      (cs!"kind", .str kind)]
  | .whileStatement test body _ =>
    tagged cs!"WhileStatement" [(cs!"test", nodeJson test), (cs!"body", nodeJson body)]
  | .withStatement object body _ =>
    tagged cs!"WithStatement" [(cs!"object", nodeJson object), (cs!"body", nodeJson body)]
  | .blockStatement body _ => tagged cs!"BlockStatement" [(cs!"body", .arr (listNodeJson body))]
  | .classDeclaration id superClass body _ =>
    tagged cs!"ClassDeclaration" [(cs!"id", optNodeJson id), (cs!"superClass", optNodeJson superClass),
      (cs!"body", tagged cs!"ClassBody" [(cs!"body", .arr (listMethodDefinitionJson body))])]
  | .exportAllDeclaration source _ => tagged cs!"ExportAllDeclaration" [(cs!"source", literalJson source)]
  | .exportDefaultDeclaration declaration _ =>
    tagged cs!"ExportDefaultDeclaration" [(cs!"declaration", nodeJson declaration)]
  | .exportNamedDeclaration declaration specifiers source _ =>
    tagged cs!"ExportNamedDeclaration" [(cs!"declaration", optNodeJson declaration),
      (cs!"specifiers", .arr (specifiers.map exportSpecifierJson)),
      (cs!"source", (match source with | some l => literalJson l | none => .null))]
  | .importDeclaration specifiers source _ =>
    tagged cs!"ImportDeclaration" [(cs!"specifiers", .arr (specifiers.map importSpecifierJson)),
      (cs!"source", literalJson source)]
  | .importDefaultSpecifier loc _ => tagged cs!"ImportDefaultSpecifier" [(cs!"local", identifierJson loc)]
  | .importNamespaceSpecifier loc _ =>
    tagged cs!"ImportNamespaceSpecifier" [(cs!"local", identifierJson loc)]
  | .importSpecifier loc imported _ =>
    tagged cs!"ImportSpecifier" [(cs!"local", identifierJson loc), (cs!"imported", identifierJson imported)]
  | .labeledStatement label body _ =>
    tagged cs!"LabeledStatement" [(cs!"label", identifierJson label), (cs!"body", nodeJson body)]
  | .moduleNode body sourceType _ =>
    tagged cs!"Module" [(cs!"body", .arr (listNodeJson body)), (cs!"sourceType", .str sourceType)]
  | .program body sourceType _ =>
    tagged cs!"Program" [(cs!"body", .arr (listNodeJson body)), (cs!"sourceType", .str sourceType)]
termination_by structural x => x

/-- estree.rs:99-106 `Binding` -/
def bindingJson : Binding → Json
  | .bindingIdentifier name _ => tagged cs!"Identifier" [(cs!"name", .str name)]
  | .arrayPattern elements _ =>
    tagged cs!"ArrayPattern" [(cs!"elements", .arr (holesArrayPatternElementJson elements))]
  | .objectPattern properties _ =>
    tagged cs!"ObjectPattern" [(cs!"properties", .arr (listObjectPatternPropertyJson properties))]
  | .expression node => nodeJson node
termination_by structural x => x

/-- estree.rs:74-79 `ArrayExpressionElement` -/
def arrayExpressionElementJson : ArrayExpressionElement → Json
  | .expression node => nodeJson node
  | .spreadElement argument _ => tagged cs!"SpreadElement" [(cs!"argument", nodeJson argument)]
termination_by structural x => x

/-- estree.rs:138-157 `ArrayPatternElement` -/
def arrayPatternElementJson : ArrayPatternElement → Json
  | .assignmentPattern left right =>
    tagged cs!"AssignmentPattern" [(cs!"left", bindingJson left), (cs!"right", nodeJson right)]
  | .bindingIdentifier name => tagged cs!"BindingIdentifier" [(cs!"name", .str name)]
  | .arrayPattern elements =>
    tagged cs!"ArrayPattern" [(cs!"elements", .arr (holesArrayPatternElementJson elements))]
  | .objectPattern properties =>
    tagged cs!"ObjectPattern" [(cs!"properties", .arr (listObjectPatternPropertyJson properties))]
  | .restElement argument => tagged cs!"RestElement" [(cs!"argument", bindingJson argument)]
termination_by structural x => x

/-- estree.rs:165-170 `ArrayAssignmentPatternElement` -/
def arrayAssignmentPatternElementJson : ArrayAssignmentPatternElement → Json
  | .expression node => nodeJson node
  | .restElement argument => tagged cs!"RestElement" [(cs!"argument", bindingJson argument)]
termination_by structural x => x

/-- estree.rs:189-196 `PropertyKey` -/
def propertyKeyJson : PropertyKey → Json
  | .identifier id => identifierJson id
  | .literal lit => literalJson lit
  | .expression node => nodeJson node
termination_by structural x => x

/-- estree.rs:225-234, 245-254: the members of a function; the tag differs -/
def fnExprJson (tag : Str) : FnExpr → Json
  | .mk id params body generator expression async =>
    tagged tag [(cs!"id", optNodeJson id), (cs!"params", .arr (listFunctionParameterJson params)),
      (cs!"body", nodeJson body), (cs!"generator", .bool generator), (cs!"expression", .bool expression),
      (cs!"async", .bool async)]
termination_by structural x => x

/-- estree.rs:256-266 `PropertyValue` -/
def propertyValueJson : PropertyValue → Json
  | .assignmentPattern left right =>
    tagged cs!"AssignmentPattern" [(cs!"left", bindingJson left), (cs!"right", nodeJson right)]
  | .asyncFunctionExpression f => fnExprJson cs!"AsyncFunctionExpression" f
  | .bindingIdentifier name _ => tagged cs!"Identifier" [(cs!"name", .str name)]
  | .bindingPattern p => bindingPatternJson p
  | .functionExpression f => fnExprJson cs!"FunctionExpression" f
  | .expression node => nodeJson node
termination_by structural x => x

/-- estree.rs:268-283 `ObjectPatternProperty` -/
def objectPatternPropertyJson : ObjectPatternProperty → Json
  | .property key computed value kind method shorthand =>
    tagged cs!"Property" [(cs!"key", propertyKeyJson key), (cs!"computed", .bool computed),
      (cs!"value", optPropertyValueJson value), (cs!"kind", .str kind), (cs!"method", .bool method),
      (cs!"shorthand", .bool shorthand)]
  | .restElement argument => tagged cs!"RestElement" [(cs!"argument", bindingJson argument)]
termination_by structural x => x

/-- estree.rs:285-295 `BindingPattern` -/
def bindingPatternJson : BindingPattern → Json
  | .arrayPattern elements =>
    tagged cs!"ArrayPattern" [(cs!"elements", .arr (holesArrayPatternElementJson elements))]
  | .objectPattern properties =>
    tagged cs!"ObjectPattern" [(cs!"properties", .arr (listObjectPatternPropertyJson properties))]
termination_by structural x => x

/-- estree.rs:297-317 `FunctionParameter` -/
def functionParameterJson : FunctionParameter → Json
  | .assignmentPattern left right =>
    tagged cs!"AssignmentPattern" [(cs!"left", bindingJson left), (cs!"right", nodeJson right)]
  | .bindingIdentifier name => tagged cs!"BindingIdentifier" [(cs!"name", .str name)]
  | .arrayPattern elements =>
    tagged cs!"ArrayPattern" [(cs!"elements", .arr (holesArrayPatternElementJson elements))]
  | .objectPattern properties =>
    tagged cs!"ObjectPattern" [(cs!"properties", .arr (listObjectPatternPropertyJson properties))]
  | .restElement argument => tagged cs!"RestElement" [(cs!"argument", bindingJson argument)]
termination_by structural x => x

/-- estree.rs:319-325 `ArgumentListElement` -/
def argumentListElementJson : ArgumentListElement → Json
  | .expression node => nodeJson node
  | .spreadElement argument _ => tagged cs!"SpreadElement" [(cs!"argument", nodeJson argument)]
termination_by structural x => x

/-- estree.rs:340-357 `ObjectExpressionProperty` -/
def objectExpressionPropertyJson : ObjectExpressionProperty → Json
  | .property key computed value kind method shorthand span =>
    tagged cs!"Property" [(cs!"key", propertyKeyJson key), (cs!"computed", .bool computed),
      (cs!"value", optPropertyValueJson value), (cs!"kind", .str kind), (cs!"method", .bool method),
      (cs!"shorthand", .bool shorthand), (cs!"span", spanJson span)]
  | .spreadElement argument span =>
    tagged cs!"SpreadElement" [(cs!"argument", nodeJson argument), (cs!"span", spanJson span)]
termination_by structural x => x

/-- estree.rs:359-367 `MethodDefinition` -/
def methodDefinitionJson : MethodDefinition → Json
  | .mk key computed value kind static =>
    tagged cs!"MethodDefinition" [(cs!"key", nodeJson key), (cs!"computed", .bool computed),
      (cs!"value", optFnExprJson value), (cs!"kind", .str kind), (cs!"static", .bool static)]
termination_by structural x => x

/-- estree.rs:402-407 `SwitchCase` -/
def switchCaseJson : SwitchCase → Json
  | .mk test consequent =>
    tagged cs!"SwitchCase" [(cs!"test", optNodeJson test), (cs!"consequent", .arr (listNodeJson consequent))]
termination_by structural x => x

/-- estree.rs:409-414 `VariableDeclarator` -/
def variableDeclaratorJson : VariableDeclarator → Json
  | .mk id init => tagged cs!"VariableDeclarator" [(cs!"id", bindingJson id), (cs!"init", optNodeJson init)]
termination_by structural x => x

/-- estree.rs:7-12 `CatchClause` -/
def catchClauseJson : CatchClause → Json
  | .mk param body =>
    tagged cs!"CatchClause" [(cs!"param", optBindingJson param), (cs!"body", nodeJson body)]
termination_by structural x => x

/-- `Vec<Option<ArrayExpressionElement>>`: a hole is `null` -/
def holesArrayExpressionElementJson : List (Option ArrayExpressionElement) → List Json
  | [] => []
  | x :: xs => optArrayExpressionElementJson x :: holesArrayExpressionElementJson xs
termination_by structural x => x

/-- `Vec<Option<ArrayPatternElement>>`: a hole is `null` -/
def holesArrayPatternElementJson : List (Option ArrayPatternElement) → List Json
  | [] => []
  | x :: xs => optArrayPatternElementJson x :: holesArrayPatternElementJson xs
termination_by structural x => x

/-- `Vec<Option<ArrayAssignmentPatternElement>>`: a hole is `null` -/
def holesArrayAssignmentPatternElementJson : List (Option ArrayAssignmentPatternElement) → List Json
  | [] => []
  | x :: xs => optArrayAssignmentPatternElementJson x :: holesArrayAssignmentPatternElementJson xs
termination_by structural x => x

/-- `Option<Node>`: `None` is `null` -/
def optNodeJson : Option Node → Json
  | none => .null
  | some x => nodeJson x
termination_by structural x => x

/-- `Vec<FunctionParameter>` -/
def listFunctionParameterJson : List FunctionParameter → List Json
  | [] => []
  | x :: xs => functionParameterJson x :: listFunctionParameterJson xs
termination_by structural x => x

/-- `Vec<ArgumentListElement>` -/
def listArgumentListElementJson : List ArgumentListElement → List Json
  | [] => []
  | x :: xs => argumentListElementJson x :: listArgumentListElementJson xs
termination_by structural x => x

/-- `Vec<MethodDefinition>` -/
def listMethodDefinitionJson : List MethodDefinition → List Json
  | [] => []
  | x :: xs => methodDefinitionJson x :: listMethodDefinitionJson xs
termination_by structural x => x

/-- `Vec<ObjectExpressionProperty>` -/
def listObjectExpressionPropertyJson : List ObjectExpressionProperty → List Json
  | [] => []
  | x :: xs => objectExpressionPropertyJson x :: listObjectExpressionPropertyJson xs
termination_by structural x => x

/-- `Vec<ObjectPatternProperty>` -/
def listObjectPatternPropertyJson : List ObjectPatternProperty → List Json
  | [] => []
  | x :: xs => objectPatternPropertyJson x :: listObjectPatternPropertyJson xs
termination_by structural x => x

/-- `Vec<Node>` -/
def listNodeJson : List Node → List Json
  | [] => []
  | x :: xs => nodeJson x :: listNodeJson xs
termination_by structural x => x

/-- `Vec<SwitchCase>` -/
def listSwitchCaseJson : List SwitchCase → List Json
  | [] => []
  | x :: xs => switchCaseJson x :: listSwitchCaseJson xs
termination_by structural x => x

/-- `Option<CatchClause>`: `None` is `null` -/
def optCatchClauseJson : Option CatchClause → Json
  | none => .null
  | some x => catchClauseJson x
termination_by structural x => x

/-- `Vec<VariableDeclarator>` -/
def listVariableDeclaratorJson : List VariableDeclarator → List Json
  | [] => []
  | x :: xs => variableDeclaratorJson x :: listVariableDeclaratorJson xs
termination_by structural x => x

/-- `Option<PropertyValue>`: `None` is `null` -/
def optPropertyValueJson : Option PropertyValue → Json
  | none => .null
  | some x => propertyValueJson x
termination_by structural x => x

/-- `Option<FnExpr>`: `None` is `null` -/
def optFnExprJson : Option FnExpr → Json
  | none => .null
  | some x => fnExprJson cs!"FunctionExpression" x
termination_by structural x => x

/-- `Option<Binding>`: `None` is `null` -/
def optBindingJson : Option Binding → Json
  | none => .null
  | some x => bindingJson x
termination_by structural x => x

/-- `Option<ArrayExpressionElement>`: `None` is `null` -/
def optArrayExpressionElementJson : Option ArrayExpressionElement → Json
  | none => .null
  | some x => arrayExpressionElementJson x
termination_by structural x => x

/-- `Option<ArrayPatternElement>`: `None` is `null` -/
def optArrayPatternElementJson : Option ArrayPatternElement → Json
  | none => .null
  | some x => arrayPatternElementJson x
termination_by structural x => x

/-- `Option<ArrayAssignmentPatternElement>`: `None` is `null` -/
def optArrayAssignmentPatternElementJson : Option ArrayAssignmentPatternElement → Json
  | none => .null
  | some x => arrayAssignmentPatternElementJson x
termination_by structural x => x

end

variable [Env]

/-- What the functions of giron-wasm return to JavaScript. -/
inductive JsResult
  /-- the tree -/
  | tree (j : Json)
  /-- a string: `format!("{:?}", err)` -/
  | text (s : Str)

/-- giron-wasm/src/lib.rs:13-18, 21-26: the match on the result of the parser.  A panic or exhaustion has no value
to return.  `JsValue::from_serde` writes the JSON text and lets JavaScript read it back. -/
def jsResult : Except Fail Node → Option JsResult
  | .ok n => some (.tree (nodeJson n))
  | .error (.err e) => some (.text e.debug)
  | .error _ => none

/-- giron-wasm/src/lib.rs:11-18 `parseScript` -/
def wasmParseScript (source : Str) : Option JsResult := jsResult (parseScript source)

/-- giron-wasm/src/lib.rs:20-26 `parseModule` -/
def wasmParseModule (source : Str) : Option JsResult := jsResult (parseModule source)

end Giron

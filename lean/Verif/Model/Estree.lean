import Verif.Model.Token
/-
giron/src/estree/estree.rs: the tree types.

`Box<T>` is `T`, `Vec<T>` is `List T`.  Structs that occur only as the payload of one enum variant
(`SpreadElement`, `ArrayPattern`, `ObjectPattern`, `RestElement`, `AssignmentPattern`, `ClassBody`,
`TemplateLiteral`) are flattened into that variant.  The structs `FunctionExpression` and
`AsyncFunctionExpression` have the same fields and share the type `FnExpr`.
-/
namespace Giron

/-- The `assign_target_type: &'static str` field.  The code only ever stores or compares the three strings
"simple", "strict" and "invalid" (estree.rs, parser.rs). -/
inductive ATT | simple | strict | invalid
deriving DecidableEq, Repr, Inhabited

/-- estree.rs:172-178 `struct Identifier` -/
structure Identifier where
  name : Str
  span : Span
deriving DecidableEq, Repr, Inhabited

/-- estree.rs:180-187 `struct Literal` -/
structure Literal where
  value : Value
  raw : Str
  span : Span
deriving DecidableEq, Repr, Inhabited

/-- estree.rs:59-64 `struct Regex` -/
structure Regex where
  pattern : Str
  flags : List Char
deriving DecidableEq, Repr, Inhabited

/-- estree.rs:388-400 `struct TemplateElement` with `TemplateElementValue` -/
structure TemplateElement where
  cooked : Str
  raw : Str
  tail : Bool
deriving DecidableEq, Repr, Inhabited

/-- estree.rs:14-27 `enum ImportDeclarationSpecifier` -/
inductive ImportDeclarationSpecifier
  | importDefaultSpecifier (loc : Identifier)
  | importNamespaceSpecifier (loc : Identifier)
  | importSpecifier (loc imported : Identifier)
deriving DecidableEq, Repr

/-- estree.rs:36-41 `struct ExportSpecifier` -/
structure ExportSpecifier where
  exported : Identifier
  loc : Identifier
deriving DecidableEq, Repr

set_option genSizeOfSpec false
set_option genSizeOf false

mutual

/-- estree.rs:423-914 `enum Node` -/
inductive Node
  /-- 424-430 -/
  | arrayExpression (elements : List (Option ArrayExpressionElement)) (att : ATT) (span : Span)
  /-- 431-437 -/
  | arrayPattern (elements : List (Option ArrayPatternElement)) (att : ATT) (span : Span)
  /-- 438-445 -/
  | arrayAssignmentPattern (elements : List (Option ArrayAssignmentPatternElement)) (att : ATT) (span : Span)
  /-- 446-457 -/
  | arrowFunctionExpression (id : Option Node) (params : List FunctionParameter) (body : Node)
      (generator expression async : Bool) (att : ATT) (span : Span)
  /-- 458-466 -/
  | assignmentExpression (operator : Str) (left right : Node) (att : ATT) (span : Span)
  /-- 467-472 -/
  | assignmentPattern (left : Binding) (right : Node) (span : Span)
  /-- 473-477 -/
  | assignmentRestElement (argument : Node) (span : Span)
  /-- 478-489 -/
  | asyncArrowFunctionExpression (id : Option Node) (params : List FunctionParameter) (body : Node)
      (generator expression async : Bool) (att : ATT) (span : Span)
  /-- 490-501 -/
  | asyncFunctionExpression (id : Option Node) (params : List FunctionParameter) (body : Node)
      (generator expression async : Bool) (att : ATT) (span : Span)
  /-- 502-506 -/
  | awaitExpression (argument : Node) (span : Span)
  /-- 507-515 -/
  | binaryExpression (operator : Str) (left right : Node) (att : ATT) (span : Span)
  /-- 516-521 -/
  | bindingIdentifier (name : Str) (span : Span)
  /-- 522-528 -/
  | logicalExpression (operator : Str) (left right : Node) (span : Span)
  /-- 529-536 -/
  | callExpression (callee : Node) (arguments : List ArgumentListElement) (att : ATT) (span : Span)
  /-- 537-545 -/
  | classExpression (id : Option Node) (superClass : Option Node) (body : List MethodDefinition) (att : ATT)
      (span : Span)
  /-- 546-554 -/
  | computedMemberExpression (computed : Bool) (object property : Node) (att : ATT) (span : Span)
  /-- 555-561 -/
  | conditionalExpression (test consequent alternate : Node) (span : Span)
  /-- 562-568 -/
  | identifier (name : Str) (att : ATT) (span : Span)
  /-- 569-580 -/
  | functionExpression (id : Option Node) (params : List FunctionParameter) (body : Node)
      (generator expression async : Bool) (att : ATT) (span : Span)
  /-- 581-588 -/
  | literal (value : Value) (raw : Str) (att : ATT) (span : Span)
  /-- 589-596 -/
  | newExpression (callee : Node) (arguments : List ArgumentListElement) (att : ATT) (span : Span)
  /-- 597-603 -/
  | objectExpression (properties : List ObjectExpressionProperty) (att : ATT) (span : Span)
  /-- 604-610 -/
  | objectPattern (properties : List ObjectPatternProperty) (att : ATT) (span : Span)
  /-- 611-619 -/
  | regexLiteral (value raw : Str) (regex : Regex) (att : ATT) (span : Span)
  /-- 620-626 -/
  | sequenceExpression (expressions : List Node) (att : ATT) (span : Span)
  /-- 627-635 -/
  | staticMemberExpression (computed : Bool) (object property : Node) (att : ATT) (span : Span)
  /-- 636-641 -/
  | taggedTemplateExpression (tag : Node) (quasis : List TemplateElement) (expressions : List Node) (span : Span)
  /-- 642-647 -/
  | thisExpression (att : ATT) (span : Span)
  /-- 648-656 -/
  | unaryExpression (operator : Str) (argument : Node) (isPrefix : Bool) (att : ATT) (span : Span)
  /-- 657-665 -/
  | updateExpression (operator : Str) (argument : Node) (isPrefix : Bool) (att : ATT) (span : Span)
  /-- 666-673 -/
  | yieldExpression (argument : Option Node) (delegate : Bool) (att : ATT) (span : Span)
  /-- 674-679 -/
  | arrowParameterPlaceHolder (params : List FunctionParameter) (async : Bool) (span : Span)
  /-- 680-684 -/
  | restElement (argument : Binding) (span : Span)
  /-- 685-689 -/
  | spreadElement (argument : Node) (span : Span)
  /-- 690-695 -/
  | super (att : ATT) (span : Span)
  /-- 696-703 -/
  | templateLiteral (quasis : List TemplateElement) (expressions : List Node) (att : ATT) (span : Span)
  /-- 704-711 -/
  | metaProperty (metaId property : Node) (att : ATT) (span : Span)
  /-- 715-724 -/
  | asyncFunctionDeclaration (id : Option Node) (params : List FunctionParameter) (body : Node)
      (generator expression async : Bool) (span : Span)
  /-- 725-729 -/
  | breakStatement (label : Option Node) (span : Span)
  /-- 730-734 -/
  | continueStatement (label : Option Node) (span : Span)
  /-- 735-738 -/
  | debuggerStatement (span : Span)
  /-- 739-744 -/
  | doWhileStatement (body test : Node) (span : Span)
  /-- 745-748 -/
  | emptyStatement (span : Span)
  /-- 749-753 -/
  | expressionStatement (expression : Node) (span : Span)
  /-- 754-759 -/
  | directive (expression : Node) (directive : Str) (span : Span)
  /-- 760-767 -/
  | forStatement (init test update : Option Node) (body : Node) (span : Span)
  /-- 768-775 -/
  | forInStatement (left right body : Node) (each : Bool) (span : Span)
  /-- 776-782 -/
  | forOfStatement (left right body : Node) (span : Span)
  /-- 783-792 -/
  | functionDeclaration (id : Option Node) (params : List FunctionParameter) (body : Node)
      (generator expression async : Bool) (span : Span)
  /-- 793-799 -/
  | ifStatement (test consequent : Node) (alternate : Option Node) (span : Span)
  /-- 800-804 -/
  | returnStatement (argument : Option Node) (span : Span)
  /-- 805-810 -/
  | switchStatement (discriminant : Node) (cases : List SwitchCase) (span : Span)
  /-- 811-815 -/
  | throwStatement (argument : Node) (span : Span)
  /-- 816-822 -/
  | tryStatement (block : Node) (handler : Option CatchClause) (finalizer : Option Node) (span : Span)
  /-- 823-828 -/
  | variableDeclaration (declarations : List VariableDeclarator) (kind : Str) (span : Span)
  /-- 829-834 -/
  | whileStatement (test body : Node) (span : Span)
  /-- 835-840 -/
  | withStatement (object body : Node) (span : Span)
  /-- 841-845 -/
  | blockStatement (body : List Node) (span : Span)
  /-- 846-853 -/
  | classDeclaration (id : Option Node) (superClass : Option Node) (body : List MethodDefinition) (span : Span)
  /-- 854-858 -/
  | exportAllDeclaration (source : Literal) (span : Span)
  /-- 859-864 -/
  | exportDefaultDeclaration (declaration : Node) (span : Span)
  /-- 865-871 -/
  | exportNamedDeclaration (declaration : Option Node) (specifiers : List ExportSpecifier)
      (source : Option Literal) (span : Span)
  /-- 872-877 -/
  | importDeclaration (specifiers : List ImportDeclarationSpecifier) (source : Literal) (span : Span)
  /-- 878-882 -/
  | importDefaultSpecifier (loc : Identifier) (span : Span)
  /-- 883-887 -/
  | importNamespaceSpecifier (loc : Identifier) (span : Span)
  /-- 888-893 -/
  | importSpecifier (loc imported : Identifier) (span : Span)
  /-- 894-899 -/
  | labeledStatement (label : Identifier) (body : Node) (span : Span)
  /-- 900-906 -/
  | moduleNode (body : List Node) (sourceType : Str) (span : Span)
  /-- 910-916 -/
  | program (body : List Node) (sourceType : Str) (span : Span)

/-- estree.rs:99-106 `enum Binding` -/
inductive Binding
  | bindingIdentifier (name : Str) (span : Span)
  | arrayPattern (elements : List (Option ArrayPatternElement)) (span : Span)
  | objectPattern (properties : List ObjectPatternProperty) (span : Span)
  | expression (node : Node)

/-- estree.rs:74-79 `enum ArrayExpressionElement` -/
inductive ArrayExpressionElement
  | expression (node : Node)
  | spreadElement (argument : Node) (span : Span)

/-- estree.rs:138-157 `enum ArrayPatternElement` -/
inductive ArrayPatternElement
  | assignmentPattern (left : Binding) (right : Node)
  | bindingIdentifier (name : Str)
  | arrayPattern (elements : List (Option ArrayPatternElement))
  | objectPattern (properties : List ObjectPatternProperty)
  | restElement (argument : Binding)

/-- estree.rs:165-170 `enum ArrayAssignmentPatternElement` -/
inductive ArrayAssignmentPatternElement
  | expression (node : Node)
  | restElement (argument : Binding)

/-- estree.rs:189-196 `enum PropertyKey` -/
inductive PropertyKey
  | identifier (id : Identifier)
  | literal (lit : Literal)
  | expression (node : Node)

/-- estree.rs:225-234 `struct AsyncFunctionExpression`, 245-254 `struct FunctionExpression` -/
inductive FnExpr
  | mk (id : Option Node) (params : List FunctionParameter) (body : Node) (generator expression async : Bool)

/-- estree.rs:256-266 `enum PropertyValue` -/
inductive PropertyValue
  | assignmentPattern (left : Binding) (right : Node)
  | asyncFunctionExpression (f : FnExpr)
  | bindingIdentifier (name : Str) (span : Span)
  | bindingPattern (p : BindingPattern)
  | functionExpression (f : FnExpr)
  | expression (node : Node)

/-- estree.rs:268-283 `enum ObjectPatternProperty` -/
inductive ObjectPatternProperty
  | property (key : PropertyKey) (computed : Bool) (value : Option PropertyValue) (kind : Str)
      (method shorthand : Bool)
  | restElement (argument : Binding)

/-- estree.rs:285-295 `enum BindingPattern` -/
inductive BindingPattern
  | arrayPattern (elements : List (Option ArrayPatternElement))
  | objectPattern (properties : List ObjectPatternProperty)

/-- estree.rs:297-317 `enum FunctionParameter` -/
inductive FunctionParameter
  | assignmentPattern (left : Binding) (right : Node)
  | bindingIdentifier (name : Str)
  | arrayPattern (elements : List (Option ArrayPatternElement))
  | objectPattern (properties : List ObjectPatternProperty)
  | restElement (argument : Binding)

/-- estree.rs:319-325 `enum ArgumentListElement` -/
inductive ArgumentListElement
  | expression (node : Node)
  | spreadElement (argument : Node) (span : Span)

/-- estree.rs:340-357 `enum ObjectExpressionProperty` -/
inductive ObjectExpressionProperty
  | property (key : PropertyKey) (computed : Bool) (value : Option PropertyValue) (kind : Str)
      (method shorthand : Bool) (span : Span)
  | spreadElement (argument : Node) (span : Span)

/-- estree.rs:359-367 `struct MethodDefinition` -/
inductive MethodDefinition
  | mk (key : Node) (computed : Bool) (value : Option FnExpr) (kind : Str) (static : Bool)

/-- estree.rs:402-407 `struct SwitchCase` -/
inductive SwitchCase
  | mk (test : Option Node) (consequent : List Node)

/-- estree.rs:409-414 `struct VariableDeclarator` -/
inductive VariableDeclarator
  | mk (id : Binding) (init : Option Node)

/-- estree.rs:7-12 `struct CatchClause` -/
inductive CatchClause
  | mk (param : Option Binding) (body : Node)

end

instance : Inhabited Node := ⟨.debuggerStatement default⟩

end Giron

import Verif.Model.Estree
/-
Specification vocabulary for trees: what the parts of a tree are, which slot of its parent a part fills, and the
paths from the root.  Nothing here mentions the parser.
-/
namespace Giron.Spec

/-- Where a pattern stands: in a declaration, function parameter or catch clause; in the parameters of an arrow
function; on the left of `=`; at the head of `for (... in/of`. -/
inductive Mode | declared | arrow | assign | forHead
deriving DecidableEq

/-- The mode of the patterns nested in a pattern. -/
def Mode.inner : Mode → Mode
  | .forHead => .declared
  | m => m

/-- The mode of `p` in `p = default` nested in a pattern.  (The text of arrow parameters is first read as an
expression, where `p = default` is an assignment.) -/
def Mode.left : Mode → Mode
  | .arrow => .assign
  | .forHead => .declared
  | m => m

/-- The slot of the parent that a node fills. -/
inductive Role
  /-- an expression -/
  | expr
  /-- an item of a statement list -/
  | stmt
  /-- the body of `if`, `else`, `with` -/
  | sub
  /-- the body of a labelled statement -/
  | labelBody
  /-- the body of an iteration statement -/
  | loopBody
  /-- the braced body of a function, arrow function or method -/
  | fnBody
  /-- the block of `try`, `catch`, `finally` -/
  | block
  /-- the left side of an assignment -/
  | target
  /-- an element of an array or object pattern on the left of `=` -/
  | asgElem
  /-- the left side of `for (... in/of` -/
  | forLeft
  /-- the first part of `for (...;...;...)` -/
  | forInit
  /-- the name of a declared function or of a class -/
  | bindId
  /-- the name of a function expression; the label of `break` or `continue` -/
  | nameId
  /-- the object of a member expression -/
  | memberObj
  /-- the callee of a call -/
  | callee
  /-- the name after the dot -/
  | memberName
  /-- the two names of `new.target` -/
  | metaName
  /-- the key of a class member -/
  | methodKey
  /-- the declaration after `export` -/
  | exportDecl
  /-- what follows `export default` -/
  | exportDefault
  /-- an item of a module -/
  | moduleItem
  /-- the whole tree -/
  | program
deriving DecidableEq

/-- Slots where an identifier is a reference or a binding, not a mere name: the name after a dot, the key of a class
member and the two words of `new.target` are mere names. -/
def Role.isRef : Role → Bool
  | .memberName | .metaName | .methodKey => false
  | _ => true

/-- A part of a tree, with its slot. -/
inductive Item
  | node (role : Role) (n : Node)
  | binding (m : Mode) (b : Binding)
  | arrElem (e : ArrayExpressionElement)
  | arrPat (m : Mode) (e : ArrayPatternElement)
  | arrAsg (e : ArrayAssignmentPatternElement)
  | key (k : PropertyKey)
  | fn (f : FnExpr)
  | propVal (v : PropertyValue)
  | patVal (m : Mode) (v : PropertyValue)
  | patProp (m : Mode) (p : ObjectPatternProperty)
  | param (m : Mode) (p : FunctionParameter)
  | arg (a : ArgumentListElement)
  | prop (p : ObjectExpressionProperty)
  | method (m : MethodDefinition)
  | case (c : SwitchCase)
  | declarator (d : VariableDeclarator)
  | catchClause (c : CatchClause)

/-- an optional node in a slot -/
def optNode (r : Role) (n : Option Node) : List Item := n.toList.map (.node r)
/-- expressions -/
def exprs (l : List Node) : List Item := l.map (.node .expr)
/-- the elements of an array pattern (holes have no part) -/
def arrPats (m : Mode) (l : List (Option ArrayPatternElement)) : List Item := l.reduceOption.map (.arrPat m)
/-- the properties of an object pattern -/
def patProps (m : Mode) (l : List ObjectPatternProperty) : List Item := l.map (.patProp m)
/-- the parts of a function -/
def fnParts (idRole : Role) (m : Mode) (id : Option Node) (params : List FunctionParameter) (bodyRole : Role)
    (body : Node) : List Item :=
  optNode idRole id ++ params.map (.param m) ++ [.node bodyRole body]
/-- the parts of a class -/
def classParts (id superClass : Option Node) (body : List MethodDefinition) : List Item :=
  optNode .bindId id ++ optNode .expr superClass ++ body.map .method

/-- The mode of an object pattern that fills a node slot. -/
def Role.mode : Role → Mode
  | .target => .assign
  | .asgElem => .assign
  | .forLeft => .forHead
  | _ => .declared

/-- The parts of a node that fills slot `r`. -/
def nodeParts (r : Role) : Node → List Item
  | .arrayExpression es _ _ => es.reduceOption.map .arrElem
  | .arrayPattern es _ _ => arrPats .declared es
  | .arrayAssignmentPattern es _ _ => es.reduceOption.map .arrAsg
  | .arrowFunctionExpression id ps body _ expression _ _ _ =>
    fnParts .nameId .arrow id ps (if expression then .expr else .fnBody) body
  | .assignmentExpression _ left right _ _ => [.node .target left, .node .expr right]
  | .assignmentPattern left right _ => [.binding .assign left, .node .expr right]
  | .assignmentRestElement a _ => [.node .target a]
  | .asyncArrowFunctionExpression id ps body _ expression _ _ _ =>
    fnParts .nameId .arrow id ps (if expression then .expr else .fnBody) body
  | .asyncFunctionExpression id ps body _ _ _ _ _ => fnParts .nameId .declared id ps .fnBody body
  | .awaitExpression a _ => exprs [a]
  | .binaryExpression _ left right _ _ => exprs [left, right]
  | .bindingIdentifier _ _ => []
  | .logicalExpression _ left right _ => exprs [left, right]
  | .callExpression callee args _ _ => .node .callee callee :: args.map .arg
  | .classExpression id sup body _ _ => classParts id sup body
  | .computedMemberExpression _ object property _ _ => [.node .memberObj object, .node .expr property]
  | .conditionalExpression a b c _ => exprs [a, b, c]
  | .identifier _ _ _ => []
  | .functionExpression id ps body _ _ _ _ _ => fnParts .nameId .declared id ps .fnBody body
  | .literal _ _ _ _ => []
  | .newExpression callee args _ _ => .node .expr callee :: args.map .arg
  | .objectExpression ps _ _ => ps.map .prop
  | .objectPattern ps _ _ => patProps r.mode ps
  | .regexLiteral _ _ _ _ _ => []
  | .sequenceExpression es _ _ => exprs es
  | .staticMemberExpression _ object property _ _ => [.node .memberObj object, .node .memberName property]
  | .taggedTemplateExpression tag _ es _ => .node .expr tag :: exprs es
  | .thisExpression _ _ => []
  | .unaryExpression _ a _ _ _ => exprs [a]
  | .updateExpression _ a _ _ _ => exprs [a]
  | .yieldExpression a _ _ _ => optNode .expr a
  | .arrowParameterPlaceHolder ps _ _ => ps.map (.param .arrow)
  | .restElement b _ => [.binding .declared b]
  | .spreadElement a _ => exprs [a]
  | .super _ _ => []
  | .templateLiteral _ es _ _ => exprs es
  | .metaProperty a b _ _ => [.node .metaName a, .node .metaName b]
  | .asyncFunctionDeclaration id ps body _ _ _ _ => fnParts .bindId .declared id ps .fnBody body
  | .breakStatement label _ => optNode .nameId label
  | .continueStatement label _ => optNode .nameId label
  | .debuggerStatement _ => []
  | .doWhileStatement body test _ => [.node .loopBody body, .node .expr test]
  | .emptyStatement _ => []
  | .expressionStatement e _ => exprs [e]
  | .directive e _ _ => exprs [e]
  | .forStatement init test update body _ =>
    optNode .forInit init ++ optNode .expr test ++ optNode .expr update ++ [.node .loopBody body]
  | .forInStatement left right body _ _ => [.node .forLeft left, .node .expr right, .node .loopBody body]
  | .forOfStatement left right body _ => [.node .forLeft left, .node .expr right, .node .loopBody body]
  | .functionDeclaration id ps body _ _ _ _ => fnParts .bindId .declared id ps .fnBody body
  | .ifStatement test a b _ => .node .expr test :: .node .sub a :: optNode .sub b
  | .returnStatement a _ => optNode .expr a
  | .switchStatement d cases _ => .node .expr d :: cases.map .case
  | .throwStatement a _ => exprs [a]
  | .tryStatement block handler finalizer _ =>
    .node .block block :: (handler.toList.map .catchClause ++ optNode .block finalizer)
  | .variableDeclaration ds _ _ => ds.map .declarator
  | .whileStatement test body _ => [.node .expr test, .node .loopBody body]
  | .withStatement object body _ => [.node .expr object, .node .sub body]
  | .blockStatement body _ => body.map (.node .stmt)
  | .classDeclaration id sup body _ => classParts id sup body
  | .exportAllDeclaration _ _ => []
  | .exportDefaultDeclaration d _ => [.node .exportDefault d]
  | .exportNamedDeclaration d _ _ _ => optNode .exportDecl d
  | .importDeclaration _ _ _ => []
  | .importDefaultSpecifier _ _ => []
  | .importNamespaceSpecifier _ _ => []
  | .importSpecifier _ _ _ => []
  | .labeledStatement _ body _ => [.node .labelBody body]
  | .moduleNode body _ _ => body.map (.node .moduleItem)
  | .program body sourceType _ => body.map (.node (if sourceType = cs!"module" then .moduleItem else .stmt))

/-- The immediate parts of a part of a tree. -/
def children : Item → List Item
  | .node r n => nodeParts r n
  | .binding m b =>
    match b with
    | .bindingIdentifier _ _ => []
    | .arrayPattern es _ => arrPats m.inner es
    | .objectPattern ps _ => patProps m.inner ps
    | .expression n => [.node .target n]
  | .arrElem e =>
    match e with
    | .expression n => exprs [n]
    | .spreadElement n _ => exprs [n]
  | .arrPat m e =>
    match e with
    | .assignmentPattern left right => [.binding m.left left, .node .expr right]
    | .bindingIdentifier _ => []
    | .arrayPattern es => arrPats m es
    | .objectPattern ps => patProps m ps
    | .restElement b => [.binding m b]
  | .arrAsg e =>
    match e with
    | .expression n => [.node .asgElem n]
    | .restElement b => [.binding .assign b]
  | .key k =>
    match k with
    | .identifier _ => []
    | .literal _ => []
    | .expression n => exprs [n]
  | .fn (.mk id ps body _ _ _) => fnParts .nameId .declared id ps .fnBody body
  | .propVal v =>
    match v with
    | .assignmentPattern left right => [.binding .declared left, .node .expr right]
    | .asyncFunctionExpression f => [.fn f]
    | .bindingIdentifier _ _ => []
    | .bindingPattern p => [.patVal .declared (.bindingPattern p)]
    | .functionExpression f => [.fn f]
    | .expression n => exprs [n]
  | .patVal m v =>
    match v with
    | .assignmentPattern left right => [.binding m.left left, .node .expr right]
    | .asyncFunctionExpression f => [.fn f]
    | .bindingIdentifier _ _ => []
    | .bindingPattern (.arrayPattern es) => arrPats m.inner es
    | .bindingPattern (.objectPattern ps) => patProps m.inner ps
    | .functionExpression f => [.fn f]
    | .expression n => [.node .asgElem n]
  | .patProp m p =>
    match p with
    | .property k _ v _ _ _ => .key k :: v.toList.map (.patVal m)
    | .restElement b => [.binding m b]
  | .param m p =>
    match p with
    | .assignmentPattern left right => [.binding m.left left, .node .expr right]
    | .bindingIdentifier _ => []
    | .arrayPattern es => arrPats m es
    | .objectPattern ps => patProps m ps
    | .restElement b => [.binding .declared b]
  | .arg a =>
    match a with
    | .expression n => exprs [n]
    | .spreadElement n _ => exprs [n]
  | .prop p =>
    match p with
    | .property k _ v _ _ _ _ => .key k :: v.toList.map .propVal
    | .spreadElement n _ => exprs [n]
  | .method (.mk k _ f _ _) => .node .methodKey k :: f.toList.map .fn
  | .case (.mk test body) => optNode .expr test ++ body.map (.node .stmt)
  | .declarator (.mk b init) => .binding .declared b :: optNode .expr init
  | .catchClause (.mk p body) => p.toList.map (.binding .declared) ++ [.node .block body]

/-- `p` lists parts of a tree, each an immediate part of the one before. -/
def Chain : List Item → Prop
  | [] => True
  | [_] => True
  | a :: b :: rest => b ∈ children a ∧ Chain (b :: rest)

/-- `p` leads from the root of the tree `t` down to `it`. -/
structure PathTo (t : Node) (p : List Item) (it : Item) : Prop where
  root : p.head? = some (.node .program t)
  chain : Chain p
  last : p.getLast? = some it

/-! ### Strict code -/

/-- A directive: an expression statement that is just a string literal.  The tree cannot tell the literals `true`
and `false` from the strings "true" and "false"; these count as no directive. -/
def directive? : Node → Option Str
  | .expressionStatement (.literal (.str v) _ _ _) _ =>
    if v = cs!"true" ∨ v = cs!"false" then none else some v
  | _ => none

/-- The directives a statement list starts with. -/
def prologue : List Node → List Str
  | [] => []
  | n :: rest =>
    match directive? n with
    | some v => v :: prologue rest
    | none => []

/-- The statement list has a `"use strict"` directive. -/
def usesStrict (body : List Node) : Bool := (prologue body).contains cs!"use strict"

/-- The slot is the braced body of a function. -/
def Role.isFnBody : Role → Bool
  | .fnBody => true
  | _ => false
/-- The slot is the body of an iteration statement. -/
def Role.isLoopBody : Role → Bool
  | .loopBody => true
  | _ => false

/-- the body of a function -/
def Item.isFnBody : Item → Bool
  | .node r _ => r.isFnBody
  | _ => false
/-- the body of an iteration statement -/
def Item.isLoopBody : Item → Bool
  | .node r _ => r.isLoopBody
  | _ => false
/-- a switch statement -/
def _root_.Giron.Node.isSwitch : Node → Bool
  | .switchStatement .. => true
  | _ => false
/-- a switch statement -/
def Item.isSwitch : Item → Bool
  | .node _ n => n.isSwitch
  | _ => false

/-- The node is strict code by itself when it fills slot `r`: a class, a module, a script or function body with a
`"use strict"` directive. -/
def _root_.Giron.Node.startsStrict (r : Role) : Node → Bool
  | .classDeclaration .. => true
  | .classExpression .. => true
  | .program body sourceType _ => decide (sourceType = cs!"module") || usesStrict body
  | .blockStatement body _ => r.isFnBody && usesStrict body
  | _ => false

/-- The part is strict code by itself. -/
def Item.startsStrict : Item → Bool
  | .node r n => n.startsStrict r
  | _ => false

end Giron.Spec

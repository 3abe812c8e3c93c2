import Verif.Spec.Strict
import Verif.Model.EstreeFns
/-
The invariant of the trees the parser builds: a local condition at every part, in a context (`return` allowed, in a
loop, in a switch, strict) that only grows on the way down.
-/
namespace Giron.Spec

/-- What the ancestors of a part allow. -/
structure Ctx where
  strict : Bool
  ret : Bool
  iter : Bool
  sw : Bool
deriving DecidableEq

/-- The context at (and below) a part. -/
def enter (c : Ctx) (it : Item) : Ctx where
  strict := c.strict || it.startsStrict
  ret := c.ret || it.isFnBody
  iter := c.iter || it.isLoopBody
  sw := c.sw || it.isSwitch

/-- A line of a text of `L` lines. -/
def LineOk (L : Nat) (m : Marker) : Prop := 1 ≤ m.line ∧ m.line ≤ L
/-- The span starts on a line of the text. -/
def SpanOk (L : Nat) (sp : Span) : Prop := LineOk L sp.start

/-- The value of a literal is a string, a number or `null`. -/
def LiteralOk (v : Value) : Prop := ∀ p, v ≠ .punc p

/-- The value of a literal property name is a string or a number. -/
def KeyOk (v : Value) : Prop := (∃ s, v = .str s) ∨ ∃ x, v = .num x

/-- The condition on a node, whatever its slot. -/
def NodeOk (c : Ctx) : Node → Prop
  | .arrayPattern es _ _ => ElemsOk es
  | .arrayAssignmentPattern es _ _ => RestLast isAsgRest es
  | .objectPattern ps _ _ => PropsOk ps
  | .arrowFunctionExpression id ps _ gen _ async _ _ => ParamsOk ps ∧ id = none ∧ gen = false ∧ async = false
  | .asyncArrowFunctionExpression id ps _ gen _ async _ _ => ParamsOk ps ∧ id = none ∧ gen = false ∧ async = true
  | .asyncFunctionExpression _ ps _ _ _ _ _ _ => ParamsOk ps
  | .functionExpression _ ps _ gen ex _ _ _ => ParamsOk ps ∧ gen = false ∧ ex = false
  | .literal v _ _ _ => LiteralOk v
  | .asyncFunctionDeclaration _ ps _ _ _ _ _ => ParamsOk ps
  | .functionDeclaration _ ps _ _ ex _ _ => ParamsOk ps ∧ ex = false
  | .assignmentExpression op l _ _ _ => op ∈ assignOps ∧ (op ≠ cs!"=" → SimpleTarget c.strict l)
  | .binaryExpression op l r _ _ => BinaryOk op l r
  | .bindingIdentifier name _ => NameIn c.strict name
  | .callExpression callee _ _ _ => level callee = 17
  | .computedMemberExpression comp o _ _ _ => level o = 17 ∧ comp = true
  | .staticMemberExpression comp o _ _ _ => level o = 17 ∧ comp = false
  | .newExpression callee _ _ _ => level callee = 17
  | .taggedTemplateExpression tag qs es _ => level tag = 17 ∧ TemplateOk qs es
  | .conditionalExpression test _ _ _ => 2 ≤ level test
  | .templateLiteral qs es _ _ => TemplateOk qs es
  | .unaryExpression op a pre _ _ => (op ∈ unaryOps ∧ 15 ≤ level a) ∧ pre = true
  | .forInStatement _ _ _ each _ => each = false
  | .updateExpression op a _ _ _ => op ∈ updateOps ∧ SimpleTarget c.strict a
  | .breakStatement label _ => label.isNone → c.iter = true ∨ c.sw = true
  | .continueStatement label _ => label.isNone → c.iter = true
  | .returnStatement _ _ => c.ret = true
  | .withStatement _ _ _ => c.strict = false
  | .switchStatement _ cases _ => CasesOk cases
  | .tryStatement _ handler finalizer _ => handler.isSome ∨ finalizer.isSome
  | .variableDeclaration ds kind _ => ds ≠ [] ∧ kind ∈ varKinds
  | .classDeclaration _ sup _ _ => ∀ n, sup = some n → level n = 17
  | .labeledStatement label _ _ => NameIn c.strict label.name
  | .exportAllDeclaration src _ => ∃ v, src.value = .str v
  | .importDeclaration specs src _ => (∀ sp ∈ specs, NameOk (importLocal sp).name) ∧ ∃ v, src.value = .str v
  | .exportNamedDeclaration d specs src _ =>
    (d.isSome → specs = [] ∧ src = none) ∧ ∀ l, src = some l → ∃ v, l.value = .str v
  | .program _ sourceType _ => sourceType = cs!"module" ∨ sourceType = cs!"script"
  | _ => True

/-- The condition on an expression (also where it stands for an assignment target). -/
structure ExprOk (L : Nat) (c : Ctx) (n : Node) : Prop where
  att : n.assignTargetType = .simple → SimpleTarget c.strict n
  span : ∀ sp, n.exprSpan? = some sp → SpanOk L sp
  name : ∀ name att sp, n = .identifier name att sp → NameIn c.strict name

/-- Slots where a node is an expression or assignment target. -/
def Role.isExprLike : Role → Bool
  | .expr | .target | .asgElem => true
  | _ => false

/-- The condition at a part. -/
def Local (L : Nat) (c : Ctx) : Item → Prop
  | .node r n => Fits c.strict r n ∧ NodeOk c n ∧ (r.isExprLike = true → isExpr n = true → ExprOk L c n) ∧
      (r.isRef = true → ∀ name att sp, n = .identifier name att sp → NameIn c.strict name)
  | .binding m b =>
    match b with
    | .bindingIdentifier name _ => NameOk name
    | .arrayPattern es _ => ElemsOk es ∧ m ≠ .assign
    | .objectPattern ps _ => PropsOk ps
    | .expression _ => m = .assign ∨ m = .forHead
  | .arrElem e =>
    match e with
    | .expression _ => True
    | .spreadElement _ sp => SpanOk L sp
  | .arrPat m e =>
    match e with
    | .assignmentPattern left _ => ((m = .declared ∨ m = .arrow) ∧ isBinding left) ∧ BindIn c.strict left
    | .bindingIdentifier name => NameIn c.strict name
    | .arrayPattern es => ElemsOk es
    | .objectPattern ps => PropsOk ps
    | .restElement b => isBinding b ∧ BindIn c.strict b
  | .arrAsg e =>
    match e with
    | .expression _ => True
    | .restElement _ => True
  | .key k =>
    match k with
    | .literal l => KeyOk l.value
    | _ => True
  | .fn (.mk id ps _ _ ex _) => ParamsOk ps ∧ id = none ∧ ex = false
  | .propVal v =>
    match v with
    | .assignmentPattern _ _ => False
    | .bindingIdentifier _ _ => False
    | .bindingPattern _ => False
    | _ => True
  | .patVal m v =>
    match v with
    | .assignmentPattern left _ => m ≠ .assign ∧ isBinding left
    | .asyncFunctionExpression _ => False
    | .bindingIdentifier name _ => m ≠ .assign ∧ NameIn c.strict name
    | .bindingPattern (.arrayPattern es) => m ≠ .assign ∧ ElemsOk es
    | .bindingPattern (.objectPattern ps) => m ≠ .assign ∧ PropsOk ps
    | .functionExpression _ => False
    | .expression _ => m = .assign ∨ m = .forHead
  | .patProp m p =>
    match p with
    | .property k _ v _ _ _ => m = .declared → v = none → ∃ id, k = .identifier id ∧ NameOk id.name
    | .restElement b => ((m = .declared ∨ m = .arrow) → isBinding b ∧ BindIn c.strict b) ∧ (m = .assign → ∀ ps sp, b ≠ .objectPattern ps sp)
  | .param _ p =>
    match p with
    | .assignmentPattern left _ => isBinding left ∧ BindIn c.strict left
    | .bindingIdentifier name => NameIn c.strict name
    | .arrayPattern es => ElemsOk es
    | .objectPattern ps => PropsOk ps
    | .restElement b => isBinding b ∧ BindIn c.strict b
  | .arg a =>
    match a with
    | .expression _ => True
    | .spreadElement _ _ => True
  | .prop p =>
    match p with
    | .property _ _ v kind _ shorthand sp => SpanOk L sp ∧ kind ∈ propKinds ∧ (v = none → shorthand = true)
    | .spreadElement _ sp => SpanOk L sp
  | .method (.mk _ _ f kind static) => f.isSome ∧ kind ∈ methodKinds ∧ static = false ∧
      (kind = cs!"get" → ∀ id ps body gen ex async, f = some (.mk id ps body gen ex async) → ps = [] ∧ gen = false ∧ async = false) ∧
      (kind = cs!"set" → ∀ id ps body gen ex async, f = some (.mk id ps body gen ex async) → gen = false ∧ async = false)
  | .case _ => True
  | .declarator (.mk b init) => (isName b = false → init.isSome) ∧ BindIn c.strict b
  | .catchClause (.mk p _) => ∀ b, p = some b → isBinding b ∧ BindIn c.strict b

/-- Every part of `it`, itself included, is well formed. -/
inductive WF (L : Nat) : Ctx → Item → Prop
  | mk {c : Ctx} {it : Item} (h : Local L (enter c it) it) (hk : ∀ k ∈ children it, WF L (enter c it) k) : WF L c it

/-- All of a list of parts. -/
def AllWF (L : Nat) (c : Ctx) (l : List Item) : Prop := ∀ k ∈ l, WF L c k

end Giron.Spec

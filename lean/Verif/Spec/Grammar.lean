import Verif.Spec.Tree
/-
Specification vocabulary: reserved words, operators and their precedence, syntactic categories, assignment targets.
Written from the ECMAScript/ESTree point of view; nothing here mentions the parser.
-/
namespace Giron.Spec

/-- The reserved words. -/
def reserved : List Str :=
  [cs!"await", cs!"break", cs!"case", cs!"catch", cs!"class", cs!"const", cs!"continue", cs!"debugger",
   cs!"default", cs!"delete", cs!"do", cs!"else", cs!"enum", cs!"export", cs!"extends", cs!"finally", cs!"for",
   cs!"function", cs!"if", cs!"import", cs!"in", cs!"instanceof", cs!"new", cs!"return", cs!"super", cs!"switch",
   cs!"this", cs!"throw", cs!"try", cs!"typeof", cs!"var", cs!"void", cs!"while", cs!"with", cs!"yield"]

/-- A name that may be used as a reference or a binding: not reserved, but `yield` and `await` are allowed
outside generators and async functions. -/
def NameOk (name : Str) : Prop := name ∉ reserved ∨ name = cs!"yield" ∨ name = cs!"await"

/-- `name` is `eval` or `arguments`. -/
def EvalOrArguments (name : Str) : Prop := name = cs!"eval" ∨ name = cs!"arguments"

/-! ### Operators -/

/-- The binary operators with their precedence.  (`%` has a level of its own here, between `*` and `**`.) -/
def binOps : List (Str × Nat) :=
  [(cs!"||", 1), (cs!"&&", 2), (cs!"|", 3), (cs!"^", 4), (cs!"&", 5),
   (cs!"==", 6), (cs!"!=", 6), (cs!"===", 6), (cs!"!==", 6),
   (cs!"<", 7), (cs!">", 7), (cs!"<=", 7), (cs!">=", 7), (cs!"instanceof", 7), (cs!"in", 7),
   (cs!"<<", 8), (cs!">>", 8), (cs!">>>", 8), (cs!"+", 9), (cs!"-", 9),
   (cs!"*", 10), (cs!"/", 10), (cs!"%", 11), (cs!"**", 12)]

/-- Precedence of a binary operator (0 for other strings). -/
def binPrec (op : Str) : Nat := (binOps.lookup op).getD 0

/-- unary operators -/
def unaryOps : List Str :=
  [cs!"+", cs!"-", cs!"~", cs!"!", cs!"delete", cs!"void", cs!"typeof", cs!"await"]
/-- update operators -/
def updateOps : List Str := [cs!"++", cs!"--"]
/-- assignment operators -/
def assignOps : List Str :=
  [cs!"=", cs!"+=", cs!"-=", cs!"*=", cs!"/=", cs!"%=", cs!"**=", cs!"<<=", cs!">>=", cs!">>>=", cs!"&=", cs!"|=",
   cs!"^="]

/-- How tightly an expression binds: 0 assignment and `yield`, 1 conditional, 2 + precedence for binary operators,
15 unary, 16 update, 17 everything else.  Parenthesised expressions are `SequenceExpression` nodes: 17. -/
def level : Node → Nat
  | .assignmentExpression .. => 0
  | .yieldExpression .. => 0
  | .conditionalExpression .. => 1
  | .binaryExpression op _ _ _ _ => 2 + binPrec op
  | .logicalExpression op _ _ _ => 2 + binPrec op
  | .unaryExpression .. => 15
  | .awaitExpression .. => 15
  | .updateExpression .. => 16
  | _ => 17

/-- The operands of a binary operator are grouped by precedence: to the left for all operators but `**`, whose left
operand is not even a unary expression. -/
def BinaryOk (op : Str) (left right : Node) : Prop :=
  1 ≤ binPrec op ∧
  if op = cs!"**" then 16 ≤ level left ∧ 14 ≤ level right
  else 2 + binPrec op ≤ level left ∧ 2 + binPrec op < level right

/-! ### Syntactic categories -/

/-- Expressions.  A class expression is represented by a `ClassDeclaration` node (parser.rs:3114-3148). -/
def isExpr : Node → Bool
  | .arrayExpression .. | .arrowFunctionExpression .. | .assignmentExpression .. => true
  | .asyncArrowFunctionExpression .. | .binaryExpression .. | .callExpression .. | .classDeclaration .. => true
  | .computedMemberExpression .. | .conditionalExpression .. | .identifier .. | .functionExpression .. => true
  | .literal .. | .newExpression .. | .objectExpression .. | .regexLiteral .. | .sequenceExpression .. => true
  | .staticMemberExpression .. | .taggedTemplateExpression .. | .thisExpression .. | .unaryExpression .. => true
  | .updateExpression .. | .yieldExpression .. | .templateLiteral .. | .metaProperty .. => true
  | _ => false

/-- Statements that may be the body of another statement (so no declarations but `var`). -/
def isSub : Node → Bool
  | .blockStatement .. | .emptyStatement .. | .expressionStatement .. | .ifStatement .. | .doWhileStatement .. => true
  | .whileStatement .. | .forStatement .. | .forInStatement .. | .forOfStatement .. | .continueStatement .. => true
  | .breakStatement .. | .returnStatement .. | .withStatement .. | .switchStatement .. | .throwStatement .. => true
  | .tryStatement .. | .debuggerStatement .. | .labeledStatement .. => true
  | .variableDeclaration _ kind _ => decide (kind = cs!"var")
  | _ => false

/-- Variable, function and class declarations. -/
def isDecl : Node → Bool
  | .variableDeclaration .. | .functionDeclaration .. | .classDeclaration .. => true
  | _ => false

/-- A function declaration. -/
def isFunctionDecl : Node → Bool
  | .functionDeclaration .. => true
  | _ => false

/-- Items of a statement list. -/
def isStmt (n : Node) : Bool := isSub n || isDecl n

/-- A block. -/
def isBlock : Node → Bool
  | .blockStatement .. => true
  | _ => false

/-- An identifier reference. -/
def isIdent : Node → Bool
  | .identifier .. => true
  | _ => false

/-- `super` -/
def isSuper : Node → Bool
  | .super .. => true
  | _ => false

/-- A binding identifier. -/
def isBindId : Node → Bool
  | .bindingIdentifier .. => true
  | _ => false

/-- An array or object pattern on the left of `=`. -/
def isAsgPattern : Node → Bool
  | .arrayAssignmentPattern .. | .objectPattern .. => true
  | _ => false

/-- A pattern with default value on the left of `=`. -/
def isAsgDefault : Node → Bool
  | .assignmentPattern .. => true
  | _ => false

/-- A declared identifier or pattern as a node. -/
def isDeclaredPattern : Node → Bool
  | .bindingIdentifier .. | .arrayPattern .. | .objectPattern .. => true
  | _ => false

/-- A script or module. -/
def isProgram : Node → Bool
  | .program .. => true
  | _ => false

/-- An import or export declaration. -/
def isImportExport : Node → Bool
  | .importDeclaration .. | .exportAllDeclaration .. | .exportDefaultDeclaration .. => true
  | .exportNamedDeclaration .. => true
  | _ => false

/-- What may be assigned to, patterns aside: an identifier, a member expression, or one of these in parentheses.
In strict code the identifier is not `eval` or `arguments`. -/
inductive SimpleTarget (strict : Bool) : Node → Prop
  | ident {name att sp} (h : strict = true → ¬ EvalOrArguments name) : SimpleTarget strict (.identifier name att sp)
  | computed {b o p att sp} : SimpleTarget strict (.computedMemberExpression b o p att sp)
  | static {b o p att sp} : SimpleTarget strict (.staticMemberExpression b o p att sp)
  | paren {n att sp} (h : SimpleTarget strict n) : SimpleTarget strict (.sequenceExpression [n] att sp)

/-- The node may fill the slot (in strict code or not). -/
def Fits (strict : Bool) : Role → Node → Prop
  | .expr, n => isExpr n
  | .stmt, n => isStmt n
  | .sub, n => isSub n
  | .labelBody, n => isSub n ∨ isFunctionDecl n
  | .loopBody, n => isSub n
  | .fnBody, n => isBlock n
  | .block, n => isBlock n
  | .target, n => SimpleTarget strict n ∨ isAsgPattern n
  | .asgElem, n => SimpleTarget strict n ∨ isAsgPattern n ∨ isAsgDefault n
  | .forLeft, n => SimpleTarget strict n ∨ isAsgPattern n ∨ isDeclaredPattern n
  | .forInit, n => isExpr n ∨ isDecl n
  | .bindId, n => isBindId n
  | .nameId, n => isIdent n
  | .memberObj, n => isExpr n ∨ isSuper n
  | .callee, n => isExpr n ∨ isSuper n
  | .memberName, n => isIdent n
  | .metaName, n => isIdent n
  | .methodKey, n => isExpr n
  | .exportDecl, n => isDecl n
  | .exportDefault, n => isExpr n ∨ isDecl n
  | .moduleItem, n => isStmt n ∨ isImportExport n
  | .program, n => isProgram n

/-! ### Lists -/

/-- Only the last element may satisfy `isRest`. -/
def RestLast {α : Type} (isRest : α → Bool) : List α → Prop
  | [] => True
  | [_] => True
  | a :: b :: rest => isRest a = false ∧ RestLast isRest (b :: rest)

/-- `...x` in an array pattern -/
def isArrRest : Option ArrayPatternElement → Bool
  | some (.restElement _) => true
  | _ => false
/-- `...x` in an array pattern on the left of `=` -/
def isAsgRest : Option ArrayAssignmentPatternElement → Bool
  | some (.restElement _) => true
  | _ => false
/-- `...x` in an object pattern -/
def isPropRest : ObjectPatternProperty → Bool
  | .restElement _ => true
  | _ => false
/-- `...x` in a parameter list -/
def isParamRest : FunctionParameter → Bool
  | .restElement _ => true
  | _ => false

/-- rest parameter last -/
abbrev ParamsOk (l : List FunctionParameter) : Prop := RestLast isParamRest l
/-- rest element last -/
abbrev ElemsOk (l : List (Option ArrayPatternElement)) : Prop := RestLast isArrRest l
/-- rest property last -/
abbrev PropsOk (l : List ObjectPatternProperty) : Prop := RestLast isPropRest l

/-- A template: one quasi more than expressions, exactly the last one marked as tail. -/
def TemplateOk (quasis : List TemplateElement) (expressions : List Node) : Prop :=
  quasis.length = expressions.length + 1 ∧
  ∀ i q, quasis[i]? = some q → (q.tail = true ↔ i + 1 = quasis.length)

/-- `default:` -/
def isDefault : SwitchCase → Bool
  | .mk none _ => true
  | _ => false

/-- The cases of a switch statement. -/
def CasesOk (cases : List SwitchCase) : Prop := cases ≠ [] ∧ (cases.filter isDefault).length ≤ 1

/-- A plain name as opposed to a pattern. -/
def isName : Binding → Bool
  | .bindingIdentifier .. => true
  | _ => false

/-- Not an arbitrary expression. -/
def isBinding : Binding → Bool
  | .expression _ => false
  | _ => true

/-- The name an import specifier binds. -/
def importLocal : ImportDeclarationSpecifier → Identifier
  | .importDefaultSpecifier l => l
  | .importNamespaceSpecifier l => l
  | .importSpecifier l _ => l

/-- variable declaration kinds -/
def varKinds : List Str := [cs!"var", cs!"let", cs!"const"]
/-- kinds of properties of object literals -/
def propKinds : List Str := [cs!"init", cs!"get", cs!"set"]
/-- kinds of class members -/
def methodKinds : List Str := [cs!"constructor", cs!"method", cs!"get", cs!"set"]

end Giron.Spec

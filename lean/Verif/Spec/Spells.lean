import Verif.Model.EstreeFns
import Verif.Spec.Lexical
import Verif.Spec.Words
/-
The words of a tree: for every tree, the set of all sequences of words it may have been read from.  Positions aside, it is
a printer of trees that leaves open what a tree does not tell: optional semicolons and commas, the parentheses of an arrow
parameter.  Among the words are marks that say something about the next word: whether it begins a new line, and the like.
The last section says of which words a text is made, and what the marks demand of them.

Nodes that giron never builds are given no words at all.  Oddities of giron are marked.
-/
namespace Giron.Spec
open Giron

/-! ### Languages -/

/-- A word, or a demand on the next word. -/
inductive Mark
  /-- this word -/
  | word (c : Content)
  /-- a semicolon is inserted here: the next word is `}`, or there is none, or it is on a new line -/
  | inserted
  /-- the next word is on the same line as the word before -/
  | joined
  /-- the next word is on a new line -/
  | broken
  /-- the next word is not `else` -/
  | noElse

instance : Coe Content Mark := ⟨.word⟩
/-- the word that is this name or keyword -/
abbrev Mark.name (v : Str) : Mark := .word (.name v)
/-- the word that is this punctuator -/
abbrev Mark.punct (p : Punctuator) : Mark := .word (.punct p)

/-- The words, without the marks. -/
def wordsOf : List Mark → List Content
  | [] => []
  | .word c :: ms => c :: wordsOf ms
  | _ :: ms => wordsOf ms

/-- A set of sequences of words and marks. -/
abbrev Lang := List Mark → Prop

namespace Lang

/-- no sequence -/
def nothing : Lang := fun _ => False
/-- the empty sequence -/
def eps : Lang := fun ws => ws = []
/-- one word that has a property -/
def one (f : Content → Prop) : Lang := fun ws => ∃ c, ws = [.word c] ∧ f c
/-- one given word or mark -/
def mark (m : Mark) : Lang := fun ws => ws = [m]
/-- one given word -/
abbrev tok (c : Content) : Lang := mark (.word c)
/-- a name or keyword -/
def word (v : Str) : Lang := tok (.name v)
/-- a punctuator -/
def pun (p : Punctuator) : Lang := tok (.punct p)
/-- first the one, then the other -/
def cat (A B : Lang) : Lang := fun ws => ∃ a b, ws = a ++ b ∧ A a ∧ B b
/-- either -/
def or (A B : Lang) : Lang := fun ws => A ws ∨ B ws
/-- the first, or nothing -/
def opt (A : Lang) : Lang := A.or eps
/-- the first if the flag is set, otherwise nothing -/
def pre (b : Bool) (A : Lang) : Lang := if b then A else eps
/-- the second if the flag is set, otherwise no sequence -/
def only : Bool → Lang → Lang
  | true, A => A
  | false, _ => nothing
/-- sequences that do not begin with one of these words -/
def notFirst (bad : List Content) (A : Lang) : Lang := fun ws => A ws ∧ ∀ c more, ws = .word c :: more → c ∉ bad
/-- any number of semicolons -/
def semicolons : Lang := fun ws => ∀ c ∈ ws, c = .punct .semicolon

end Lang
open Lang

@[inherit_doc] scoped infixr:67 " ⬝ " => Lang.cat

end Giron.Spec

namespace Giron.Spell
open Giron Spec Lang

/-- A comma between elements; after the last one it may be there or not. -/
def commaAfter {α : Type} (more : List α) : Lang := if more.isEmpty then opt (pun .comma) else pun .comma

/-- A comma between elements; there is none after the last one. -/
def commaBetween {α : Type} (more : List α) : Lang := if more.isEmpty then eps else pun .comma

/-- The semicolon at the end of a statement may be inserted. -/
def semi : Lang := (pun .semicolon).or (mark .inserted)

/-- On the same line. -/
def sameLine (A : Lang) : Lang := mark .joined ⬝ A

/-- A part that may be missing, on the same line. -/
def sameLineIf (b : Bool) (A : Lang) : Lang := if b then sameLine A else A

/-- An operator: a punctuator or a keyword with that spelling. -/
def operator (op : Str) : Lang := one fun c => (∃ p, c = .punct p ∧ p.toStr = op) ∨ op ∈ keywords ∧ c = .name op

/-- An operator that is a punctuator with that spelling. -/
def sign (op : Str) : Lang := one fun c => ∃ p, c = .punct p ∧ p.toStr = op

/-- The value of a word that is a name, a number or a string. -/
def _root_.Giron.Spec.Content.value? : Content → Option Value
  | .name v => some (nameToken v).2
  | .number n => some (.num n)
  | .string v _ => some (.str v)
  | _ => none

/-- A literal is a number, a string, `true`, `false` or `null`, and `raw` is its value printed. -/
def literalWord [Env] (value : Value) (raw : Str) : Lang := one fun c =>
  c.value? = some value ∧ raw = value.toString ∧ ∀ v, c = .name v → v = cs!"true" ∨ v = cs!"false" ∨ v = cs!"null"

/-- A string. -/
def stringWord [Env] (l : Literal) : Lang := one fun c => ∃ v o, c = .string v o ∧ l.value = .str v ∧ l.raw = v

/-- The part of a template that a template element stands for.  The first one begins with a backtick; giron does not
check that the others do not. -/
def quasi (first : Bool) (q : TemplateElement) : Lang := one fun c =>
  ∃ head, c = .template q.raw q.cooked head q.tail ∧ (first = true → head = true)

/-- The parameters of an arrow function: a mere name, or a list in parentheses. -/
def arrowParams (params : List FunctionParameter) (list : Lang) : Lang :=
  (pun .lParen ⬝ list ⬝ pun .rParen).or
    (match params with
     | [.bindingIdentifier name] => word name
     | _ => nothing)

/-- The body of an arrow function: an expression that does not begin with `{`, or a block. -/
def arrowBody (expression : Bool) (A : Lang) : Lang := if expression then notFirst [.punct .lBrace] A else A

/-- The word before an accessor. -/
def accessor (kind : Str) : Option Lang :=
  if kind = cs!"get" then some (word cs!"get") else if kind = cs!"set" then some (word cs!"set") else none

/-- The words before a method that is not an accessor. -/
def modifiers : FnExpr → Lang
  | .mk _ _ _ generator _ async => pre async (word cs!"async") ⬝ pre generator (pun .star)

/-- The words before the name of a property of an object literal.  (giron takes `get`, `set` and `async` before any
property: `{get a: 1}`.) -/
def propertyPrefix (kind : Str) (value : Option PropertyValue) : Lang :=
  match accessor kind, value with
  | some w, _ => w
  | none, some (.functionExpression f) => only (kind == cs!"init") (modifiers f)
  | none, some (.asyncFunctionExpression f) => only (kind == cs!"init") (modifiers f)
  | none, _ => only (kind == cs!"init") (opt (word cs!"async"))

/-- The kind of a method that has no modifiers. -/
def plainKind (computed : Bool) : Node → Str
  | .identifier name _ _ | .bindingIdentifier name _ => if !computed && name == cs!"constructor" then cs!"constructor" else cs!"method"
  | _ => cs!"method"

/-- The words before the name of a method of a class.  (giron: only `*` may be on the line of `async`, and must be.) -/
def methodPrefix (computed : Bool) (key : Node) (kind : Str) (value : Option FnExpr) : Lang :=
  match accessor kind, value with
  | some w, _ => w
  | none, some (.mk _ _ _ generator _ async) =>
    only (kind == if generator || async then cs!"method" else plainKind computed key) <|
    pre async (word cs!"async" ⬝ mark (if generator then .joined else .broken)) ⬝ pre generator (pun .star)
  | none, none => nothing

/-- What stands between the name of a property and its value: nothing for a method or if there is no value, `=` or `:`.
The flags tell which. -/
def propertyMark (value : Option PropertyValue) (method shorthand : Bool) : Lang :=
  match value with
  | none => if shorthand && !method then eps else nothing
  | some (.functionExpression _) | some (.asyncFunctionExpression _) => if method && !shorthand then eps else nothing
  | some _ => if method then nothing else if shorthand then pun .assign else pun .colon

/-- A name that is not computed, as the flag tells. -/
def plain (computed : Bool) (A : Lang) : Lang := if computed then nothing else A

/-- A computed name, as the flag tells. -/
def bracketed (computed : Bool) (A : Lang) : Lang := if computed then pun .lBracket ⬝ A ⬝ pun .rBracket else nothing

/-- A generator method.  (giron does not take a comma after it: `{*a() {} b}`.) -/
def isGenerator : ObjectExpressionProperty → Bool
  | .property _ _ (some (.functionExpression (.mk _ _ _ generator _ _))) _ _ _ _ => generator
  | _ => false

/-- A declaration of a function or a class. -/
def isDeclaration : Node → Bool
  | .functionDeclaration .. => true
  | .classDeclaration .. => true
  | _ => false

/-- A name in the source: a name, or in an object pattern also a string or a number, printed. -/
def patternName [Env] (name : Str) : Lang := one fun c => ∃ v, c.value? = some v ∧ v.toString = name

/-! ### Imports and exports -/

/-- The names in the braces of an import. -/
def importNames : List ImportDeclarationSpecifier → Lang
  | [] => eps
  | .importSpecifier loc imported :: more =>
    (word imported.name ⬝ word cs!"as" ⬝ word loc.name).or (if loc = imported then word loc.name else nothing) ⬝
      commaAfter more ⬝ importNames more
  | _ => nothing

/-- What is imported, the default aside. -/
def importList : List ImportDeclarationSpecifier → Lang
  | [.importNamespaceSpecifier loc] => pun .star ⬝ word cs!"as" ⬝ word loc.name
  | specifiers => pun .lBrace ⬝ importNames specifiers ⬝ pun .rBrace

/-- What is imported.  (giron: the default is an `ImportSpecifier` with the same name twice.) -/
def importClause (specifiers : List ImportDeclarationSpecifier) : Lang :=
  (importList specifiers).or
    (match specifiers with
     | .importSpecifier loc imported :: more =>
       if loc = imported then word loc.name ⬝ (pun .comma ⬝ importList more).or (if more.isEmpty then eps else nothing)
       else nothing
     | _ => nothing)

/-- The names in the braces of an export.  (giron: `{a as b}` has `a` as the exported name.) -/
def exportNames : List ExportSpecifier → Lang
  | [] => eps
  | ⟨exported, loc⟩ :: more =>
    (word exported.name ⬝ word cs!"as" ⬝ word loc.name).or (if loc = exported then word loc.name else nothing) ⬝
      commaAfter more ⬝ exportNames more

/-! ### Trees -/

section
variable [Env]

mutual

/-- The words of a node. -/
def node : Node → Lang
  | .arrayExpression elements _ _ => pun .lBracket ⬝ arrayElements elements ⬝ pun .rBracket
  | .arrayPattern elements _ _ => pun .lBracket ⬝ patternElements elements ⬝ pun .rBracket
  | .arrayAssignmentPattern elements _ _ => pun .lBracket ⬝ targetElements elements ⬝ pun .rBracket
  | .arrowFunctionExpression id params body generator expression async _ _ =>
    only (id.isNone && !generator && !async) <| arrowParams params (parameters params) ⬝ pun .fatArrow ⬝ arrowBody expression (node body)
  | .assignmentExpression op left right _ _ => node left ⬝ sign op ⬝ node right
  | .assignmentPattern left right _ => binding left ⬝ pun .assign ⬝ node right
  | .assignmentRestElement _ _ => nothing
  | .asyncArrowFunctionExpression id params body generator expression async _ _ =>
    only (id.isNone && !generator && async) <| word cs!"async" ⬝ sameLine (arrowParams params (parameters params)) ⬝ sameLine (pun .fatArrow) ⬝
      arrowBody expression (node body)
  | .asyncFunctionExpression _ _ _ _ _ _ _ _ => nothing
  | .awaitExpression _ _ => nothing
  | .binaryExpression op left right _ _ => node left ⬝ operator op ⬝ node right
  | .bindingIdentifier name _ => word name
  | .logicalExpression _ _ _ _ => nothing
  | .callExpression callee args _ _ => node callee ⬝ pun .lParen ⬝ arguments args ⬝ pun .rParen
  | .classExpression _ _ _ _ _ => nothing
  | .computedMemberExpression computed object property _ _ => only computed <| node object ⬝ pun .lBracket ⬝ node property ⬝ pun .rBracket
  | .conditionalExpression test consequent alternate _ =>
    node test ⬝ pun .question ⬝ node consequent ⬝ pun .colon ⬝ node alternate
  | .identifier name _ _ => word name
  | .functionExpression id params body generator expression async _ _ =>
    only (!expression) <| pre async (word cs!"async" ⬝ mark .joined) ⬝ word cs!"function" ⬝ pre generator (pun .star) ⬝ optNode id ⬝
      pun .lParen ⬝ parameters params ⬝ pun .rParen ⬝ node body
  | .literal value raw _ _ => literalWord value raw
  -- the arguments of `new` may be missing
  | .newExpression callee args _ _ =>
    word cs!"new" ⬝ node callee ⬝
      (pun .lParen ⬝ arguments args ⬝ pun .rParen).or (if args.isEmpty then eps else nothing)
  | .objectExpression ps _ _ => pun .lBrace ⬝ properties ps ⬝ pun .rBrace
  | .objectPattern ps _ _ => pun .lBrace ⬝ patternProperties ps ⬝ pun .rBrace
  -- giron: `value` and `raw` are those of the following token
  | .regexLiteral _ _ regex _ _ => tok (.regexp regex.pattern regex.flags)
  -- in parentheses or not; `()` and `(a)` are sequences too
  | .sequenceExpression es _ _ =>
    (pun .lParen ⬝ commaNodes es ⬝ pun .rParen).or (if es.length < 2 then nothing else commaNodes es)
  | .staticMemberExpression computed object property _ _ => only (!computed) <| node object ⬝ pun .dot ⬝ node property
  | .taggedTemplateExpression tag qs es _ => node tag ⬝ template true qs es
  | .thisExpression _ _ => word cs!"this"
  | .unaryExpression op argument isPrefix _ _ => only isPrefix <| operator op ⬝ node argument
  | .updateExpression op argument isPrefix _ _ =>
    if isPrefix then sign op ⬝ node argument else node argument ⬝ sameLine (sign op)
  -- giron: the operand may be missing only at the end of a line
  | .yieldExpression argument delegate _ _ =>
    word cs!"yield" ⬝ mark (if argument.isSome then .joined else .broken) ⬝ pre delegate (pun .star) ⬝ optNode argument
  | .arrowParameterPlaceHolder _ _ _ => nothing
  | .restElement argument _ => pun .ellipsis ⬝ binding argument
  | .spreadElement argument _ => pun .ellipsis ⬝ node argument
  | .super _ _ => word cs!"super"
  | .templateLiteral qs es _ _ => template true qs es
  | .metaProperty metaId property _ _ => node metaId ⬝ pun .dot ⬝ node property
  | .asyncFunctionDeclaration _ _ _ _ _ _ _ => nothing
  | .breakStatement label _ => word cs!"break" ⬝ sameLineIf label.isSome (optNode label) ⬝ semi
  | .continueStatement label _ => word cs!"continue" ⬝ sameLineIf label.isSome (optNode label) ⬝ semi
  | .debuggerStatement _ => word cs!"debugger" ⬝ semi
  | .doWhileStatement body test _ =>
    word cs!"do" ⬝ node body ⬝ word cs!"while" ⬝ pun .lParen ⬝ node test ⬝ pun .rParen ⬝ semi
  | .emptyStatement _ => pun .semicolon
  | .expressionStatement expression _ => notFirst [.punct .lBrace] (node expression) ⬝ semi
  | .directive _ _ _ => nothing
  | .forStatement init test update body _ =>
    word cs!"for" ⬝ pun .lParen ⬝ forInit init ⬝ pun .semicolon ⬝ optNode test ⬝ pun .semicolon ⬝ optNode update ⬝
      pun .rParen ⬝ node body
  -- giron: the tree does not tell `var`, `let` and `const`
  | .forInStatement left right body each _ =>
    only (!each) <| word cs!"for" ⬝ pun .lParen ⬝ opt (one fun c => ∃ v ∈ [cs!"var", cs!"let", cs!"const"], c = .name v) ⬝ node left ⬝
      word cs!"in" ⬝ node right ⬝ pun .rParen ⬝ node body
  | .forOfStatement left right body _ =>
    word cs!"for" ⬝ pun .lParen ⬝ opt (one fun c => ∃ v ∈ [cs!"var", cs!"let", cs!"const"], c = .name v) ⬝ node left ⬝
      word cs!"of" ⬝ node right ⬝ pun .rParen ⬝ node body
  -- giron: `function` must not be on the line of `async`
  | .functionDeclaration id params body generator expression async _ =>
    only (!expression) <| pre async (word cs!"async" ⬝ mark .broken) ⬝ word cs!"function" ⬝ pre generator (pun .star) ⬝ optNode id ⬝
      pun .lParen ⬝ parameters params ⬝ pun .rParen ⬝ node body
  | .ifStatement test consequent alternate _ =>
    word cs!"if" ⬝ pun .lParen ⬝ node test ⬝ pun .rParen ⬝ node consequent ⬝
      (if alternate.isSome then word cs!"else" else mark .noElse) ⬝ optNode alternate
  | .returnStatement argument _ => word cs!"return" ⬝ sameLineIf argument.isSome (optNode argument) ⬝ semi
  | .switchStatement discriminant cs _ =>
    word cs!"switch" ⬝ pun .lParen ⬝ node discriminant ⬝ pun .rParen ⬝ pun .lBrace ⬝ cases cs ⬝ pun .rBrace
  | .throwStatement argument _ => word cs!"throw" ⬝ sameLine (node argument) ⬝ semi
  | .tryStatement block handler finalizer _ =>
    word cs!"try" ⬝ node block ⬝ optHandler handler ⬝ pre finalizer.isSome (word cs!"finally") ⬝ optNode finalizer
  | .variableDeclaration ds kind _ => word kind ⬝ declarators ds ⬝ semi
  | .whileStatement test body _ => word cs!"while" ⬝ pun .lParen ⬝ node test ⬝ pun .rParen ⬝ node body
  | .withStatement object body _ => word cs!"with" ⬝ pun .lParen ⬝ node object ⬝ pun .rParen ⬝ node body
  | .blockStatement body _ => pun .lBrace ⬝ nodes body ⬝ pun .rBrace
  | .classDeclaration id superClass body _ =>
    word cs!"class" ⬝ optNode id ⬝ pre superClass.isSome (word cs!"extends") ⬝ optNode superClass ⬝
      pun .lBrace ⬝ members body ⬝ pun .rBrace
  | .exportAllDeclaration source _ =>
    word cs!"export" ⬝ pun .star ⬝ word cs!"from" ⬝ stringWord source ⬝ semi
  -- the tree does not tell whether there was a class or an expression that is a class
  | .exportDefaultDeclaration declaration _ =>
    word cs!"export" ⬝ word cs!"default" ⬝ node declaration ⬝ semi.or (if isDeclaration declaration then eps else nothing)
  | .exportNamedDeclaration (some declaration) specifiers source _ =>
    only (specifiers.isEmpty && source.isNone) <| word cs!"export" ⬝ node declaration
  | .exportNamedDeclaration none specifiers none _ =>
    word cs!"export" ⬝ pun .lBrace ⬝ exportNames specifiers ⬝ pun .rBrace
  | .exportNamedDeclaration none _ (some _) _ => nothing
  | .importDeclaration specifiers source _ =>
    word cs!"import" ⬝ importClause specifiers ⬝ word cs!"from" ⬝ stringWord source ⬝ semi
  | .importDefaultSpecifier _ _ => nothing
  | .importNamespaceSpecifier _ _ => nothing
  | .importSpecifier _ _ _ => nothing
  | .labeledStatement label body _ => word label.name ⬝ pun .colon ⬝ node body
  | .moduleNode _ _ _ => nothing
  | .program _ _ _ => nothing
termination_by structural n => n

/-- The head of a classic `for`: a declaration without its semicolon, or expressions separated by commas. -/
def forHead : Node → Lang
  | .variableDeclaration ds kind _ => word kind ⬝ declarators ds
  | .sequenceExpression es _ _ => commaNodes es
  | _ => nothing
termination_by structural n => n

/-- The head of a classic `for` may be empty. -/
def forInit : Option Node → Lang
  | none => eps
  | some n => forHead n
termination_by structural n => n

/-- A part that may be missing. -/
def optNode : Option Node → Lang
  | none => eps
  | some n => node n
termination_by structural n => n

/-- Statements, one after the other. -/
def nodes : List Node → Lang
  | [] => eps
  | n :: more => node n ⬝ nodes more
termination_by structural l => l

/-- Expressions separated by commas. -/
def commaNodes : List Node → Lang
  | [] => eps
  | n :: more => node n ⬝ commaBetween more ⬝ commaNodes more
termination_by structural l => l

/-- The parts of a template and its substitutions, by turns. -/
def template (first : Bool) (qs : List TemplateElement) : List Node → Lang
  | [] =>
    match qs with
    | [q] => quasi first q
    | _ => nothing
  | e :: es =>
    match qs with
    | q :: qs => quasi first q ⬝ node e ⬝ template false qs es
    | [] => nothing
termination_by structural l => l

/-- Something that is bound. -/
def binding : Binding → Lang
  | .bindingIdentifier name _ => word name
  | .arrayPattern elements _ => pun .lBracket ⬝ patternElements elements ⬝ pun .rBracket
  | .objectPattern ps _ => pun .lBrace ⬝ patternProperties ps ⬝ pun .rBrace
  | .expression n => node n
termination_by structural b => b

/-- The elements of an array; each hole is a comma of its own. -/
def arrayElements : List (Option ArrayExpressionElement) → Lang
  | [] => eps
  | none :: more => pun .comma ⬝ arrayElements more
  | some e :: more => arrayElement e ⬝ commaAfter more ⬝ arrayElements more
termination_by structural l => l

/-- One element of an array. -/
def arrayElement : ArrayExpressionElement → Lang
  | .expression n => node n
  | .spreadElement argument _ => pun .ellipsis ⬝ node argument
termination_by structural e => e

/-- The elements of an array pattern. -/
def patternElements : List (Option ArrayPatternElement) → Lang
  | [] => eps
  | none :: more => pun .comma ⬝ patternElements more
  | some e :: more => patternElement e ⬝ commaAfter more ⬝ patternElements more
termination_by structural l => l

/-- One element of an array pattern. -/
def patternElement : ArrayPatternElement → Lang
  | .assignmentPattern left right => binding left ⬝ pun .assign ⬝ node right
  | .bindingIdentifier name => word name
  | .arrayPattern elements => pun .lBracket ⬝ patternElements elements ⬝ pun .rBracket
  | .objectPattern ps => pun .lBrace ⬝ patternProperties ps ⬝ pun .rBrace
  | .restElement argument => pun .ellipsis ⬝ binding argument
termination_by structural e => e

/-- The elements of an array that is assigned to. -/
def targetElements : List (Option ArrayAssignmentPatternElement) → Lang
  | [] => eps
  | none :: more => pun .comma ⬝ targetElements more
  | some e :: more => targetElement e ⬝ commaAfter more ⬝ targetElements more
termination_by structural l => l

/-- One element of an array that is assigned to. -/
def targetElement : ArrayAssignmentPatternElement → Lang
  | .expression n => node n
  | .restElement argument => pun .ellipsis ⬝ binding argument
termination_by structural e => e

/-- The name of a property of an object literal.  (giron: `raw` of a string or number is that of the following token.) -/
def key (computed : Bool) : PropertyKey → Lang
  | .identifier id => plain computed (word id.name)
  | .literal l =>
    plain computed (one fun c => (∃ v o, c = .string v o ∧ l.value = .str v) ∨ ∃ n, c = .number n ∧ l.value = .num n)
  | .expression n => bracketed computed (node n)
termination_by structural k => k

/-- The name of a property in a pattern.  (giron: in a declaration a mere name before `:` is a Literal, and a string or
number may be a shorthand.) -/
def patternKey (computed : Bool) : PropertyKey → Lang
  | .identifier id => plain computed (patternName id.name)
  | .literal l => plain computed (one fun c => c.value? = some l.value)
  | .expression n => bracketed computed (node n)
termination_by structural k => k

/-- The parameters and the body of a method. -/
def method : FnExpr → Lang
  | .mk id params body _ expression _ => only (id.isNone && !expression) <| pun .lParen ⬝ parameters params ⬝ pun .rParen ⬝ node body
termination_by structural f => f

/-- The parameters and the body of a method of a class. -/
def optMethod : Option FnExpr → Lang
  | none => nothing
  | some f => method f
termination_by structural f => f

/-- The value of a property. -/
def propertyValue : PropertyValue → Lang
  | .assignmentPattern left right => binding left ⬝ pun .assign ⬝ node right
  | .asyncFunctionExpression f => method f
  | .bindingIdentifier name _ => word name
  | .bindingPattern p => bindingPattern p
  | .functionExpression f => method f
  | .expression n => node n
termination_by structural v => v

/-- The value of a property may be missing. -/
def optValue : Option PropertyValue → Lang
  | none => eps
  | some v => propertyValue v
termination_by structural v => v

/-- The default of a declared shorthand property with that name. -/
def shorthandDefault (name : PropertyKey) : Option PropertyValue → Lang
  | some (.assignmentPattern (.bindingIdentifier v _) right) =>
    match name with
    | .identifier id => if v = id.name then node right else nothing
    | _ => nothing
  | _ => nothing
termination_by structural v => v

/-- The properties of an object literal. -/
def properties : List ObjectExpressionProperty → Lang
  | [] => eps
  | p :: more => property p ⬝ (if isGenerator p then eps else commaAfter more) ⬝ properties more
termination_by structural l => l

/-- A property of an object literal. -/
def property : ObjectExpressionProperty → Lang
  | .property k computed value kind isMethod shorthand _ =>
    propertyPrefix kind value ⬝ key computed k ⬝ propertyMark value isMethod shorthand ⬝ optValue value
  | .spreadElement argument _ => pun .ellipsis ⬝ node argument
termination_by structural p => p

/-- The properties of an object pattern. -/
def patternProperties : List ObjectPatternProperty → Lang
  | [] => eps
  | p :: more => patternProperty p ⬝ commaAfter more ⬝ patternProperties more
termination_by structural l => l

/-- A property of an object pattern.  The name and default of a declared shorthand property are part of its value, which
is an `AssignmentPattern`; in other patterns, which begin as object literals, the value has only the default. -/
def patternProperty : ObjectPatternProperty → Lang
  | .property k computed value kind isMethod shorthand =>
    (propertyPrefix kind value ⬝ patternKey computed k ⬝ propertyMark value isMethod shorthand ⬝ optValue value).or
      (if shorthand && !isMethod && kind == cs!"init" then patternKey computed k ⬝ pun .assign ⬝ shorthandDefault k value else nothing)
  | .restElement argument => pun .ellipsis ⬝ binding argument
termination_by structural p => p

/-- A pattern as the value of a property. -/
def bindingPattern : BindingPattern → Lang
  | .arrayPattern elements => pun .lBracket ⬝ patternElements elements ⬝ pun .rBracket
  | .objectPattern ps => pun .lBrace ⬝ patternProperties ps ⬝ pun .rBrace
termination_by structural p => p

/-- Parameters. -/
def parameters : List FunctionParameter → Lang
  | [] => eps
  | p :: more => parameter p ⬝ commaAfter more ⬝ parameters more
termination_by structural l => l

/-- One parameter. -/
def parameter : FunctionParameter → Lang
  | .assignmentPattern left right => binding left ⬝ pun .assign ⬝ node right
  | .bindingIdentifier name => word name
  | .arrayPattern elements => pun .lBracket ⬝ patternElements elements ⬝ pun .rBracket
  | .objectPattern ps => pun .lBrace ⬝ patternProperties ps ⬝ pun .rBrace
  | .restElement argument => pun .ellipsis ⬝ binding argument
termination_by structural p => p

/-- Arguments. -/
def arguments : List ArgumentListElement → Lang
  | [] => eps
  | a :: more => argument a ⬝ commaAfter more ⬝ arguments more
termination_by structural l => l

/-- One argument. -/
def argument : ArgumentListElement → Lang
  | .expression n => node n
  | .spreadElement argument _ => pun .ellipsis ⬝ node argument
termination_by structural a => a

/-- The body of a class; semicolons leave no trace. -/
def members : List MethodDefinition → Lang
  | [] => semicolons
  | m :: more => semicolons ⬝ member m ⬝ members more
termination_by structural l => l

/-- One method of a class. -/
def member : MethodDefinition → Lang
  | .mk k computed value kind isStatic =>
    pre isStatic (word cs!"static") ⬝ methodPrefix computed k kind value ⬝
      pre computed (pun .lBracket) ⬝ node k ⬝ pre computed (pun .rBracket) ⬝ optMethod value
termination_by structural m => m

/-- The cases of a `switch`. -/
def cases : List SwitchCase → Lang
  | [] => eps
  | c :: more => switchCase c ⬝ cases more
termination_by structural l => l

/-- One case of a `switch`. -/
def switchCase : SwitchCase → Lang
  | .mk test consequent =>
    (if test.isSome then word cs!"case" else word cs!"default") ⬝ optNode test ⬝ pun .colon ⬝ nodes consequent
termination_by structural c => c

/-- The variables of a declaration. -/
def declarators : List VariableDeclarator → Lang
  | [] => eps
  | d :: more => declarator d ⬝ commaBetween more ⬝ declarators more
termination_by structural l => l

/-- One variable of a declaration. -/
def declarator : VariableDeclarator → Lang
  | .mk id init => binding id ⬝ pre init.isSome (pun .assign) ⬝ optNode init
termination_by structural d => d

/-- The `catch` of a `try`. -/
def optHandler : Option CatchClause → Lang
  | none => eps
  | some h => handler h
termination_by structural h => h

/-- The `catch` of a `try`. -/
def handler : CatchClause → Lang
  | .mk param body => word cs!"catch" ⬝ catchParam param ⬝ node body
termination_by structural h => h

/-- The parameter of `catch`. -/
def catchParam : Option Binding → Lang
  | none => eps
  | some b => pun .lParen ⬝ binding b ⬝ pun .rParen
termination_by structural b => b

end

/-- The words of a whole program.  (A program is no part of a tree.) -/
def whole : Node → Lang
  | .program body _ _ => nodes body
  | _ => nothing

end

end Giron.Spell

namespace Giron.Spec
open Giron
variable [Env]

/-! ### Texts -/

/-- `Lexes text ws`: the text is made of the words `ws`, with white space and comments before, between and after them.
For each word, a `/` at its beginning may be read either way, and likewise a `}` where a template may go on.  The last word
is the end of the text. -/
inductive Lexes : Str → List Word → Prop
  | done {w : Str} : Trivia w [] → Lexes w [⟨.eof, decide (0 < lineBreaks w)⟩]
  | word {goal : LexGoal} {resume : Bool} {w x r : Str} {c : Content} {ws : List Word} :
      Trivia w (x ++ r) → ¬ StartsTrivia (x ++ r) → Lexeme goal resume x r c → c ≠ .eof → Lexes r ws →
      Lexes (w ++ (x ++ r)) (⟨c, decide (lineBreaks r < lineBreaks (w ++ (x ++ r)))⟩ :: ws)

/-- A semicolon may be inserted before the word. -/
def MayInsert (w : Word) : Prop := w.c = .punct .rBrace ∨ w.c = .eof ∨ w.nl = true

/-- giron has lost count of the lines: of the words passed (the last one first), the last one is on a new line after `async`,
`get` or `set`.  Before the first word nothing is counted. -/
def LostCount (passed : List Word) : Prop :=
  passed = [] ∨ ∃ w v n more, passed = w :: ⟨.name v, n⟩ :: more ∧ w.nl = true ∧ v ∈ [cs!"async", cs!"get", cs!"set"]

/-- The mark is true of the word that comes after the words `passed` (the last one first). -/
def Mark.Holds (passed : List Word) (w : Word) : Mark → Prop
  | .word _ => False
  | .inserted => MayInsert w
  | .joined => w.nl = false ∨ LostCount passed
  | .broken => w.nl = true
  | .noElse => w.c ≠ .name cs!"else"

/-- `Obeys passed ms ws`: after the words `passed` (the last one first) come the words `ws`, which are those of `ms` and the end
of the text, and all marks are true. -/
inductive Obeys : List Word → List Mark → List Word → Prop
  | done {passed : List Word} {n : Bool} : Obeys passed [] [⟨.eof, n⟩]
  | word {passed : List Word} {w : Word} {ms : List Mark} {ws : List Word} :
      Obeys (w :: passed) ms ws → Obeys passed (.word w.c :: ms) (w :: ws)
  | mark {passed : List Word} {m : Mark} {w : Word} {ms : List Mark} {ws : List Word} :
      m.Holds passed w → Obeys passed ms (w :: ws) → Obeys passed (m :: ms) (w :: ws)

end Giron.Spec

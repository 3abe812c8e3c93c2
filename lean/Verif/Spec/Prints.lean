import Verif.Model.Json
import Verif.Spec.Spells
import Verif.Spec.Errors
/-
The words of the JSON of a tree: for every JSON value in the manner of ESTree, the sequences of words it may have been read
from.  Members are looked up by their name.  Only the JSON type of the model is used here, not the functions that produce it,
nor the tree.
-/
namespace Giron.Spec
open Giron Lang

/-- The member of that name. -/
def member? : Json → Str → Option Json
  | .obj ms, k => ms.lookup k
  | _, _ => none

/-- The value has these members. -/
def Gets (j : Json) : List (Str × Json) → Prop
  | [] => True
  | (k, v) :: more => member? j k = some v ∧ Gets j more

/-- The value is an object of this type and has these members. -/
def Has (j : Json) (type : Str) (members : List (Str × Json)) : Prop := Gets j ((cs!"type", .str type) :: members)

/-- The value is `null`. -/
def isNull : Json → Bool
  | .null => true
  | _ => false

/-- The value is an identifier with that name. -/
def Named (j : Json) (name : Str) : Prop := Has j cs!"Identifier" [(cs!"name", .str name)]

/-- The JSON value of a word that is a name, a number or a string.  (giron: `true` and `false` are strings.) -/
def wordJson : Content → Option Json
  | .name v => if v = cs!"null" then some .null else some (.str v)
  | .number n => some (.num n)
  | .string v _ => some (.str v)
  | _ => none

/-- A generator method.  (giron does not take a comma after it: `{*a() {} b}`.) -/
def isGenerator (j : Json) : Bool :=
  match member? j cs!"method", member? j cs!"value" with
  | some (.bool true), some f =>
    (match member? f cs!"type", member? f cs!"generator" with
     | some (.str ty), some (.bool g) => ty == cs!"FunctionExpression" && g
     | _, _ => false)
  | _, _ => false

/-- A declaration of a function or a class. -/
def isDeclaration (j : Json) : Bool :=
  match member? j cs!"type" with
  | some (.str ty) => ty == cs!"FunctionDeclaration" || ty == cs!"ClassDeclaration"
  | _ => false

/-- The kind of a method that has no modifiers. -/
def plainKind (computed : Bool) (key : Json) : Str :=
  match member? key cs!"type", member? key cs!"name" with
  | some (.str type), some (.str name) =>
    if !computed && (type == cs!"Identifier" && name == cs!"constructor") then cs!"constructor" else cs!"method"
  | _, _ => cs!"method"

/-! ### Imports and exports -/

/-- A name in the braces of an import. -/
def importName (j : Json) : Lang := fun ws => ∃ jl ji l i, Has j cs!"ImportSpecifier" [(cs!"local", jl), (cs!"imported", ji)] ∧
  Named jl l ∧ Named ji i ∧ ((word i ⬝ word cs!"as" ⬝ word l) ws ∨ l = i ∧ word l ws)

/-- The names in the braces of an import. -/
def importNames : List Json → Lang
  | [] => eps
  | j :: more => importName j ⬝ Spell.commaAfter more ⬝ importNames more

/-- What is imported, the default aside. -/
def importList (js : List Json) : Lang := fun ws =>
  (pun .lBrace ⬝ importNames js ⬝ pun .rBrace) ws ∨
    ∃ j jl l, js = [j] ∧ Has j cs!"ImportNamespaceSpecifier" [(cs!"local", jl)] ∧ Named jl l ∧
      (pun .star ⬝ word cs!"as" ⬝ word l) ws

/-- What is imported.  (giron: the default is an `ImportSpecifier` with the same name twice.) -/
def importClause (js : List Json) : Lang := fun ws =>
  importList js ws ∨
    ∃ j more jl l, js = j :: more ∧ Has j cs!"ImportSpecifier" [(cs!"local", jl), (cs!"imported", jl)] ∧ Named jl l ∧
      (word l ⬝ (pun .comma ⬝ importList more).or (if more.isEmpty then eps else nothing)) ws

/-- A name in the braces of an export.  (giron: `{a as b}` has `a` as the exported name.) -/
def exportName (j : Json) : Lang := fun ws => ∃ je jl e l, Has j cs!"ExportSpecifier" [(cs!"exported", je), (cs!"local", jl)] ∧
  Named je e ∧ Named jl l ∧ ((word e ⬝ word cs!"as" ⬝ word l) ws ∨ l = e ∧ word l ws)

/-- The names in the braces of an export. -/
def exportNames : List Json → Lang
  | [] => eps
  | j :: more => exportName j ⬝ Spell.commaAfter more ⬝ exportNames more

/-- A string. -/
def stringLiteral (j : Json) : Lang := one fun c => ∃ v o, c = .string v o ∧
  Has j cs!"Literal" [(cs!"value", .str v), (cs!"raw", .str v)]

/-! ### Trees -/

/-- The parameters of an arrow function: a mere name, or a list in parentheses. -/
def arrowParams (params : List Json) (list : Lang) : Lang := fun ws =>
  (pun .lParen ⬝ list ⬝ pun .rParen) ws ∨
    ∃ p name, params = [p] ∧ Has p cs!"BindingIdentifier" [(cs!"name", .str name)] ∧ word name ws

/-- The part of a template that a template element stands for. -/
def templateElement (first : Bool) (j : Json) : Lang := one fun c => ∃ v raw cooked tail head,
  Has j cs!"TemplateElement" [(cs!"value", v), (cs!"tail", .bool tail)] ∧ Gets v [(cs!"cooked", .str cooked), (cs!"raw", .str raw)] ∧
    c = .template raw cooked head tail ∧ (first = true → head = true)

/-- What a JSON value stands for. -/
inductive Slot
  /-- a node: a statement, expression, pattern, argument, parameter -/
  | node
  /-- a whole program -/
  | whole
  /-- the first part of `for (...;...;...)` -/
  | forHead
  /-- the key of a property, of an object literal or a pattern -/
  | key (pattern computed : Bool)
  /-- a property, of an object literal or a pattern -/
  | property (pattern : Bool)
  /-- a method of a class -/
  | method
  /-- a case of a `switch` -/
  | case
  /-- a variable of a declaration -/
  | declarator
  /-- the `catch` of a `try` -/
  | handler

/-- What stands between the items of a list. -/
inductive Sep
  /-- nothing -/
  | none
  /-- commas -/
  | comma
  /-- commas, also after the last one -/
  | commas
  /-- commas, also after the last one; `null` is a comma -/
  | holes
  /-- commas, also after the last one, but not after generators -/
  | properties
  /-- semicolons -/
  | semicolons

section
variable [Env]

mutual

/-- `Prints slot j L`: the JSON value `j` may have been read from every word sequence of `L`. -/
inductive Prints : Slot → Json → Lang → Prop
  | nothing {s : Slot} {j : Json} : Prints s j nothing
  | less {s : Slot} {j : Json} {A B : Lang} : Prints s j A → (∀ ws, B ws → A ws) → Prints s j B
  -- expressions
  | array {j : Json} {es : List Json} {E : Lang} : Has j cs!"ArrayExpression" [(cs!"elements", .arr es)] →
      PrintsAll .node .holes es E → Prints .node j (pun .lBracket ⬝ E ⬝ pun .rBracket)
  | arrow {j b : Json} {ps : List Json} {expression : Bool} {P B : Lang} :
      Has j cs!"ArrowFunctionExpression" [(cs!"id", .null), (cs!"params", .arr ps), (cs!"body", b), (cs!"generator", .bool false),
        (cs!"expression", .bool expression), (cs!"async", .bool false)] →
      PrintsAll .node .commas ps P → Prints .node b B →
      Prints .node j (arrowParams ps P ⬝ pun .fatArrow ⬝ Spell.arrowBody expression B)
  | asyncArrow {j b : Json} {ps : List Json} {expression : Bool} {P B : Lang} :
      Has j cs!"AsyncArrowFunctionExpression" [(cs!"id", .null), (cs!"params", .arr ps), (cs!"body", b),
        (cs!"generator", .bool false), (cs!"expression", .bool expression), (cs!"async", .bool true)] →
      PrintsAll .node .commas ps P → Prints .node b B →
      Prints .node j (word cs!"async" ⬝ Spell.sameLine (arrowParams ps P) ⬝ Spell.sameLine (pun .fatArrow) ⬝
        Spell.arrowBody expression B)
  | assignment {j l r : Json} {op : Str} {A B : Lang} :
      Has j cs!"AssignmentExpression" [(cs!"operator", .str op), (cs!"left", l), (cs!"right", r)] →
      Prints .node l A → Prints .node r B → Prints .node j (A ⬝ Spell.sign op ⬝ B)
  | binary {j l r : Json} {op : Str} {A B : Lang} :
      Has j cs!"BinaryExpression" [(cs!"operator", .str op), (cs!"left", l), (cs!"right", r)] →
      Prints .node l A → Prints .node r B → Prints .node j (A ⬝ Spell.operator op ⬝ B)
  | call {j f : Json} {as : List Json} {F A : Lang} : Has j cs!"CallExpression" [(cs!"callee", f), (cs!"arguments", .arr as)] →
      Prints .node f F → PrintsAll .node .commas as A → Prints .node j (F ⬝ pun .lParen ⬝ A ⬝ pun .rParen)
  | index {j o p : Json} {A B : Lang} :
      Has j cs!"ComputedMemberExpression" [(cs!"computed", .bool true), (cs!"object", o), (cs!"property", p)] →
      Prints .node o A → Prints .node p B → Prints .node j (A ⬝ pun .lBracket ⬝ B ⬝ pun .rBracket)
  | dot {j o p : Json} {A B : Lang} :
      Has j cs!"StaticMemberExpression" [(cs!"computed", .bool false), (cs!"object", o), (cs!"property", p)] →
      Prints .node o A → Prints .node p B → Prints .node j (A ⬝ pun .dot ⬝ B)
  | conditional {j t a b : Json} {T A B : Lang} :
      Has j cs!"ConditionalExpression" [(cs!"test", t), (cs!"consequent", a), (cs!"alternate", b)] →
      Prints .node t T → Prints .node a A → Prints .node b B → Prints .node j (T ⬝ pun .question ⬝ A ⬝ pun .colon ⬝ B)
  | identifier {j : Json} {name : Str} : Named j name → Prints .node j (word name)
  | bindingIdentifier {j : Json} {name : Str} : Has j cs!"BindingIdentifier" [(cs!"name", .str name)] →
      Prints .node j (word name)
  | function {j i b : Json} {ps : List Json} {gen async : Bool} {I P B : Lang} :
      Has j cs!"FunctionExpression" [(cs!"id", i), (cs!"params", .arr ps), (cs!"body", b), (cs!"generator", .bool gen),
        (cs!"expression", .bool false), (cs!"async", .bool async)] →
      PrintsOpt i I → PrintsAll .node .commas ps P → Prints .node b B →
      Prints .node j (Lang.pre async (word cs!"async" ⬝ Lang.mark .joined) ⬝ word cs!"function" ⬝ Lang.pre gen (pun .star) ⬝ I ⬝
        pun .lParen ⬝ P ⬝ pun .rParen ⬝ B)
  | literal {j v : Json} {raw : Str} : Has j cs!"Literal" [(cs!"value", v), (cs!"raw", .str raw)] →
      Prints .node j (one fun c => wordJson c = some v ∧ raw = shown c ∧
        ∀ s, c = .name s → s = cs!"true" ∨ s = cs!"false" ∨ s = cs!"null")
  | new {j f : Json} {as : List Json} {F A : Lang} : Has j cs!"NewExpression" [(cs!"callee", f), (cs!"arguments", .arr as)] →
      Prints .node f F → PrintsAll .node .commas as A → Prints .node j (word cs!"new" ⬝ F ⬝
        (pun .lParen ⬝ A ⬝ pun .rParen).or (if as.isEmpty then eps else Lang.nothing))
  | object {j : Json} {ps : List Json} {P : Lang} : Has j cs!"ObjectExpression" [(cs!"properties", .arr ps)] →
      PrintsAll (.property false) .properties ps P → Prints .node j (pun .lBrace ⬝ P ⬝ pun .rBrace)
  | regex {j x : Json} {pattern : Str} {flags : List Char} : Has j cs!"RegexLiteral" [(cs!"regex", x)] →
      Gets x [(cs!"pattern", .str pattern), (cs!"flags", .arr (flags.map fun c => .str [c]))] →
      Prints .node j (tok (.regexp pattern flags))
  | sequence {j : Json} {es : List Json} {E : Lang} : Has j cs!"SequenceExpression" [(cs!"expressions", .arr es)] →
      PrintsAll .node .comma es E →
      Prints .node j ((pun .lParen ⬝ E ⬝ pun .rParen).or (if es.length < 2 then Lang.nothing else E))
  | taggedTemplate {j t q : Json} {qs es : List Json} {T Q : Lang} :
      Has j cs!"TaggedTemplateExpression" [(cs!"tag", t), (cs!"quasi", q)] →
      Has q cs!"TemplateLiteral" [(cs!"quasis", .arr qs), (cs!"expressions", .arr es)] →
      Prints .node t T → PrintsTemplate true qs es Q → Prints .node j (T ⬝ Q)
  | template {j : Json} {qs es : List Json} {Q : Lang} :
      Has j cs!"TemplateLiteral" [(cs!"quasis", .arr qs), (cs!"expressions", .arr es)] →
      PrintsTemplate true qs es Q → Prints .node j Q
  | this {j : Json} : Has j cs!"ThisExpression" [] → Prints .node j (word cs!"this")
  | super {j : Json} : Has j cs!"Super" [] → Prints .node j (word cs!"super")
  | unary {j a : Json} {op : Str} {A : Lang} : 
      Has j cs!"UnaryExpression" [(cs!"operator", .str op), (cs!"argument", a), (cs!"prefix", .bool true)] →
      Prints .node a A → Prints .node j (Spell.operator op ⬝ A)
  | update {j a : Json} {op : Str} {isPrefix : Bool} {A : Lang} :
      Has j cs!"UpdateExpression" [(cs!"operator", .str op), (cs!"argument", a), (cs!"prefix", .bool isPrefix)] →
      Prints .node a A → Prints .node j (if isPrefix then Spell.sign op ⬝ A else A ⬝ Spell.sameLine (Spell.sign op))
  -- giron: the operand may be missing only at the end of a line
  | yield {j a : Json} {delegate : Bool} {A : Lang} :
      Has j cs!"YieldExpression" [(cs!"argument", a), (cs!"delegate", .bool delegate)] →
      PrintsOpt a A → Prints .node j (word cs!"yield" ⬝ Lang.mark (if isNull a then .broken else .joined) ⬝ Lang.pre delegate (pun .star) ⬝ A)
  | spread {j a : Json} {A : Lang} : Has j cs!"SpreadElement" [(cs!"argument", a)] → Prints .node a A →
      Prints .node j (pun .ellipsis ⬝ A)
  | metaProperty {j a b : Json} {A B : Lang} : Has j cs!"MetaProperty" [(cs!"meta", a), (cs!"property", b)] →
      Prints .node a A → Prints .node b B → Prints .node j (A ⬝ pun .dot ⬝ B)
  -- patterns
  | arrayPattern {j : Json} {es : List Json} {E : Lang} : Has j cs!"ArrayPattern" [(cs!"elements", .arr es)] →
      PrintsAll .node .holes es E → Prints .node j (pun .lBracket ⬝ E ⬝ pun .rBracket)
  | objectPattern {j : Json} {ps : List Json} {P : Lang} : Has j cs!"ObjectPattern" [(cs!"properties", .arr ps)] →
      PrintsAll (.property true) .commas ps P → Prints .node j (pun .lBrace ⬝ P ⬝ pun .rBrace)
  | assignmentPattern {j l r : Json} {A B : Lang} : Has j cs!"AssignmentPattern" [(cs!"left", l), (cs!"right", r)] →
      Prints .node l A → Prints .node r B → Prints .node j (A ⬝ pun .assign ⬝ B)
  | rest {j a : Json} {A : Lang} : Has j cs!"RestElement" [(cs!"argument", a)] → Prints .node a A →
      Prints .node j (pun .ellipsis ⬝ A)
  -- statements
  | break {j l : Json} {L : Lang} : Has j cs!"BreakStatement" [(cs!"label", l)] → PrintsOpt l L →
      Prints .node j (word cs!"break" ⬝ Spell.sameLineIf (!isNull l) L ⬝ Spell.semi)
  | continue {j l : Json} {L : Lang} : Has j cs!"ContinueStatement" [(cs!"label", l)] → PrintsOpt l L →
      Prints .node j (word cs!"continue" ⬝ Spell.sameLineIf (!isNull l) L ⬝ Spell.semi)
  | debugger {j : Json} : Has j cs!"DebuggerStatement" [] → Prints .node j (word cs!"debugger" ⬝ Spell.semi)
  | doWhile {j b t : Json} {B T : Lang} : Has j cs!"DoWhileStatement" [(cs!"body", b), (cs!"test", t)] →
      Prints .node b B → Prints .node t T →
      Prints .node j (word cs!"do" ⬝ B ⬝ word cs!"while" ⬝ pun .lParen ⬝ T ⬝ pun .rParen ⬝ Spell.semi)
  | empty {j : Json} : Has j cs!"EmptyStatement" [] → Prints .node j (pun .semicolon)
  | expression {j e : Json} {E : Lang} : Has j cs!"ExpressionStatement" [(cs!"expression", e)] → Prints .node e E →
      Prints .node j (notFirst [.punct .lBrace] E ⬝ Spell.semi)
  | for {j i t u b : Json} {I T U B : Lang} :
      Has j cs!"ForStatement" [(cs!"init", i), (cs!"test", t), (cs!"update", u), (cs!"body", b)] →
      Prints .forHead i I → PrintsOpt t T → PrintsOpt u U → Prints .node b B →
      Prints .node j (word cs!"for" ⬝ pun .lParen ⬝ I ⬝ pun .semicolon ⬝ T ⬝ pun .semicolon ⬝ U ⬝ pun .rParen ⬝ B)
  | forNone : Prints .forHead .null eps
  | forVar {j : Json} {ds : List Json} {kind : Str} {D : Lang} :
      Has j cs!"VariableDeclaration" [(cs!"declarations", .arr ds), (cs!"kind", .str kind)] →
      PrintsAll .declarator .comma ds D → Prints .forHead j (word kind ⬝ D)
  | forSequence {j : Json} {es : List Json} {E : Lang} : Has j cs!"SequenceExpression" [(cs!"expressions", .arr es)] →
      PrintsAll .node .comma es E → Prints .forHead j E
  -- giron: the tree does not tell `var`, `let` and `const`
  | forIn {j l r b : Json} {L R B : Lang} : 
      Has j cs!"ForInStatement" [(cs!"left", l), (cs!"right", r), (cs!"body", b), (cs!"each", .bool false)] →
      Prints .node l L → Prints .node r R → Prints .node b B →
      Prints .node j (word cs!"for" ⬝ pun .lParen ⬝ opt (one fun c => ∃ v ∈ [cs!"var", cs!"let", cs!"const"], c = .name v) ⬝ L ⬝
        word cs!"in" ⬝ R ⬝ pun .rParen ⬝ B)
  | forOf {j l r b : Json} {L R B : Lang} : Has j cs!"ForOfStatement" [(cs!"left", l), (cs!"right", r), (cs!"body", b)] →
      Prints .node l L → Prints .node r R → Prints .node b B →
      Prints .node j (word cs!"for" ⬝ pun .lParen ⬝ opt (one fun c => ∃ v ∈ [cs!"var", cs!"let", cs!"const"], c = .name v) ⬝ L ⬝
        word cs!"of" ⬝ R ⬝ pun .rParen ⬝ B)
  -- giron: `function` must not be on the line of `async`
  | functionDeclaration {j i b : Json} {ps : List Json} {gen async : Bool} {I P B : Lang} :
      Has j cs!"FunctionDeclaration" [(cs!"id", i), (cs!"params", .arr ps), (cs!"body", b), (cs!"generator", .bool gen),
        (cs!"expression", .bool false), (cs!"async", .bool async)] →
      PrintsOpt i I → PrintsAll .node .commas ps P → Prints .node b B →
      Prints .node j (Lang.pre async (word cs!"async" ⬝ Lang.mark .broken) ⬝ word cs!"function" ⬝ Lang.pre gen (pun .star) ⬝ I ⬝
        pun .lParen ⬝ P ⬝ pun .rParen ⬝ B)
  | if {j t a b : Json} {T A B : Lang} :
      Has j cs!"IfStatement" [(cs!"test", t), (cs!"consequent", a), (cs!"alternate", b)] →
      Prints .node t T → Prints .node a A → PrintsOpt b B →
      Prints .node j (word cs!"if" ⬝ pun .lParen ⬝ T ⬝ pun .rParen ⬝ A ⬝
        (if isNull b then Lang.mark .noElse else word cs!"else") ⬝ B)
  | return {j a : Json} {A : Lang} : Has j cs!"ReturnStatement" [(cs!"argument", a)] → PrintsOpt a A →
      Prints .node j (word cs!"return" ⬝ Spell.sameLineIf (!isNull a) A ⬝ Spell.semi)
  | switch {j d : Json} {cs : List Json} {D C : Lang} : Has j cs!"SwitchStatement" [(cs!"discriminant", d), (cs!"cases", .arr cs)] →
      Prints .node d D → PrintsAll .case .none cs C →
      Prints .node j (word cs!"switch" ⬝ pun .lParen ⬝ D ⬝ pun .rParen ⬝ pun .lBrace ⬝ C ⬝ pun .rBrace)
  | case {j t : Json} {ss : List Json} {T S : Lang} : Has j cs!"SwitchCase" [(cs!"test", t), (cs!"consequent", .arr ss)] →
      PrintsOpt t T → PrintsAll .node .none ss S →
      Prints .case j ((if isNull t then word cs!"default" else word cs!"case") ⬝ T ⬝ pun .colon ⬝ S)
  | throw {j a : Json} {A : Lang} : Has j cs!"ThrowStatement" [(cs!"argument", a)] → Prints .node a A →
      Prints .node j (word cs!"throw" ⬝ Spell.sameLine A ⬝ Spell.semi)
  | try {j b h f : Json} {B H F : Lang} : Has j cs!"TryStatement" [(cs!"block", b), (cs!"handler", h), (cs!"finalizer", f)] →
      Prints .node b B → Prints .handler h H → PrintsOpt f F →
      Prints .node j (word cs!"try" ⬝ B ⬝ H ⬝ Lang.pre (!isNull f) (word cs!"finally") ⬝ F)
  | noCatch : Prints .handler .null eps
  | catch {j p b : Json} {P B : Lang} : Has j cs!"CatchClause" [(cs!"param", p), (cs!"body", b)] → PrintsOpt p P →
      Prints .node b B →
      Prints .handler j (word cs!"catch" ⬝ (if isNull p then eps else pun .lParen ⬝ P ⬝ pun .rParen) ⬝ B)
  | variables {j : Json} {ds : List Json} {kind : Str} {D : Lang} :
      Has j cs!"VariableDeclaration" [(cs!"declarations", .arr ds), (cs!"kind", .str kind)] →
      PrintsAll .declarator .comma ds D → Prints .node j (word kind ⬝ D ⬝ Spell.semi)
  | declarator {j p i : Json} {P I : Lang} : Has j cs!"VariableDeclarator" [(cs!"id", p), (cs!"init", i)] →
      Prints .node p P → PrintsOpt i I → Prints .declarator j (P ⬝ Lang.pre (!isNull i) (pun .assign) ⬝ I)
  | while {j t b : Json} {T B : Lang} : Has j cs!"WhileStatement" [(cs!"test", t), (cs!"body", b)] →
      Prints .node t T → Prints .node b B →
      Prints .node j (word cs!"while" ⬝ pun .lParen ⬝ T ⬝ pun .rParen ⬝ B)
  | with {j o b : Json} {O B : Lang} : Has j cs!"WithStatement" [(cs!"object", o), (cs!"body", b)] →
      Prints .node o O → Prints .node b B →
      Prints .node j (word cs!"with" ⬝ pun .lParen ⬝ O ⬝ pun .rParen ⬝ B)
  | block {j : Json} {ss : List Json} {S : Lang} : Has j cs!"BlockStatement" [(cs!"body", .arr ss)] →
      PrintsAll .node .none ss S → Prints .node j (pun .lBrace ⬝ S ⬝ pun .rBrace)
  | labelled {j l b : Json} {name : Str} {B : Lang} : Has j cs!"LabeledStatement" [(cs!"label", l), (cs!"body", b)] →
      Named l name → Prints .node b B → Prints .node j (word name ⬝ pun .colon ⬝ B)
  -- classes
  | class {j i s b : Json} {ms : List Json} {I S M : Lang} :
      Has j cs!"ClassDeclaration" [(cs!"id", i), (cs!"superClass", s), (cs!"body", b)] → Has b cs!"ClassBody" [(cs!"body", .arr ms)] →
      PrintsOpt i I → PrintsOpt s S → PrintsAll .method .semicolons ms M →
      Prints .node j (word cs!"class" ⬝ I ⬝ Lang.pre (!isNull s) (word cs!"extends") ⬝ S ⬝ pun .lBrace ⬝ M ⬝ pun .rBrace)
  -- giron: only `*` may be on the line of `async`, and must be
  | method {j k f b : Json} {ps : List Json} {computed isStatic gen async : Bool} {kind : Str} {K P B : Lang} :
      Has j cs!"MethodDefinition" [(cs!"key", k), (cs!"computed", .bool computed), (cs!"value", f), (cs!"kind", .str kind),
        (cs!"static", .bool isStatic)] →
      Has f cs!"FunctionExpression" [(cs!"id", .null), (cs!"params", .arr ps), (cs!"body", b), (cs!"generator", .bool gen),
        (cs!"expression", .bool false), (cs!"async", .bool async)] →
      Prints .node k K → PrintsAll .node .commas ps P → Prints .node b B →
      Prints .method j (Lang.pre isStatic (word cs!"static") ⬝
        (Spell.accessor kind).getD (only (kind == if gen || async then cs!"method" else plainKind computed k) <|
          Lang.pre async (word cs!"async" ⬝ Lang.mark (if gen then .joined else .broken)) ⬝ Lang.pre gen (pun .star)) ⬝
        Lang.pre computed (pun .lBracket) ⬝ K ⬝ Lang.pre computed (pun .rBracket) ⬝ pun .lParen ⬝ P ⬝ pun .rParen ⬝ B)
  -- properties
  | methodProperty {j k f b : Json} {ps : List Json} {pattern computed gen async : Bool} {kind type : Str} {K P B : Lang} :
      Has j cs!"Property" [(cs!"key", k), (cs!"computed", .bool computed), (cs!"value", f), (cs!"kind", .str kind),
        (cs!"method", .bool true), (cs!"shorthand", .bool false)] →
      type ∈ [cs!"FunctionExpression", cs!"AsyncFunctionExpression"] →
      Has f type [(cs!"id", .null), (cs!"params", .arr ps), (cs!"body", b), (cs!"generator", .bool gen),
        (cs!"expression", .bool false), (cs!"async", .bool async)] →
      Prints (.key pattern computed) k K → PrintsAll .node .commas ps P → Prints .node b B →
      Prints (.property pattern) j ((Spell.accessor kind).getD
          (only (kind == cs!"init") <| Lang.pre async (word cs!"async") ⬝ Lang.pre gen (pun .star)) ⬝
        K ⬝ pun .lParen ⬝ P ⬝ pun .rParen ⬝ B)
  -- giron takes `get`, `set` and `async` before any property: `{get a: 1}`
  | nameProperty {j k : Json} {pattern computed : Bool} {kind : Str} {K : Lang} :
      Has j cs!"Property" [(cs!"key", k), (cs!"computed", .bool computed), (cs!"value", .null), (cs!"kind", .str kind),
        (cs!"method", .bool false), (cs!"shorthand", .bool true)] →
      Prints (.key pattern computed) k K →
      Prints (.property pattern) j ((Spell.accessor kind).getD (only (kind == cs!"init") <| opt (word cs!"async")) ⬝ K)
  | valueProperty {j k v : Json} {pattern computed shorthand : Bool} {kind : Str} {K V : Lang} :
      Has j cs!"Property" [(cs!"key", k), (cs!"computed", .bool computed), (cs!"value", v), (cs!"kind", .str kind),
        (cs!"method", .bool false), (cs!"shorthand", .bool shorthand)] →
      Prints (.key pattern computed) k K → Prints .node v V →
      Prints (.property pattern) j ((Spell.accessor kind).getD (only (kind == cs!"init") <| opt (word cs!"async")) ⬝ K ⬝
        pun (if shorthand then .assign else .colon) ⬝ V)
  -- a declared shorthand property with a default: the value repeats the name
  | defaultProperty {j k v l r : Json} {computed : Bool} {name : Str} {K R : Lang} :
      Has j cs!"Property" [(cs!"key", k), (cs!"computed", .bool computed), (cs!"value", v), (cs!"kind", .str cs!"init"),
        (cs!"method", .bool false), (cs!"shorthand", .bool true)] →
      Has v cs!"AssignmentPattern" [(cs!"left", l), (cs!"right", r)] → Named k name → Named l name →
      Prints (.key true computed) k K → Prints .node r R → Prints (.property true) j (K ⬝ pun .assign ⬝ R)
  | both {pattern : Bool} {j : Json} {A B : Lang} : Prints (.property pattern) j A → Prints (.property pattern) j B →
      Prints (.property pattern) j (A.or B)
  | spreadProperty {j a : Json} {A : Lang} : Has j cs!"SpreadElement" [(cs!"argument", a)] → Prints .node a A →
      Prints (.property false) j (pun .ellipsis ⬝ A)
  | restProperty {j a : Json} {A : Lang} : Has j cs!"RestElement" [(cs!"argument", a)] → Prints .node a A →
      Prints (.property true) j (pun .ellipsis ⬝ A)
  | nameKey {j : Json} {name : Str} : Named j name → Prints (.key false false) j (word name)
  -- giron: a string or number may be a shorthand in a pattern
  | patternNameKey {j : Json} {name : Str} : Named j name → Prints (.key true false) j (Spell.patternName name)
  | literalKey {j v : Json} : Has j cs!"Literal" [(cs!"value", v)] →
      Prints (.key false false) j (one fun c => wordJson c = some v ∧ ∀ s, c ≠ .name s)
  -- giron: in a declaration a mere name before `:` is a Literal
  | patternLiteralKey {j v : Json} : Has j cs!"Literal" [(cs!"value", v)] →
      Prints (.key true false) j (one fun c => wordJson c = some v)
  | computedKey {pattern : Bool} {j : Json} {K : Lang} : Prints .node j K →
      Prints (.key pattern true) j (pun .lBracket ⬝ K ⬝ pun .rBracket)
  -- modules
  | exportAll {j s : Json} : Has j cs!"ExportAllDeclaration" [(cs!"source", s)] →
      Prints .node j (word cs!"export" ⬝ pun .star ⬝ word cs!"from" ⬝ stringLiteral s ⬝ Spell.semi)
  -- the tree does not tell whether there was a class or an expression that is a class
  | exportDefault {j d : Json} {D : Lang} : Has j cs!"ExportDefaultDeclaration" [(cs!"declaration", d)] → Prints .node d D →
      Prints .node j (word cs!"export" ⬝ word cs!"default" ⬝ D ⬝
        Spell.semi.or (if isDeclaration d then eps else Lang.nothing))
  | exportNamed {j d : Json} {D : Lang} : 
      Has j cs!"ExportNamedDeclaration" [(cs!"declaration", d), (cs!"specifiers", .arr []), (cs!"source", .null)] →
      Prints .node d D →
      Prints .node j (word cs!"export" ⬝ D)
  | exportNames {j : Json} {ss : List Json} :
      Has j cs!"ExportNamedDeclaration" [(cs!"declaration", .null), (cs!"specifiers", .arr ss), (cs!"source", .null)] →
      Prints .node j (word cs!"export" ⬝ pun .lBrace ⬝ exportNames ss ⬝ pun .rBrace)
  | importDeclaration {j s : Json} {ss : List Json} :
      Has j cs!"ImportDeclaration" [(cs!"specifiers", .arr ss), (cs!"source", s)] →
      Prints .node j (word cs!"import" ⬝ importClause ss ⬝ word cs!"from" ⬝ stringLiteral s ⬝ Spell.semi)
  | program {j : Json} {ss : List Json} {S : Lang} : Has j cs!"Program" [(cs!"body", .arr ss)] →
      PrintsAll .node .none ss S → Prints .whole j S

/-- A part that may be missing. -/
inductive PrintsOpt : Json → Lang → Prop
  | absent : PrintsOpt .null eps
  | present {j : Json} {A : Lang} : Prints .node j A → PrintsOpt j A

/-- The words of a list. -/
inductive PrintsAll : Slot → Sep → List Json → Lang → Prop
  | nil {s : Slot} {sep : Sep} : sep ≠ .semicolons → PrintsAll s sep [] eps
  | semicolons {s : Slot} : PrintsAll s .semicolons [] Lang.semicolons
  | cons {s : Slot} {j : Json} {js : List Json} {A B : Lang} : Prints s j A → PrintsAll s .none js B →
      PrintsAll s .none (j :: js) (A ⬝ B)
  | consComma {s : Slot} {j : Json} {js : List Json} {A B : Lang} : Prints s j A → PrintsAll s .comma js B →
      PrintsAll s .comma (j :: js) (A ⬝ Spell.commaBetween js ⬝ B)
  | consCommas {s : Slot} {j : Json} {js : List Json} {A B : Lang} : Prints s j A → PrintsAll s .commas js B →
      PrintsAll s .commas (j :: js) (A ⬝ Spell.commaAfter js ⬝ B)
  | hole {s : Slot} {js : List Json} {B : Lang} : PrintsAll s .holes js B → PrintsAll s .holes (.null :: js) (pun .comma ⬝ B)
  | consHoles {s : Slot} {j : Json} {js : List Json} {A B : Lang} : Prints s j A → PrintsAll s .holes js B →
      PrintsAll s .holes (j :: js) (A ⬝ Spell.commaAfter js ⬝ B)
  | consProperty {s : Slot} {j : Json} {js : List Json} {A B : Lang} : Prints s j A → PrintsAll s .properties js B →
      PrintsAll s .properties (j :: js) (A ⬝ (if isGenerator j then eps else Spell.commaAfter js) ⬝ B)
  | consMethod {s : Slot} {j : Json} {js : List Json} {A B : Lang} : Prints s j A → PrintsAll s .semicolons js B →
      PrintsAll s .semicolons (j :: js) (Lang.semicolons ⬝ A ⬝ B)

/-- The parts of a template and its substitutions, by turns. -/
inductive PrintsTemplate : Bool → List Json → List Json → Lang → Prop
  | none {first : Bool} {qs es : List Json} : PrintsTemplate first qs es Lang.nothing
  | last {first : Bool} {q : Json} : PrintsTemplate first [q] [] (templateElement first q)
  | more {first : Bool} {q e : Json} {qs es : List Json} {E Q : Lang} : Prints .node e E → PrintsTemplate false qs es Q →
      PrintsTemplate first (q :: qs) (e :: es) (templateElement first q ⬝ E ⬝ Q)

end

end

end Giron.Spec

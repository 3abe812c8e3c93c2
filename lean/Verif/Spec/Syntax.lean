import Verif.Spec.Words
import Verif.Spec.Bare
import Verif.Spec.Grammar
import Verif.Model.EstreeFns
/-
A grammar of the language on words, with the tree of each phrase.  It follows the ECMAScript grammar; where giron
implements something else, the rule says so.  Nothing here mentions the parser.  The trees have no positions (every
span is the default one).

Left out: `async` as a variable, properties `{get}`, `{set}` and `{async}`, async function declarations and class members
(giron rejects them), `yield` without operand, and phrases in which giron's stack of start positions runs empty (the index
`firm` below).
-/
namespace Giron.Grammar
open Giron Spec

/-- What a phrase may contain. -/
structure Ctx where
  /-- strict code -/
  strict : Bool
  /-- inside a loop (giron: not reset by functions) -/
  loop : Bool
  /-- inside a `switch` (giron: not reset by functions) -/
  switch : Bool
  /-- `return` is allowed -/
  ret : Bool
  /-- `in` is an operator -/
  inn : Bool
  /-- `yield` is an operator -/
  yld : Bool
  /-- `await` is an operator -/
  awt : Bool
  /-- functions and classes need no name -/
  dflt : Bool

/-- A punctuator; `n` tells whether it is on a new line. -/
abbrev P (p : Punctuator) (n : Bool) : Word := ⟨.punct p, n⟩
/-- A name or keyword; `n` tells whether it is on a new line. -/
abbrev W (v : Str) (n : Bool) : Word := ⟨.name v, n⟩
/-- No position. -/
abbrev sp : Span := default

/-! ### Names -/

/-- A name that is not reserved in any context. -/
def PlainName (v : Str) : Prop := v ∉ keywords ∧ v ≠ cs!"null" ∧ v ≠ cs!"true" ∧ v ≠ cs!"false"

/-- Names reserved in strict code.  (ECMAScript also has `let`, `static` and `yield`.) -/
def strictReserved : List Str :=
  [cs!"implements", cs!"interface", cs!"package", cs!"private", cs!"protected", cs!"public"]

/-- The name may be used as a variable. -/
def Ref (c : Ctx) (v : Str) : Prop :=
  (c.strict = true → v ∉ strictReserved) ∧
    (PlainName v ∨ v = cs!"yield" ∧ c.yld = false ∨ v = cs!"await" ∧ c.awt = false)

/-- The name may be declared.  (giron: `yield` and `await` everywhere.) -/
def Bindable (c : Ctx) (v : Str) : Prop :=
  (c.strict = true → v ∉ strictReserved) ∧ (PlainName v ∨ v = cs!"yield" ∨ v = cs!"await")

/-- The name may follow a `.` or be a property key: keywords are allowed.  (giron: `null`, `true` and `false` are
not.) -/
def PropName (v : Str) : Prop := v ≠ cs!"null" ∧ v ≠ cs!"true" ∧ v ≠ cs!"false"

/-- Whether a variable may be assigned to. -/
def nameTarget (c : Ctx) (v : Str) : ATT :=
  if c.strict = true ∧ (v = cs!"eval" ∨ v = cs!"arguments") then .strict else .simple

/-- Whether a parenthesised list of expressions may be assigned to. -/
def parenTarget : List Node → ATT
  | [e] => e.assignTargetType
  | _ => .invalid

/-! ### Operators -/

/-- Unary operators. -/
inductive UnaryOp (c : Ctx) : Content → Str → Prop
  | punct {p : Punctuator} : p ∈ [Punctuator.plus, .minus, .tilde, .bang] → UnaryOp c (.punct p) p.toStr
  | name {v : Str} : v ∈ [cs!"delete", cs!"void", cs!"typeof"] → UnaryOp c (.name v) v
  | await : c.awt = true → UnaryOp c (.name cs!"await") cs!"await"

/-- Binary operators but `**`, with their precedence.  (giron: `%` binds tighter than `*` and `/`.) -/
inductive BinOp (c : Ctx) : Content → Str → Nat → Prop
  | punct {p : Punctuator} {n : Nat} : (p, n) ∈
      [(Punctuator.logicalOr, 1), (.logicalAnd, 2), (.bitOr, 3), (.bitXor, 4), (.bitAnd, 5), (.equal, 6), (.nEqual, 6),
       (.strictEqual, 6), (.strictNEqual, 6), (.lAngle, 7), (.rAngle, 7), (.lEqual, 7), (.gEqual, 7), (.lShift, 8),
       (.rShift, 8), (.zRShift, 8), (.plus, 9), (.minus, 9), (.star, 10), (.slash, 10), (.mod, 11)] →
      BinOp c (.punct p) p.toStr n
  | instanceof : BinOp c (.name cs!"instanceof") cs!"instanceof" 7
  | in : c.inn = true → BinOp c (.name cs!"in") cs!"in" 7

/-- Assignment operators but `=`. -/
def assignPuncts : List Punctuator :=
  [.plusAssign, .minusAssign, .starAssign, .slashAssign, .modAssign, .powAssign, .lShiftAssign, .rShiftAssign,
   .zRShiftAssign, .bitAndAssign, .bitOrAssign, .bitXorAssign]

/-! ### Ends of statements -/

/-- The word could go on with an expression that ends before it. -/
def continues : Content → Bool
  | .punct p => decide (p ∉ [Punctuator.rParen, .rBracket, .rBrace, .lBrace, .semicolon, .tilde, .bang, .inc, .dec])
  | .name v => decide (v = cs!"in" ∨ v = cs!"instanceof")
  | .template _ _ _ _ => true
  | .regexp _ _ => true
  | _ => false

/-- A semicolon may be missing before the word: it is `}`, the end of input, or on a new line; it is no semicolon. -/
def MayOmit (nx : Word) : Prop := nx.c ≠ .punct .semicolon ∧ (nx.c = .punct .rBrace ∨ nx.c = .eof ∨ nx.nl = true)

/-- A semicolon, or nothing where it may be missing; `nx` is the word that follows. -/
inductive Semi : List Word → Word → Prop
  | semi {n : Bool} {nx : Word} : Semi [P .semicolon n] nx
  | auto {nx : Word} : MayOmit nx → Semi [] nx

/-- The same after an expression: it is not missing if the next word could go on with the expression. -/
inductive ExprSemi : List Word → Word → Prop
  | semi {n : Bool} {nx : Word} : ExprSemi [P .semicolon n] nx
  | auto {nx : Word} : MayOmit nx → continues nx.c = false → ExprSemi [] nx

/-! ### Lists -/

set_option inductive.autoPromoteIndices false

/-- The first word of `ws`, or else `nx`. -/
def first (ws : List Word) (nx : Word) : Word := ws.head?.getD nx

section
variable {ι α β : Type}

/-- One or more items separated by commas. -/
inductive Sep (R : ι → List Word → α → Prop) : ι → List Word → List α → Prop
  | one {i w a} : R i w a → Sep R i w [a]
  | cons {i w ws a as n} : R i w a → Sep R i ws as → Sep R i (w ++ P .comma n :: ws) (a :: as)

/-- Items separated by commas; one more comma may follow the last. -/
inductive Commas (R : ι → List Word → α → Prop) : ι → List Word → List α → Prop
  | nil {i} : Commas R i [] []
  | last {i w a} : R i w a → Commas R i w [a]
  | cons {i w ws a as n} : R i w a → Commas R i ws as → Commas R i (w ++ P .comma n :: ws) (a :: as)

/-- Items separated by commas; one more comma may follow the last, or else a last item of another kind. -/
inductive CommasRest (R S : ι → List Word → α → Prop) : ι → List Word → List α → Prop
  | nil {i} : CommasRest R S i [] []
  | last {i w a} : R i w a → CommasRest R S i w [a]
  | rest {i w a} : S i w a → CommasRest R S i w [a]
  | cons {i w ws a as n} : R i w a → CommasRest R S i ws as → CommasRest R S i (w ++ P .comma n :: ws) (a :: as)

/-- Items separated by commas, some of which may be missing. -/
inductive Holes (R : ι → List Word → α → Prop) : ι → List Word → List (Option α) → Prop
  | nil {i} : Holes R i [] []
  | last {i w a} : R i w a → Holes R i w [some a]
  | cons {i w ws a as n} : R i w a → Holes R i ws as → Holes R i (w ++ P .comma n :: ws) (some a :: as)
  | hole {i ws as n} : Holes R i ws as → Holes R i (P .comma n :: ws) (none :: as)

/-- The same with a last item of another kind. -/
inductive HolesRest (R S : ι → List Word → α → Prop) : ι → List Word → List (Option α) → Prop
  | nil {i} : HolesRest R S i [] []
  | last {i w a} : R i w a → HolesRest R S i w [some a]
  | rest {i w a} : S i w a → HolesRest R S i w [some a]
  | cons {i w ws a as n} : R i w a → HolesRest R S i ws as → HolesRest R S i (w ++ P .comma n :: ws) (some a :: as)
  | hole {i ws as n} : HolesRest R S i ws as → HolesRest R S i (P .comma n :: ws) (none :: as)

/-- One item after the other. -/
inductive Star (R : ι → List Word → α → Prop) : ι → List Word → List α → Prop
  | nil {i} : Star R i [] []
  | cons {i w ws a as} : R i w a → Star R i ws as → Star R i (w ++ ws) (a :: as)

/-- From one tree to another by steps, each of which takes some words. -/
inductive Many (R : ι → β → List Word → β → Prop) : ι → β → List Word → β → Prop
  | nil {i b} : Many R i b [] b
  | cons {i b b' b'' w ws} : R i b w b' → Many R i b' ws b'' → Many R i b (w ++ ws) b''

/-- One item after the other, each knowing the word that follows it. -/
inductive Items (R : ι → List Word → Word → α → Prop) : ι → List Word → Word → List α → Prop
  | nil {i nx} : Items R i [] nx []
  | cons {i w ws nx a as} : R i w (first ws nx) a → Items R i ws nx as → Items R i (w ++ ws) nx (a :: as)

end

/-- The expression is the string "use strict". -/
def isUseStrict : Node → Bool
  | .literal v _ _ _ => decide (v = .str cs!"use strict")
  | _ => false

/-- A directive prologue: expression statements that begin with a string, of which "use strict" makes what follows strict.
(giron does not ask that the expressions be mere strings, and `in` is an operator only if it is one outside.) -/
inductive Prologue (E : Ctx → List Word → Node → Prop) : Ctx → List Word → Word → Ctx → List Node → Prop
  | nil {c nx} : Prologue E c [] nx c []
  | cons {c c' w semi ws nx v o n e es} : E c (⟨.string v o, n⟩ :: w) e → ExprSemi semi (first ws nx) →
      Prologue E { c with strict := c.strict || isUseStrict e } ws nx c' es →
      Prologue E c (⟨.string v o, n⟩ :: w ++ (semi ++ ws)) nx c' (.expressionStatement e sp :: es)

/-- `constructor` or `method` -/
def memberKind : Node → Str
  | .identifier v _ _ => if v = cs!"constructor" then cs!"constructor" else cs!"method"
  | _ => cs!"method"

/-! ### Literals read as patterns -/

/-- A variable, a member or a parenthesised target. -/
def isTarget : Node → Bool
  | .identifier _ a _ | .staticMemberExpression _ _ _ a _ | .computedMemberExpression _ _ _ a _
  | .sequenceExpression _ a _ => decide (a = .simple)
  | _ => false

/-- The target of `...` in an object. -/
inductive RestTarget : Node → Binding → Prop
  | name {v s} : RestTarget (.identifier v .simple s) (.bindingIdentifier v s)
  | other {t} : isTarget t = true → (∀ v a s, t ≠ .identifier v a s) → RestTarget t (.expression t)

mutual

/-- The array or object literal, read as the target of an assignment.  (giron: no rest in arrays.) -/
inductive AssignPat : Node → Node → Prop
  | array {es ps a s} : AssignElems es ps → AssignPat (.arrayExpression es a s) (.arrayAssignmentPattern ps .simple s)
  | object {es ps a s} : AssignProps es ps → AssignPat (.objectExpression es a s) (.objectPattern ps .simple s)

/-- An expression as part of the target. -/
inductive AssignElem : Node → Node → Prop
  | target {t} : isTarget t = true → AssignElem t t
  | nested {t p} : AssignPat t p → AssignElem t p
  | default {l r a s} : l.assignTargetType = .simple →
      AssignElem (.assignmentExpression cs!"=" l r a s) (.assignmentPattern (.expression l) r s)

/-- The elements of an array. -/
inductive AssignElems : List (Option ArrayExpressionElement) → List (Option ArrayAssignmentPatternElement) → Prop
  | nil : AssignElems [] []
  | hole {es ps} : AssignElems es ps → AssignElems (none :: es) (none :: ps)
  | cons {e p es ps} : AssignElem e p → AssignElems es ps →
      AssignElems (some (.expression e) :: es) (some (.expression p) :: ps)

/-- The properties of an object. -/
inductive AssignProps : List ObjectExpressionProperty → List ObjectPatternProperty → Prop
  | nil : AssignProps [] []
  | rest {e b s} : RestTarget e b → AssignProps [.spreadElement e s] [.restElement b]
  | shorthand {k c kd m sh s es ps} : AssignProps es ps →
      AssignProps (.property k c none kd m sh s :: es) (.property k c none kd m sh :: ps)
  | pair {k c e p kd m sh s es ps} : AssignElem e p → AssignProps es ps →
      AssignProps (.property k c (some (.expression e)) kd m sh s :: es)
        (.property k c (some (.expression p)) kd m sh :: ps)

end

mutual

/-- The expression, read as a binding.  (giron: not the empty array.) -/
inductive BindPat : Node → Binding → Prop
  | name {v a s} : BindPat (.identifier v a s) (.bindingIdentifier v s)
  | array {es ps a s} : es ≠ [] → BindElems es ps → BindPat (.arrayExpression es a s) (.arrayPattern ps s)
  | object {es ps a s} : BindProps es ps → BindPat (.objectExpression es a s) (.objectPattern ps s)

/-- An expression as element of an array. -/
inductive BindElem : Node → ArrayPatternElement → Prop
  | name {v a s} : BindElem (.identifier v a s) (.bindingIdentifier v)
  | array {t ps s} : BindPat t (.arrayPattern ps s) → BindElem t (.arrayPattern ps)
  | object {t ps s} : BindPat t (.objectPattern ps s) → BindElem t (.objectPattern ps)
  | default {l r a s b} : BindPat l b → BindElem (.assignmentExpression cs!"=" l r a s) (.assignmentPattern b r)

/-- An expression as value of a property. -/
inductive BindValue : Node → PropertyValue → Prop
  | name {v a s} : BindValue (.identifier v a s) (.bindingIdentifier v s)
  | array {t ps s} : BindPat t (.arrayPattern ps s) → BindValue t (.bindingPattern (.arrayPattern ps))
  | object {t ps s} : BindPat t (.objectPattern ps s) → BindValue t (.bindingPattern (.objectPattern ps))
  | default {l r a s b} : BindPat l b → BindValue (.assignmentExpression cs!"=" l r a s) (.assignmentPattern b r)

/-- The elements of an array. -/
inductive BindElems : List (Option ArrayExpressionElement) → List (Option ArrayPatternElement) → Prop
  | nil : BindElems [] []
  | rest {e b s} : BindPat e b → BindElems [some (.spreadElement e s)] [some (.restElement b)]
  | hole {es ps} : BindElems es ps → BindElems (none :: es) (none :: ps)
  | cons {e p es ps} : BindElem e p → BindElems es ps → BindElems (some (.expression e) :: es) (some p :: ps)

/-- The properties of an object. -/
inductive BindProps : List ObjectExpressionProperty → List ObjectPatternProperty → Prop
  | nil : BindProps [] []
  | rest {e b s} : BindPat e b → BindProps [.spreadElement e s] [.restElement b]
  | shorthand {k c kd m sh s es ps} : BindProps es ps →
      BindProps (.property k c none kd m sh s :: es) (.property k c none kd m sh :: ps)
  | pair {k c e v kd m sh s es ps} : BindValue e v → BindProps es ps →
      BindProps (.property k c (some (.expression e)) kd m sh s :: es) (.property k c (some v) kd m sh :: ps)

end

/-- A word that may begin an expression statement, if it begins an expression: not `{`, `function`, `class` or `let`.
(`async` is left out, see `AsyncStart`.) -/
def exprStart : Content → Bool
  | .punct p => decide (p ≠ .lBrace)
  | .name v => decide (v ∉ [cs!"function", cs!"class", cs!"let", cs!"async"])
  | _ => true

/-- The words begin with `async` and a name on the same line that is not `function`. -/
def AsyncStart (ws : List Word) : Prop :=
  ∃ n v ws', ws = W cs!"async" n :: W v false :: ws' ∧ v ≠ cs!"function"

/-- Property names that may be something else. -/
def modifiers : List Str := [cs!"get", cs!"set", cs!"async"]

/-! ### Phrases -/

set_option maxHeartbeats 1000000 in
set_option autoImplicit true in
mutual

/-- Primary expressions. -/
inductive Primary [Env] : Ctx → List Word → Node → Prop
  | this : Primary c [W cs!"this" n] (.thisExpression .invalid sp)
  | name : Ref c v → v ≠ cs!"async" → Primary c [W v n] (.identifier v (nameTarget c v) sp)
  | null : Primary c [W cs!"null" n] (.literal .null cs!"null" .invalid sp)
  | bool : v = cs!"true" ∨ v = cs!"false" → Primary c [W v n] (.literal (.str v) v .invalid sp)
  | number : Primary c [⟨.number x, n⟩] (.literal (.num x) (Env.showNum x) .invalid sp)
  -- giron: in a generator, 'yield' is not a string
  | string : (c.yld = true → v ≠ cs!"yield") → Primary c [⟨.string v o, n⟩] (.literal (.str v) v .invalid sp)
  | regexp : Primary c [⟨.regexp x f, n⟩] (.regexLiteral [] [] ⟨x, f⟩ .invalid sp)
  | template : Template c ws qs es → Primary c ws (.templateLiteral qs es .invalid sp)
  | array : Holes Elem c ws es → Primary c (P .lBracket n :: (ws ++ [P .rBracket m])) (.arrayExpression es .invalid sp)
  | object : CommasRest Prop' GenMethod c ws ps →
      Primary c (P .lBrace n :: (ws ++ [P .rBrace m])) (.objectExpression ps .invalid sp)
  | paren : Sep Assign { c with inn := true } ws es →
      Primary c (P .lParen n :: (ws ++ [P .rParen m])) (.sequenceExpression es (parenTarget es) sp)
  -- giron: `generator` is always false
  | function : Params c ws ps → Body { c with ret := true } ws' b →
      Primary c (W cs!"function" n :: (ws ++ ws')) (.functionExpression none ps b false false false .invalid sp)
  | functionNamed : Ref c v → Params c ws ps → Body { c with ret := true } ws' b →
      Primary c (W cs!"function" n :: W v m :: (ws ++ ws'))
        (.functionExpression (some (.identifier v (nameTarget c v) sp)) ps b false false false .invalid sp)
  -- giron: `await` is an operator in the body only if it is one outside
  | asyncFunction : Params c ws ps → Body { c with ret := true } ws' b →
      Primary c (W cs!"async" k :: W cs!"function" false :: (ws ++ ws'))
        (.functionExpression none ps b false false true .invalid sp)
  | asyncFunctionNamed : Ref c v → Params c ws ps → Body { c with ret := true } ws' b →
      Primary c (W cs!"async" k :: W cs!"function" false :: W v m :: (ws ++ ws'))
        (.functionExpression (some (.identifier v (nameTarget c v) sp)) ps b false false true .invalid sp)
  -- giron: a class expression is a `ClassDeclaration` node, and needs a name
  | class : Class { c with strict := true } ws t → Primary c (W cs!"class" n :: ws) t

/-- A template. -/
inductive Template [Env] : Ctx → List Word → List TemplateElement → List Node → Prop
  | whole : (c.yld = true → raw ≠ cs!"yield") →
      Template c [⟨.template raw cooked true true, n⟩] [⟨cooked, raw, true⟩] []
  | parts : (c.yld = true → raw ≠ cs!"yield") → Star Middle { c with inn := true } ws l →
      Expr { c with inn := true } ws' e →
      Template c (⟨.template raw cooked true false, n⟩ :: (ws ++ (ws' ++ [⟨.template raw' cooked' false true, m⟩])))
        (⟨cooked, raw, false⟩ :: (l.map Prod.snd ++ [⟨cooked', raw', true⟩])) (l.map Prod.fst ++ [e])

/-- A substitution and the chunk that follows it. -/
inductive Middle [Env] : Ctx → List Word → Node × TemplateElement → Prop
  | mk : Expr c ws e → Middle c (ws ++ [⟨.template raw cooked false false, n⟩]) (e, ⟨cooked, raw, false⟩)

/-- An element of an array literal. -/
inductive Elem [Env] : Ctx → List Word → ArrayExpressionElement → Prop
  | expr : Assign { c with inn := true } ws e → Elem c ws (.expression e)
  | spread : Assign { c with inn := true } ws e → Elem c (P .ellipsis n :: ws) (.spreadElement e sp)

/-- An argument of a call. -/
inductive Arg [Env] : Ctx → List Word → ArgumentListElement → Prop
  | expr : Assign { c with inn := true } ws e → Arg c ws (.expression e)
  | spread : Assign { c with inn := true } ws e → Arg c (P .ellipsis n :: ws) (.spreadElement e sp)

/-- The key of a property of an object literal before `next`.  (giron: `raw` of a string or number is the spelling of the
token after it.) -/
inductive Key [Env] : Ctx → Punctuator → List Word → PropertyKey → Bool → Prop
  | name : PropName v → Key c p [W v n] (.identifier ⟨v, sp⟩) false
  | string : Key c p [⟨.string v o, n⟩] (.literal ⟨.str v, p.toStr, sp⟩) false
  | number : Key c p [⟨.number x, n⟩] (.literal ⟨.num x, p.toStr, sp⟩) false
  | computed : Assign { c with inn := true } ws e →
      Key c p (P .lBracket n :: (ws ++ [P .rBracket m])) (.expression e) true

/-- A property of an object literal.  (giron: what follows the name `get`, `set` or `async` must be on the same line.) -/
inductive Prop' [Env] : Ctx → List Word → ObjectExpressionProperty → Prop
  | init : Key c .colon w k comp → (∀ v m, w = [W v m] → v ∈ modifiers → n = false) → Assign { c with inn := true } ws e →
      Prop' c (w ++ P .colon n :: ws) (.property k comp (some (.expression e)) cs!"init" false false sp)
  | shorthand : Ref c v → v ∉ modifiers →
      Prop' c [W v n] (.property (.identifier ⟨v, sp⟩) false none cs!"init" false true sp)
  | method : Key c .lParen w k comp → (∀ v m, w = [W v m] → v ∈ modifiers → (first ws (P .comma true)).nl = false) →
      Params { c with yld := false, awt := false } ws ps →
      Body { c with yld := false, awt := false, ret := true } ws' b →
      Prop' c (w ++ (ws ++ ws'))
        (.property k comp (some (.functionExpression (.mk none ps b false false false))) cs!"init" true false sp)
  | spread : Assign { c with inn := true } ws e → Prop' c (P .ellipsis n :: ws) (.spreadElement e sp)
  -- giron: the keys of these three are not computed
  | asyncMethod : Key c .lParen [⟨x, false⟩] k false → Params { c with yld := false, awt := true } ws ps →
      Body { c with yld := false, awt := true, ret := true } ws' b →
      Prop' c (W cs!"async" n :: ⟨x, false⟩ :: (ws ++ ws'))
        (.property k false (some (.asyncFunctionExpression (.mk none ps b false false true))) cs!"init" true false sp)
  | getter : Key c .lParen [⟨x, false⟩] k false → Body { c with yld := false, awt := false, ret := true } ws b →
      Prop' c (W cs!"get" n :: ⟨x, false⟩ :: P .lParen m :: P .rParen o :: ws)
        (.property k false (some (.functionExpression (.mk none [] b false false false))) cs!"get" true false sp)
  | setter : Key c .lParen [⟨x, false⟩] k false → Params { c with yld := false, awt := false } ws ps →
      Body { c with yld := false, awt := false, ret := true } ws' b →
      Prop' c (W cs!"set" n :: ⟨x, false⟩ :: (ws ++ ws'))
        (.property k false (some (.functionExpression (.mk none ps b false false false))) cs!"set" true false sp)

/-- A generator method.  (giron: the key is no string or number, and no comma may follow.) -/
inductive GenMethod [Env] : Ctx → List Word → ObjectExpressionProperty → Prop
  | mk : Key c .lParen w k comp → (∀ x m, w = [⟨x, m⟩] → ∃ v, x = .name v) → Params { c with yld := true, awt := false } ws ps →
      Body { c with yld := true, awt := false, ret := true } ws' b →
      GenMethod c (P .star n :: (w ++ (ws ++ ws')))
        (.property k comp (some (.functionExpression (.mk none ps b true false false))) cs!"init" true false sp)

/-- A step from an object to a member. -/
inductive Suffix [Env] : Ctx → Node → List Word → Node → Prop
  | dot : PropName v →
      Suffix c o [P .dot n, W v m] (.staticMemberExpression false o (.identifier v .invalid sp) .simple sp)
  | index : Expr { c with inn := true } ws e →
      Suffix c o (P .lBracket n :: (ws ++ [P .rBracket m])) (.computedMemberExpression true o e .simple sp)
  | tagged : Template c ws qs es → Suffix c o ws (.taggedTemplateExpression o qs es sp)

/-- Arguments in parentheses. -/
inductive Args [Env] : Ctx → List Word → List ArgumentListElement → Prop
  | mk : Commas Arg c ws l → Args c (P .lParen n :: (ws ++ [P .rParen m])) l

/-- A step from a callee to a call or a member. -/
inductive CallSuffix [Env] : Ctx → Node → List Word → Node → Prop
  | member : Suffix c o ws t → CallSuffix c o ws t
  | call : Args c ws l → CallSuffix c o ws (.callExpression o l .invalid sp)

/-- What a member expression begins with. -/
inductive Head [Env] : Ctx → List Word → Node → Prop
  | primary : Primary c ws t → Head c ws t
  | superDot : PropName v → Head c [W cs!"super" n, P .dot m, W v k]
      (.staticMemberExpression false (.super .simple sp) (.identifier v .invalid sp) .simple sp)
  | superIndex : Expr { c with inn := true } ws e →
      Head c (W cs!"super" n :: P .lBracket m :: (ws ++ [P .rBracket k]))
        (.computedMemberExpression true (.super .simple sp) e .simple sp)

/-- Left-hand-side expressions; `firm` if giron's stack of start positions is left with one more entry. -/
inductive LHS [Env] : Bool → Ctx → List Word → Node → Prop
  | mk : Head c w o → Many CallSuffix c o ws t → LHS true c (w ++ ws) t
  | superCall : Args c w l → Many CallSuffix c (.callExpression (.super .simple sp) l .invalid sp) ws t →
      LHS true c (W cs!"super" n :: (w ++ ws)) t
  | new : Head c w h → Many Suffix c h w' o → Args c w'' l → Many CallSuffix c (.newExpression o l .invalid sp) ws t →
      LHS false c (W cs!"new" n :: (w ++ (w' ++ (w'' ++ ws)))) t
  | newBare : Head c w h → Many Suffix c h w' o →
      LHS false c (W cs!"new" n :: (w ++ w')) (.newExpression o [] .invalid sp)
  -- giron: no member of `new.target` can be taken
  | newTarget : LHS true c [W cs!"new" n, P .dot m, W cs!"target" k]
      (.metaProperty (.identifier cs!"new" .invalid sp) (.identifier cs!"target" .invalid sp) .invalid sp)

/-- Update expressions. -/
inductive Update [Env] : Bool → Ctx → List Word → Node → Prop
  | lhs : LHS f c ws t → Update f c ws t
  | postfix : LHS true c ws t → t.assignTargetType = .simple → p = .inc ∨ p = .dec →
      Update false c (ws ++ [P p false]) (.updateExpression p.toStr t false .invalid sp)
  | prefix : p = .inc ∨ p = .dec → Unary f c ws t → t.assignTargetType = .simple →
      Update f c (P p n :: ws) (.updateExpression p.toStr t true .invalid sp)

/-- Unary expressions. -/
inductive Unary [Env] : Bool → Ctx → List Word → Node → Prop
  | update : Update f c ws t → Unary f c ws t
  | op : UnaryOp c o op → Unary f c ws t → Unary f c (⟨o, n⟩ :: ws) (.unaryExpression op t true .invalid sp)

/-- Exponentiation. -/
inductive Exp [Env] : Bool → Ctx → List Word → Node → Prop
  | unary : Unary f c ws t → Exp f c ws t
  | pow : Update f c w a → Exp g c ws b →
      Exp (f || g) c (w ++ P .pow n :: ws) (.binaryExpression cs!"**" a b .invalid sp)

/-- Binary expressions whose operators, outside parentheses, have precedence `p` at least.  `nested`: the expression is
the right operand of another one; then its own right operands have to be firm. -/
inductive Bin [Env] : Bool × Nat → Bool → Ctx → List Word → Node → Prop
  | operand : Exp f c ws t → Bin (nested, 12) f c ws t
  | chain : p < 12 → Bin (nested, p + 1) f c w a → Many BinStep (nested, p, c) a ws t → Bin (nested, p) f c (w ++ ws) t

/-- An operator and its right operand. -/
inductive BinStep [Env] : Bool × Nat × Ctx → Node → List Word → Node → Prop
  | mk : BinOp c o op p → Bin (true, p + 1) f c ws b → (nested = true → f = true) →
      BinStep (nested, p, c) a (⟨o, n⟩ :: ws) (.binaryExpression op a b .invalid sp)

/-- Conditional expressions. -/
inductive Cond [Env] : Ctx → List Word → Node → Prop
  | bin : Bin (false, 1) f c ws t → Cond c ws t
  | cond : Bin (false, 1) f c w a → Assign { c with inn := true } w' b → Assign c ws d →
      Cond c (w ++ P .question n :: (w' ++ P .colon m :: ws)) (.conditionalExpression a b d sp)

/-- Assignment expressions. -/
inductive Assign [Env] : Ctx → List Word → Node → Prop
  | cond : Cond c ws t → Assign c ws t
  | assign : LHS f c w a → a.assignTargetType = .simple → Assign c ws b →
      Assign c (w ++ P .assign n :: ws) (.assignmentExpression cs!"=" a b .invalid sp)
  | opAssign : LHS f c w a → a.assignTargetType = .simple → p ∈ assignPuncts → Assign c ws b →
      Assign c (w ++ P p n :: ws) (.assignmentExpression p.toStr a b .invalid sp)
  -- an array or object literal that can be read as a pattern
  | pattern : Primary c w a → AssignPat a a' → Assign c ws b →
      Assign c (w ++ P .assign n :: ws) (.assignmentExpression cs!"=" a' b .invalid sp)
  | arrow : Ref c v → v ≠ cs!"async" → ArrowBody { c with yld := false, awt := true } ws b e →
      Assign c (W v n :: P .fatArrow m :: ws)
        (.arrowFunctionExpression none [.bindingIdentifier v] b false e false .invalid sp)
  | arrowParen : CommasRest ArrowParam ParamRest c w ps → ArrowBody { c with yld := false, awt := true } ws b e →
      Assign c (P .lParen n :: (w ++ P .rParen m :: P .fatArrow k :: ws))
        (.arrowFunctionExpression none ps b false e false .invalid sp)
  | asyncArrow : Ref { c with awt := true } v → ArrowBody { c with yld := false, awt := true } ws b e →
      Assign c (W cs!"async" n :: W v false :: P .fatArrow false :: ws)
        (.asyncArrowFunctionExpression none [.bindingIdentifier v] b false e true .invalid sp)
  -- giron: the operand must be on the same line
  | yield : c.yld = true → Assign c ws t → (first ws (P .semicolon true)).nl = false →
      Assign c (W cs!"yield" n :: ws) (.yieldExpression (some t) false .invalid sp)
  | yieldAll : c.yld = true → Assign c ws t →
      Assign c (W cs!"yield" n :: P .star false :: ws) (.yieldExpression (some t) true .invalid sp)

/-- A parameter of an arrow function.  (giron: patterns have no initialiser.) -/
inductive ArrowParam [Env] : Ctx → List Word → FunctionParameter → Prop
  | name : Ref c v → v ≠ cs!"async" → ArrowParam c [W v n] (.bindingIdentifier v)
  | array : Primary { c with inn := true } ws a → BindPat a (.arrayPattern es sp) → ArrowParam c ws (.arrayPattern es)
  | object : Primary { c with inn := true } ws a → BindPat a (.objectPattern ps sp) → ArrowParam c ws (.objectPattern ps)
  | default : Ref c v → v ≠ cs!"async" → nameTarget c v = .simple → Assign { c with inn := true } ws e →
      ArrowParam c (W v n :: P .assign m :: ws) (.assignmentPattern (.bindingIdentifier v sp) e)

/-- The body of an arrow function.  (giron: `await` is an operator in it.) -/
inductive ArrowBody [Env] : Ctx → List Word → Node → Bool → Prop
  | expr : Assign c ws t → (∀ n ws', ws ≠ P .lBrace n :: ws') → ArrowBody c ws t true
  | block : Body { c with ret := true } ws t → ArrowBody c ws t false

/-- Expressions. -/
inductive Expr [Env] : Ctx → List Word → Node → Prop
  | assign : Assign c ws t → Expr c ws t
  | comma : Assign c w t → Sep Assign c ws ts →
      Expr c (w ++ P .comma n :: ws) (.sequenceExpression (t :: ts) .invalid sp)

/-- Bindings: names and patterns. -/
inductive Pat [Env] : Ctx → List Word → Binding → Prop
  | name : Bindable c v → Pat c [W v n] (.bindingIdentifier v sp)
  | array : HolesRest PatElem PatRest c ws es → Pat c (P .lBracket n :: (ws ++ [P .rBracket m])) (.arrayPattern es sp)
  | object : CommasRest PatProp PatPropRest c ws ps → Pat c (P .lBrace n :: (ws ++ [P .rBrace m])) (.objectPattern ps sp)

/-- An element of an array pattern. -/
inductive PatElem [Env] : Ctx → List Word → ArrayPatternElement → Prop
  | name : Bindable c v → PatElem c [W v n] (.bindingIdentifier v)
  | array : Pat c ws (.arrayPattern es sp) → PatElem c ws (.arrayPattern es)
  | object : Pat c ws (.objectPattern ps sp) → PatElem c ws (.objectPattern ps)
  | default : Pat c w b → Assign { c with inn := true } ws e → PatElem c (w ++ P .assign n :: ws) (.assignmentPattern b e)

/-- The rest of an array. -/
inductive PatRest [Env] : Ctx → List Word → ArrayPatternElement → Prop
  | mk : Pat c ws b → PatRest c (P .ellipsis n :: ws) (.restElement b)

/-- The key of a property of an object pattern.  (giron: a name becomes a `Literal`.) -/
inductive PatKey [Env] : Ctx → List Word → PropertyKey → Bool → Prop
  | name : PropName v → PatKey c [W v n] (.literal ⟨.str v, v, sp⟩) false
  | string : PatKey c [⟨.string v o, n⟩] (.literal ⟨.str v, v, sp⟩) false
  | number : PatKey c [⟨.number x, n⟩] (.literal ⟨.num x, Env.showNum x, sp⟩) false
  | computed : Assign { c with inn := true } ws e →
      PatKey c (P .lBracket n :: (ws ++ [P .rBracket m])) (.expression e) true

/-- The value of a property of an object pattern. -/
inductive PatValue [Env] : Ctx → List Word → PropertyValue → Prop
  | name : Bindable c v → PatValue c [W v n] (.bindingIdentifier v sp)
  | array : Pat c ws (.arrayPattern es sp) → PatValue c ws (.bindingPattern (.arrayPattern es))
  | object : Pat c ws (.objectPattern ps sp) → PatValue c ws (.bindingPattern (.objectPattern ps))
  | default : Pat c w b → Assign { c with inn := true } ws e →
      PatValue c (w ++ P .assign n :: ws) (.assignmentPattern b e)

/-- A property of an object pattern. -/
inductive PatProp [Env] : Ctx → List Word → ObjectPatternProperty → Prop
  | shorthand : PlainName v → PatProp c [W v n] (.property (.identifier ⟨v, sp⟩) false none cs!"init" false true)
  | shorthandDefault : PlainName v → Assign { c with inn := true } ws e →
      PatProp c (W v n :: P .assign m :: ws) (.property (.identifier ⟨v, sp⟩) false
        (some (.assignmentPattern (.bindingIdentifier v sp) e)) cs!"init" false true)
  | pair : PatKey c w k comp → PatValue c ws v →
      PatProp c (w ++ P .colon n :: ws) (.property k comp (some v) cs!"init" false false)

/-- The rest of an object. -/
inductive PatPropRest [Env] : Ctx → List Word → ObjectPatternProperty → Prop
  | mk : Pat c ws b → PatPropRest c (P .ellipsis n :: ws) (.restElement b)

/-- A parameter. -/
inductive Param [Env] : Ctx → List Word → FunctionParameter → Prop
  | name : Bindable c v → Param c [W v n] (.bindingIdentifier v)
  | array : Pat c ws (.arrayPattern es sp) → Param c ws (.arrayPattern es)
  | object : Pat c ws (.objectPattern ps sp) → Param c ws (.objectPattern ps)
  | default : Pat c w b → Assign { c with inn := true } ws e → Param c (w ++ P .assign n :: ws) (.assignmentPattern b e)

/-- A rest parameter. -/
inductive ParamRest [Env] : Ctx → List Word → FunctionParameter → Prop
  | mk : Pat c ws b → ParamRest c (P .ellipsis n :: ws) (.restElement b)

/-- Parameters in parentheses. -/
inductive Params [Env] : Ctx → List Word → List FunctionParameter → Prop
  | mk : CommasRest Param ParamRest c ws ps → Params c (P .lParen n :: (ws ++ [P .rParen m])) ps

/-- The body of a function. -/
inductive Body [Env] : Ctx → List Word → Node → Prop
  | mk : Prologue Expr c ws (first ws' (P .rBrace m)) c' ds → Items Item c' ws' (P .rBrace m) ts →
      (∀ v o k ws'', ws' ≠ ⟨.string v o, k⟩ :: ws'') →
      Body c (P .lBrace n :: (ws ++ (ws' ++ [P .rBrace m]))) (.blockStatement (ds ++ ts) sp)

/-- The key of a class member: a name or `[e]`. -/
inductive ClassKey [Env] : Ctx → List Word → Node → Bool → Prop
  | name : PropName v → ClassKey c [W v n] (.identifier v .invalid sp) false
  | computed : Assign { c with inn := true } ws e → ClassKey c (P .lBracket n :: (ws ++ [P .rBracket m])) e true

/-- A class member, or a lone semicolon.  (giron: a plain method cannot be called `get`, `set` or `async`; `static` is not
recognised.) -/
inductive Member [Env] : Ctx → List Word → Option MethodDefinition → Prop
  | semi : Member c [P .semicolon n] none
  | method : ClassKey c w k comp → (∀ v n, w = [W v n] → v ∉ [cs!"get", cs!"set", cs!"async"]) →
      Params { c with yld := false, awt := false } ws ps →
      Body { c with yld := false, awt := false, ret := true } ws' b →
      Member c (w ++ (ws ++ ws'))
        (some (.mk k comp (some (.mk none ps b false false false)) (if comp then cs!"method" else memberKind k) false))
  | generator : ClassKey c w k comp → Params { c with yld := true, awt := false } ws ps →
      Body { c with yld := true, awt := false, ret := true } ws' b →
      Member c (P .star n :: (w ++ (ws ++ ws'))) (some (.mk k comp (some (.mk none ps b true false false)) cs!"method" false))
  | getter : ClassKey c w k comp → Body { c with yld := false, awt := false, ret := true } ws b →
      Member c (W cs!"get" n :: (w ++ P .lParen m :: P .rParen o :: ws))
        (some (.mk k comp (some (.mk none [] b false false false)) cs!"get" false))
  | setter : ClassKey c w k comp → Params { c with yld := false, awt := false } ws ps →
      Body { c with yld := false, awt := false, ret := true } ws' b →
      Member c (W cs!"set" n :: (w ++ (ws ++ ws'))) (some (.mk k comp (some (.mk none ps b false false false)) cs!"set" false))

/-- `extends` and what follows it. -/
inductive Heritage [Env] : Ctx → List Word → Option Node → Prop
  | none : Heritage c [] none
  | extends : LHS true c ws t → Heritage c (W cs!"extends" n :: ws) (some t)

/-- A class after the keyword. -/
inductive Class [Env] : Ctx → List Word → Node → Prop
  | mk : Bindable c v → Heritage c w h → Star Member c ws ms →
      Class c (W v n :: (w ++ P .lBrace m :: (ws ++ [P .rBrace k])))
        (.classDeclaration (some (.bindingIdentifier v sp)) h (ms.filterMap id) sp)

/-- A declarator: patterns need an initialiser. -/
inductive Declarator [Env] : Ctx → List Word → VariableDeclarator → Prop
  | plain : Bindable c v → Declarator c [W v n] (.mk (.bindingIdentifier v sp) none)
  | init : Pat c w b → Assign c ws e → Declarator c (w ++ P .assign n :: ws) (.mk b (some e))

/-- A block. -/
inductive Block [Env] : Ctx → List Word → Node → Prop
  | mk : Items Item c ws (P .rBrace m) ts → Block c (P .lBrace n :: (ws ++ [P .rBrace m])) (.blockStatement ts sp)

/-- An expression or nothing. -/
inductive OptExpr [Env] : Ctx → List Word → Option Node → Prop
  | none : OptExpr c [] none
  | some : Expr { c with inn := true } ws e → OptExpr c ws (some e)

/-- The first part of the head of a `for` statement.  (giron: expressions are always made a `SequenceExpression`.) -/
inductive ForInit [Env] : Ctx → List Word → Option Node → Prop
  | none : ForInit c [] none
  | exprs : Assign { c with inn := false } ws e → exprStart (first ws (P .semicolon true)).c = true →
      ForInit c ws (some (.sequenceExpression [e] .invalid sp))
  | exprsMore : Assign { c with inn := false } w e → exprStart (first w (P .semicolon true)).c = true →
      Sep Assign { c with inn := true } ws es →
      ForInit c (w ++ P .comma n :: ws) (some (.sequenceExpression (e :: es) .invalid sp))
  | decl : kind ∈ varKinds → ForDeclarator c ws d → ForInit c (W kind n :: ws) (some (.variableDeclaration [d] kind sp))
  | decls : kind ∈ varKinds → ForDeclarator c w d → Sep Declarator { c with inn := true } ws ds →
      ForInit c (W kind n :: (w ++ P .comma m :: ws)) (some (.variableDeclaration (d :: ds) kind sp))

/-- The first declarator in the head of a `for` statement. -/
inductive ForDeclarator [Env] : Ctx → List Word → VariableDeclarator → Prop
  | plain : Bindable c v → ForDeclarator c [W v n] (.mk (.bindingIdentifier v sp) none)
  | init : Pat c w b → Assign { c with inn := false } ws e → ForDeclarator c (w ++ P .assign n :: ws) (.mk b (some e))

/-- The target of `for-in`.  (giron: a declaration is represented by its mere pattern.) -/
inductive ForTarget [Env] : Ctx → List Word → Node → Prop
  | expr : LHS f { c with inn := false } ws t → t.assignTargetType = .simple →
      exprStart (first ws (P .semicolon true)).c = true → ForTarget c ws t
  | decl : kind ∈ varKinds → Pat c ws b → b.toNode = .ok t → ForTarget c (W kind n :: ws) t

/-- A case of a `switch`. -/
inductive Case [Env] : Ctx → List Word → Word → SwitchCase → Prop
  | case : Expr { c with inn := true } w e → Items Item c ws nx ts →
      Case c (W cs!"case" n :: (w ++ P .colon m :: ws)) nx (.mk (some e) ts)
  | default : Items Item c ws nx ts → Case c (W cs!"default" n :: P .colon m :: ws) nx (.mk none ts)

/-- `catch` -/
inductive Catch [Env] : Ctx → List Word → CatchClause → Prop
  | plain : Block c ws b → Catch c (W cs!"catch" n :: ws) (.mk none b)
  | param : Pat c w p → Block c ws b →
      Catch c (W cs!"catch" n :: P .lParen m :: (w ++ P .rParen k :: ws)) (.mk (some p) b)

/-- Statements; the word is the one that follows. -/
inductive Stmt [Env] : Ctx → List Word → Word → Node → Prop
  | block : Block c ws t → Stmt c ws nx t
  | empty : Stmt c [P .semicolon n] nx (.emptyStatement sp)
  | var : Sep Declarator { c with inn := true } ws ds → ExprSemi semi nx →
      Stmt c (W cs!"var" n :: (ws ++ semi)) nx (.variableDeclaration ds cs!"var" sp)
  | expr : Expr { c with inn := true } ws e → exprStart (first ws nx).c = true ∨ AsyncStart ws → ExprSemi semi nx →
      Stmt c (ws ++ semi) nx (.expressionStatement e sp)
  | if : Expr { c with inn := true } w e → Stmt c ws nx t → nx.c ≠ .name cs!"else" →
      Stmt c (W cs!"if" n :: P .lParen m :: (w ++ P .rParen k :: ws)) nx (.ifStatement e t none sp)
  | ifElse : Expr { c with inn := true } w e → Stmt c ws (W cs!"else" l) t → Stmt c ws' nx t' →
      Stmt c (W cs!"if" n :: P .lParen m :: (w ++ P .rParen k :: (ws ++ W cs!"else" l :: ws'))) nx
        (.ifStatement e t (some t') sp)
  | while : Expr { c with inn := true } w e → Stmt { c with loop := true } ws nx t →
      Stmt c (W cs!"while" n :: P .lParen m :: (w ++ P .rParen k :: ws)) nx (.whileStatement e t sp)
  | doWhile : Stmt { c with loop := true } ws (W cs!"while" m) t → Expr { c with inn := true } w e → Semi semi nx →
      Stmt c (W cs!"do" n :: (ws ++ W cs!"while" m :: P .lParen k :: (w ++ P .rParen l :: semi))) nx
        (.doWhileStatement t e sp)
  | for : ForInit c w a → OptExpr c w' b → OptExpr c w'' d → Stmt { c with loop := true } ws nx t →
      Stmt c (W cs!"for" n :: P .lParen m :: (w ++ P .semicolon k :: (w' ++ P .semicolon l :: (w'' ++ P .rParen j :: ws))))
        nx (.forStatement a b d t sp)
  | forIn : ForTarget c w a → Expr { c with inn := true } w' e → Stmt { c with loop := true } ws nx t →
      Stmt c (W cs!"for" n :: P .lParen m :: (w ++ W cs!"in" k :: (w' ++ P .rParen l :: ws))) nx
        (.forInStatement a e t false sp)
  -- giron: only after `let` and `const`
  | forOf : kind = cs!"let" ∨ kind = cs!"const" → Pat c w b → b.toNode = .ok a → Assign { c with inn := true } w' e →
      Stmt { c with loop := true } ws nx t →
      Stmt c (W cs!"for" n :: P .lParen m :: W kind o :: (w ++ W cs!"of" k :: (w' ++ P .rParen l :: ws))) nx
        (.forOfStatement a e t sp)
  | switch : Expr { c with switch := true, inn := true } w e →
      Items Case { c with switch := true } ws (P .rBrace l) cs → CasesOk cs →
      Stmt c (W cs!"switch" n :: P .lParen m :: (w ++ P .rParen k :: P .lBrace j :: (ws ++ [P .rBrace l]))) nx
        (.switchStatement e cs sp)
  | continue : c.loop = true → Semi semi nx → (first semi nx).nl = true ∨ (∀ v, (first semi nx).c ≠ .name v) →
      Stmt c (W cs!"continue" n :: semi) nx (.continueStatement none sp)
  | continueLabel : Ref c v → ExprSemi semi nx →
      Stmt c (W cs!"continue" n :: W v false :: semi) nx (.continueStatement (some (.identifier v (nameTarget c v) sp)) sp)
  | break : c.loop = true ∨ c.switch = true → Semi semi nx →
      (first semi nx).nl = true ∨ (∀ v, (first semi nx).c ≠ .name v) →
      Stmt c (W cs!"break" n :: semi) nx (.breakStatement none sp)
  | breakLabel : Ref c v → ExprSemi semi nx →
      Stmt c (W cs!"break" n :: W v false :: semi) nx (.breakStatement (some (.identifier v (nameTarget c v) sp)) sp)
  -- giron: without operand, a semicolon or a new line must follow
  | return : c.ret = true → Semi semi nx → (first semi nx).nl = true ∨ (first semi nx).c = .punct .semicolon →
      Stmt c (W cs!"return" n :: semi) nx (.returnStatement none sp)
  | returnExpr : c.ret = true → Expr { c with inn := true } ws e → (first ws nx).nl = false → ExprSemi semi nx →
      Stmt c (W cs!"return" n :: (ws ++ semi)) nx (.returnStatement (some e) sp)
  | with : c.strict = false → Expr { c with inn := true } w e → Stmt c ws nx t →
      Stmt c (W cs!"with" n :: P .lParen m :: (w ++ P .rParen k :: ws)) nx (.withStatement e t sp)
  | throw : Expr { c with inn := true } ws e → (first ws nx).nl = false → ExprSemi semi nx →
      Stmt c (W cs!"throw" n :: (ws ++ semi)) nx (.throwStatement e sp)
  | tryCatch : Block c w b → Catch c ws h → nx.c ≠ .name cs!"finally" →
      Stmt c (W cs!"try" n :: (w ++ ws)) nx (.tryStatement b (some h) none sp)
  | tryFinally : Block c w b → Block c ws f →
      Stmt c (W cs!"try" n :: (w ++ W cs!"finally" m :: ws)) nx (.tryStatement b none (some f) sp)
  | tryCatchFinally : Block c w b → Catch c w' h → Block c ws f →
      Stmt c (W cs!"try" n :: (w ++ (w' ++ W cs!"finally" m :: ws))) nx (.tryStatement b (some h) (some f) sp)
  | debugger : Semi semi nx → Stmt c (W cs!"debugger" n :: semi) nx (.debuggerStatement sp)
  | label : Ref c v → exprStart (.name v) = true → Stmt c ws nx t →
      Stmt c (W v n :: P .colon m :: ws) nx (.labeledStatement ⟨v, sp⟩ t sp)
  | labelFunction : Ref c v → exprStart (.name v) = true → c.strict = false →
      Function { c with dflt := false } false ws t →
      Stmt c (W v n :: P .colon m :: ws) nx (.labeledStatement ⟨v, sp⟩ t sp)

/-- A function declaration. -/
inductive Function [Env] : Ctx → Bool → List Word → Node → Prop
  | mk : Bindable c v → Params { c with yld := false, awt := false } ws ps →
      Body { c with yld := false, awt := false, ret := true } ws' b →
      Function c g (W cs!"function" n :: W v m :: (ws ++ ws'))
        (.functionDeclaration (some (.bindingIdentifier v sp)) ps b false false false sp)
  | generator : Bindable c v → Params { c with yld := true, awt := false } ws ps →
      Body { c with yld := true, awt := false, ret := true } ws' b →
      Function c true (W cs!"function" n :: P .star k :: W v m :: (ws ++ ws'))
        (.functionDeclaration (some (.bindingIdentifier v sp)) ps b true false false sp)

/-- Statements and declarations; the word is the one that follows. -/
inductive Item [Env] : Ctx → List Word → Word → Node → Prop
  | stmt : Stmt c ws nx t → Item c ws nx t
  | function : Function { c with dflt := false } true ws t → Item c ws nx t
  | class : Class { c with dflt := false, strict := true } ws t → Item c (W cs!"class" n :: ws) nx t
  | lexical : kind = cs!"let" ∨ kind = cs!"const" → Sep Declarator { c with inn := true } ws ds → ExprSemi semi nx →
      Item c (W kind n :: (ws ++ semi)) nx (.variableDeclaration ds kind sp)

end

end Giron.Grammar

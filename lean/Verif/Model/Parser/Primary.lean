import Verif.Model.Parser.Class
/-
giron/src/parser/parser.rs: primary expressions.
-/
namespace Giron
namespace Parser
variable [Env]
open M

/-- parser.rs:3082-3090, 3101-3109: the template element of a consumed template token -/
def templateElementOf (t : Token) : PM TemplateElement := do
  let cooked ← unwrap .tokenFieldUnwrap t.cooked
  let tail ← unwrap .tokenFieldUnwrap t.tail
  pure ⟨cooked, t.value.toString, tail⟩

/-- parser.rs:3077-3095 `parse_template_head` -/
def parseTemplateHead : PM TemplateElement := do
  let t ← cur
  if t.tokentype = .template then
    if t.head = some true then do
      let t ← advance .div
      templateElementOf t
    else errorCurrent .unexpectedTemplateString
  else unexpectedCurrent

/-- parser.rs:3097-3112 `parse_template_element` -/
def parseTemplateElement : PM TemplateElement := do
  let t ← cur
  if t.tokentype = .template then do
    let t ← advance .div
    templateElementOf t
  else unexpectedCurrent

/-- parser.rs:3064-3069: the loop of `parse_template_literal` with a budget -/
def templateLoopF (r : Rec) : Nat → Bool → PM (List TemplateElement × List Node)
  | 0, _ => fail .fuel
  | n + 1, isTail =>
    if isTail then pure ([], [])
    else do
      let e ← withIn true (parseExpression r)
      let q ← parseTemplateElement
      let (qs, es) ← templateLoopF r n q.tail
      pure (q :: qs, e :: es)

/-- parser.rs:3055-3075 `parse_template_literal`, the parts -/
def parseTemplateParts (r : Rec) : PM (List TemplateElement × List Node × Span) := do
  startSpan
  let q ← parseTemplateHead
  let (qs, es) ← (fun s => templateLoopF r (s.size + 1) q.tail s)
  let span ← endSpan
  pure (q :: qs, es, span)

/-- parser.rs:3055-3075 `parse_template_literal` -/
def parseTemplateLiteral (r : Rec) : PM Node := do
  let (qs, es, span) ← parseTemplateParts r
  pure (.templateLiteral qs es .invalid span)

/-- parser.rs:2279-2299, 2336-2356: a tagged template.  The Rust matches the `TemplateLiteral` node just built
and rebuilds it (its `unreachable!` arm cannot be taken, since `parse_template_literal` builds no other node). -/
def parseTaggedTemplate (r : Rec) (tag : Node) : PM Node := do
  let (qs, es, span) ← parseTemplateParts r
  pure (.taggedTemplateExpression tag qs es span)

/-- parser.rs:3150-3192 `parse_function_expr`; `generator` compares a punctuator with a string (3173) and is
always false -/
def parseFunctionExpr (r : Rec) (async : Bool) : PM Node := do
  when (async = false) startSpan
  let _ ← consumeKw cs!"function"
  let t ← cur
  let generator := decide (t.tokentype = .punctuator) && t.matchesStr cs!"*"
  let id ← (
    if t.isP .lParen then pure none
    else do
      let n ← parseIdReference
      pure (some n))
  let params ← parseFormalParams r
  let body ← parseFunctionBody r
  let span ← endSpan
  pure (.functionExpression id params body generator false async .invalid span)

/-- parser.rs:2639-2659: one round of `parse_arguments` -/
def argument (r : Rec) : PM ArgumentListElement := do
  let t ← cur
  if t.isP .ellipsis then do
    startSpan
    let _ ← advance .regExp
    let argument ← withIn true r.assignmentExpr
    let span ← endSpan
    commaUnless .rParen
    pure (.spreadElement argument span)
  else do
    let expr ← withIn true r.assignmentExpr
    commaUnless .rParen
    pure (.expression expr)

/-- parser.rs:2627-2663 `parse_arguments` -/
def parseArguments (r : Rec) : PM (List ArgumentListElement) := do
  let _ ← consume .lParen
  let arguments ← untilPunc .rParen (argument r)
  let _ ← consume .rParen .div
  pure arguments

/-- parser.rs:2679-2699: one round of `parse_seq_or_arrow`; the flag is the assignment to `definitely_arrow` -/
def seqItem (r : Rec) : PM (Node × Bool) := do
  let t ← cur
  if t.isP .ellipsis then do
    startSpan
    let _ ← advance .regExp
    let argument ← r.bindingIdOrPat
    let span ← endSpan
    pure (.restElement argument span, true)
  else do
    let expr ← withIn true r.assignmentExpr
    let t ← cur
    if t.matchesPunc .rParen then pure (expr, false)
    else do
      let _ ← consume .comma
      let t ← cur
      pure (expr, t.matchesPunc .rParen)

/-- parser.rs:2743-2765: one parameter of `seq_to_arrow_params` -/
def nodeToParam (isLast : Bool) (expr : Node) : PM FunctionParameter := do
  let pat ← ofExcept (toBindingPattern expr)
  match pat with
  | .assignmentPattern left right _ => pure (.assignmentPattern left right)
  | .bindingIdentifier name _ => pure (.bindingIdentifier name)
  | .objectPattern properties _ _ => pure (.objectPattern properties)
  | .arrayPattern elements _ _ => pure (.arrayPattern elements)
  | .restElement argument _ =>
    if isLast then pure (.restElement argument) else errorCurrent .paramAfterRest
  | _ => errorCurrent .invalidDestructuringTarget

/-- parser.rs:2734-2770 `seq_to_arrow_params`; an element is last when no element follows -/
def seqToArrowParams : List Node → PM (List FunctionParameter)
  | [] => pure []
  | e :: es => do
    let p ← nodeToParam es.isEmpty e
    let ps ← seqToArrowParams es
    pure (p :: ps)

/-- parser.rs:2717-2732 `seq_to_arrow` -/
def seqToArrow (r : Rec) (seq : List Node) : PM Node := do
  let params ← seqToArrowParams seq
  let _ ← consume .fatArrow
  let (body, expression) ← parseArrowBody r
  let span ← endSpan
  pure (.arrowFunctionExpression none params body false expression false .invalid span)

/-- parser.rs:2701-2705: `assign_target_type` of a parenthesised expression -/
def parenAtt : List Node → ATT
  | [e] => e.assignTargetType
  | _ => .invalid

/-- parser.rs:2665-2715 `parse_seq_or_arrow` -/
def parseSeqOrArrow (r : Rec) : PM Node := do
  startSpan
  let _ ← consume .lParen
  let items ← untilPuncOrRest .rParen (seqItem r)
  let _ ← consume .rParen .div
  let expressions := items.map Prod.fst
  let t ← cur
  if items.any Prod.snd || t.matchesPunc .fatArrow then seqToArrow r expressions
  else do
    let span ← endSpan
    pure (.sequenceExpression expressions (parenAtt expressions) span)

/-- parser.rs:3682-3709: one round of `parse_array_lit_expr` -/
def arrayItem (r : Rec) : PM (Option ArrayExpressionElement) := do
  let t ← cur
  if t.isP .comma then do
    let _ ← advance .regExp
    pure none
  else if t.isP .ellipsis then do
    startSpan
    let _ ← advance .regExp
    let argument ← withIn true r.assignmentExpr
    commaUnless .rBracket
    let span ← endSpan
    pure (some (.spreadElement argument span))
  else do
    let element ← withIn true r.assignmentExpr
    commaUnless .rBracket
    pure (some (.expression element))

/-- parser.rs:3670-3719 `parse_array_lit_expr` -/
def parseArrayLitExpr (r : Rec) : PM Node := do
  startSpan
  let _ ← consume .lBracket
  let elements ← untilPunc .rBracket (arrayItem r)
  let _ ← consume .rBracket .div
  let span ← endSpan
  pure (.arrayExpression elements .invalid span)

/-- The three kinds of property definition (`kind: &'static str` is "init", "get" or "set"). -/
inductive PropKind | init | get | set
deriving DecidableEq

/-- The string stored in the tree. -/
def PropKind.str : PropKind → Str
  | .init => cs!"init"
  | .get => cs!"get"
  | .set => cs!"set"

/-- parser.rs:3547-3668 `parse_method_definition`; the arm for other kinds (3666) has no caller -/
def parseMethodDefinition (r : Rec) (key : PropertyKey) (kind : PropKind) (async generator computed : Bool) :
    PM ObjectExpressionProperty := do
  match kind with
  | .get => do
    let _ ← consume .lParen
    let _ ← consume .rParen
    let body ← withYieldAwait false false (parseFunctionBody r)
    let span ← endSpan
    pure (.property key computed (some (.functionExpression (.mk none [] body generator false async))) cs!"get"
      true false span)
  | .set => do
    let (params, body) ← parseParamsAndBody r false false
    let span ← endSpan
    pure (.property key computed (some (.functionExpression (.mk none params body generator false async)))
      cs!"set" true false span)
  | .init => do
    let (params, body) ← parseParamsAndBody r generator async
    let f := FnExpr.mk none params body generator false async
    let value := if async then PropertyValue.asyncFunctionExpression f else PropertyValue.functionExpression f
    let span ← endSpan
    pure (.property key computed (some value) cs!"init" true false span)

/-- `self.scanner.save_state(); let t = self.scanner.next(RegExp)?; self.scanner.restore_state(t)`
(parser.rs:564-584, 3327-3334, 3353-3360, 3379-3386): look at the next token -/
def peekToken : PM Token := do
  liftScanner Scanner.saveState
  let t ← liftScanner (Scanner.next .regExp)
  liftScanner (Scanner.restoreState t)
  pure t

/-- What the modifiers of a property definition (parser.rs:3323-3415) lead to: a finished method, or flags for
the rest of the definition. -/
inductive PropHead
  | done (p : ObjectExpressionProperty)
  | more (kind : PropKind) (async generator : Bool)

/-- parser.rs:3325-3350 `get` and 3351-3376 `set` -/
def accessorHead (r : Rec) (name : Str) (kind : PropKind) : PM PropHead := do
  let next ← peekToken
  if next.tokentype = .punctuator then pure (.more .init false false)
  else do
    startSpan
    let _ ← advance .regExp
    let span ← endSpan
    let t ← cur
    if t.matchesPunc .lParen then do
      let p ← parseMethodDefinition r (.identifier ⟨name, span⟩) .init false false false
      pure (.done p)
    else pure (.more kind false false)

/-- parser.rs:3377-3408 `async` -/
def asyncHead (r : Rec) : PM PropHead := do
  let next ← peekToken
  if next.tokentype = .punctuator then pure (.more .init false false)
  else do
    startSpan
    let _ ← advance .regExp
    let span ← endSpan
    let t ← cur
    let generator ← (
      if t.matchesPunc .star then do
        let _ ← advance .regExp
        pure true
      else pure false)
    let t ← cur
    if t.matchesPunc .lParen then do
      let p ← parseMethodDefinition r (.identifier ⟨cs!"async", span⟩) .init false generator false
      pure (.done p)
    else pure (.more .init true generator)

/-- parser.rs:3323-3415: the modifiers of a property definition -/
def propHead (r : Rec) : PM PropHead := do
  let t ← cur
  if t.isId cs!"get" then accessorHead r cs!"get" .get
  else if t.isId cs!"set" then accessorHead r cs!"set" .set
  else if t.isId cs!"async" then asyncHead r
  else if t.isP .star then do
    let _ ← advance .regExp
    let (key, computed) ← parsePropertyName r
    let p ← parseMethodDefinition r key .init false true computed
    pure (.done p)
  else pure (.more .init false false)

/-- parser.rs:3417-3441: the key of a property definition.  For a string or number, `raw` is taken from the
*following* token (3433). -/
def propKey (r : Rec) : PM (PropertyKey × Bool) := do
  let t ← cur
  if t.isIdOrKw then do
    startSpan
    let name ← parseIdName .div
    let span ← endSpan
    pure (.identifier ⟨name, span⟩, false)
  else if t.tokentype = .stringLiteral ∨ t.tokentype = .numericLiteral then do
    startSpan
    let t ← advance .regExp
    let t' ← cur
    let span ← endSpan
    pure (.literal ⟨t.value, t'.value.toString, span⟩, false)
  else if t.isP .lBracket then do
    let key ← parseComputedPropertyName r
    pure (key, true)
  else unexpectedCurrent

/-- parser.rs:3443-3491: what follows the key of a property definition -/
def propRest (r : Rec) (key : PropertyKey) (computed : Bool) (kind : PropKind) (async generator : Bool) :
    PM ObjectExpressionProperty := do
  let t ← cur
  if t.isP .colon then do
    let _ ← advance .regExp
    let value ← withIn true r.assignmentExpr
    let span ← endSpan
    pure (.property key computed (some (.expression value)) kind.str false false span)
  else if t.isP .assign then do
    let _ ← advance .regExp
    let value ← withIn true r.assignmentExpr
    let span ← endSpan
    pure (.property key computed (some (.expression value)) kind.str false true span)
  else if t.isP .lParen then parseMethodDefinition r key kind async generator computed
  else do
    let span ← endSpan
    pure (.property key computed none kind.str false true span)

/-- parser.rs:3305-3496: one round of `parse_object_lit_expr` -/
def objectItem (r : Rec) : PM ObjectExpressionProperty := do
  startSpan
  let t ← cur
  if t.matchesPunc .ellipsis then do
    let _ ← advance .regExp
    let argument ← withIn true r.assignmentExpr
    let span ← endSpan
    commaUnless .rBrace
    pure (.spreadElement argument span)
  else do
    match ← propHead r with
    | .done p => pure p
    | .more kind async generator => do
      let (key, computed) ← propKey r
      let property ← propRest r key computed kind async generator
      commaUnless .rBrace
      pure property

/-- parser.rs:3269-3506 `parse_object_lit_expr` -/
def parseObjectLitExpr (r : Rec) : PM Node := do
  startSpan
  let _ ← consume .lBrace
  let properties ← untilPunc .rBrace (objectItem r)
  let _ ← consume .rBrace
  let span ← endSpan
  pure (.objectExpression properties .invalid span)

/-- parser.rs:3741-3746: `Node::Identifier { name, .. } => name, _ => unreachable!()` -/
def identName : Node → PM Str
  | .identifier name _ _ => pure name
  | _ => panic (.unreachableArm 3745)

/-- parser.rs:3721-3766 `parse_async_primary_expr`.  After `;`, `.` and `[`, the Rust evaluates
`matches_punc("`")` (3731), whose `Punctuator::from` panics whenever the value of the token is a punctuator; hence
the arm for `(` (3732-3734, `parse_async_call_or_arrow`, 2558-2625) is dead code and is not modelled. -/
def parseAsyncPrimaryExpr (r : Rec) : PM Node := do
  startSpan
  let id ← parseIdReference
  let s ← get
  if s.hasLineTerminator = false then
    if s.current.isP .semicolon ∨ s.current.isP .dot ∨ s.current.isP .lBracket then pure id
    else if s.current.tokentype = .punctuator ∧ s.current.value.punc?.isSome then panic .invalidPunctuator
    else if s.current.isKw cs!"function" then parseFunctionExpr r true
    else do
      let n ← withAwait true parseIdReference
      let name ← identName n
      let s ← get
      if s.hasLineTerminator = false ∧ s.current.matchesPunc .fatArrow then do
        let _ ← advance .regExp
        let (body, expression) ← parseArrowBody r
        let span ← endSpan
        pure (.asyncArrowFunctionExpression none [.bindingIdentifier name] body false expression true .invalid span)
      else unexpectedCurrent
  else do
    let _ ← endSpan
    pure id

/-- parser.rs:2515-2528: numbers, strings, booleans and `null` -/
def isLiteralToken (t : Token) : Bool :=
  match t.tokentype with
  | .numericLiteral | .stringLiteral | .booleanLiteral | .nullLiteral => true
  | _ => false

/-- parser.rs:2515-2529: a literal -/
def parseLiteral : PM Node := do
  startSpan
  let t ← advance .div
  let span ← endSpan
  pure (.literal t.value t.value.toString .invalid span)

/-- parser.rs:2532-2545: a regular expression; `value` and `raw` are those of the *following* token (2536-2537) -/
def parseRegex : PM Node := do
  startSpan
  let t ← advance .div
  let t' ← cur
  let pattern ← unwrap .tokenFieldUnwrap t.pattern
  let flags ← unwrap .tokenFieldUnwrap t.flags
  let span ← endSpan
  pure (.regexLiteral t'.value.toString t'.value.toString ⟨pattern, flags⟩ .invalid span)

/-- parser.rs:2507-2513: `this` -/
def parseThis : PM Node := do
  startSpan
  let _ ← advance .div
  let span ← endSpan
  pure (.thisExpression .invalid span)

/-- parser.rs:2489-2556 `parse_primary_expr` -/
def parsePrimaryExpr (r : Rec) : PM Node := do
  let t ← cur
  if t.isKw cs!"function" then parseFunctionExpr r false
  else if t.isId cs!"async" then parseAsyncPrimaryExpr r
  else if t.isKw cs!"class" then parseClassExpr r
  else if t.isKw cs!"this" then parseThis
  else if t.isIdOrKw then parseIdReference
  else if isLiteralToken t then parseLiteral
  else if t.isP .lBracket then parseArrayLitExpr r
  else if t.isP .lBrace then parseObjectLitExpr r
  else if t.tokentype = .regularExpression then parseRegex
  else if t.tokentype = .template then parseTemplateLiteral r
  else if t.isP .lParen then parseSeqOrArrow r
  else unexpectedCurrent

end Parser
end Giron

import Verif.Model.Parser.Core
/-
giron/src/parser/parser.rs: identifiers, expressions with commas, directive prologues, function bodies.
-/
namespace Giron
namespace Parser
variable [Env]
open M

/-- parser.rs:3803-3805, 3853-3855: `if self.ctx.strict && self.current.is_strict_reserved_kw()` then
`error_current(UnexpectedStrictReserved)`; `is_strict_reserved_kw` panics on a number or `null` token -/
def strictReservedCheck : PM Unit := do
  let s ← get
  if s.ctx.strict then do
    let b ← unwrap .tokenNotStr s.current.isStrictReservedKw
    if b then errorCurrent .unexpectedStrictReserved else pure ()
  else pure ()

/-- `self.advance(goal)?.to_string()` -/
def advanceStr (goal : LexGoal) : PM Str := do
  let t ← advance goal
  unwrap .tokenNotStr t.toStr?

/-- parser.rs:3878-3887 `parse_id_name` -/
def parseIdName (goal : LexGoal) : PM Str := do
  let t ← cur
  if t.isIdOrKw then do
    let t ← advance goal
    unwrap .tokenFieldUnwrap t.value.string?
  else unexpectedCurrent

/-- parser.rs:3808-3812: `assign_target_type` of an identifier reference -/
def idAtt (strict : Bool) (name : Str) : ATT :=
  if strict && (name == cs!"eval" || name == cs!"arguments") then .strict else .simple

/-- parser.rs:3798-3847 `parse_id_reference` -/
def parseIdReference : PM Node := do
  startSpan
  strictReservedCheck
  let s ← get
  if s.current.tokentype = .identifier then do
    let name ← advanceStr .div
    let span ← endSpan
    pure (.identifier name (idAtt s.ctx.strict name) span)
  else if s.current.isKw cs!"yield" then
    if s.params.hasYield then errorCurrent .yieldInParameter
    else do
      let name ← advanceStr .div
      let span ← endSpan
      pure (.identifier name .simple span)
  else if s.current.isKw cs!"await" then
    if s.params.hasAwait then errorCurrent .awaitExpressionFormalParameter
    else do
      let name ← advanceStr .div
      let span ← endSpan
      pure (.identifier name .simple span)
  else unexpectedCurrent

/-- parser.rs:3849-3876 `parse_binding_id`; all three arms of the `match` build the same value -/
def parseBindingId : PM Binding := do
  startSpan
  strictReservedCheck
  let t ← cur
  if t.tokentype = .identifier ∨ t.isKw cs!"yield" ∨ t.isKw cs!"await" then do
    let name ← advanceStr .div
    let span ← endSpan
    pure (.bindingIdentifier name span)
  else unexpectedCurrent

/-- parser.rs:1921-1924: one round of the comma loop of `parse_expression` -/
def commaExpr (r : Rec) : PM Node := do
  let _ ← consume .comma
  r.assignmentExpr

/-- parser.rs:1910-1936 `parse_expression`.  The marker pushed by `start_span` is left on the stack when there is
no comma. -/
def parseExpression (r : Rec) : PM Node := do
  startSpan
  let expr ← r.assignmentExpr
  let t ← cur
  if t.matchesPunc .comma then do
    let more ← whilePunc .comma (commaExpr r)
    let expressions := expr :: more
    let att := if expressions.length = 1 then ATT.simple else ATT.invalid
    let span ← endSpan
    pure (.sequenceExpression expressions att span)
  else pure expr

/-- parser.rs:153-159: `Node::Literal { value, .. } if value == &Value::Str("use strict")` -/
def isUseStrictLiteral : Node → Bool
  | .literal value _ _ _ => decide (value = .str cs!"use strict")
  | _ => false

/-- parser.rs:151-166: one round of `parse_directive_prologues` -/
def parseDirective (r : Rec) : PM Node := do
  startSpan
  let expr ← parseExpression r
  when (isUseStrictLiteral expr = true) (modify fun s => { s with ctx := { s.ctx with strict := true } })
  consumeSemicolon
  let span ← endSpan
  pure (.expressionStatement expr span)

/-- parser.rs:146-170 `parse_directive_prologues` with a loop budget -/
def directiveProloguesF (r : Rec) : Nat → PM (List Node)
  | 0 => fail .fuel
  | n + 1 => do
    let t ← cur
    if t.tokentype = .stringLiteral then do
      let x ← parseDirective r
      let xs ← directiveProloguesF r n
      pure (x :: xs)
    else pure []

/-- parser.rs:146-170 `parse_directive_prologues` -/
def parseDirectivePrologues (r : Rec) : PM (List Node) := fun s => directiveProloguesF r (s.size + 1) s

/-- parser.rs:527-530 `parse_statement_list` -/
def parseStatementList (r : Rec) : PM (List Node) := untilPunc .rBrace r.stmtListItem

/-- parser.rs:1567-1583 `parse_function_body_block` -/
def parseFunctionBodyBlock (r : Rec) : PM Node := do
  startSpan
  let _ ← consume .lBrace
  let s0 ← get
  let prologues ← parseDirectivePrologues r
  let s1 ← get
  let statements ← parseStatementList r
  modify fun s => { s with ctx := { s.ctx with inIteration := s1.ctx.inIteration } }
  let _ ← consume .rBrace
  modify fun s => { s with ctx := { s.ctx with strict := s0.ctx.strict } }
  let span ← endSpan
  pure (.blockStatement (prologues ++ statements) span)

/-- parser.rs:1559-1565 `parse_function_body` -/
def parseFunctionBody (r : Rec) : PM Node := do
  let s0 ← get
  modify fun s => { s with ctx := { s.ctx with inFunction := true } }
  let body ← withReturn true (parseFunctionBodyBlock r)
  modify fun s => { s with ctx := { s.ctx with inFunction := s0.ctx.inFunction } }
  pure body

/-- parser.rs:3768-3796 `parse_arrow_body` -/
def parseArrowBody (r : Rec) : PM (Node × Bool) := do
  let t ← cur
  if t.isP .lBrace then do
    let body ← withYieldAwait false true (parseFunctionBody r)
    pure (body, false)
  else do
    let body ← withYieldAwait false true r.assignmentExpr
    pure (body, true)

/-- `if !self.current.matches_punc(close) { self.consume(",", RegExp)?; }`, which ends one round of most lists -/
def commaUnless (close : Punctuator) : PM Unit := do
  let t ← cur
  if t.matchesPunc close then pure ()
  else do
    let _ ← consume .comma
    pure ()

end Parser
end Giron

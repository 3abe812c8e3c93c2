import Verif.Model.Parser.Primary
/-
giron/src/parser/parser.rs: member and call expressions, operators, assignment.
-/
namespace Giron
namespace Parser
variable [Env]
open M

/-- parser.rs:2365-2378 `parse_computed_member_expr` -/
def parseComputedMemberExpr (r : Rec) (object : Node) : PM Node := do
  startSpan
  let _ ← consume .lBracket
  let property ← withIn true (parseExpression r)
  let span ← endSpan
  let _ ← consume .rBracket .div
  pure (.computedMemberExpression true object property .simple span)

/-- parser.rs:2380-2398 `parse_static_member_expr` -/
def parseStaticMemberExpr (object : Node) : PM Node := do
  startSpan
  let _ ← consume .dot
  startSpan
  let name ← parseIdName .div
  let idSpan ← endSpan
  let span ← endSpan
  pure (.staticMemberExpression false object (.identifier name .invalid idSpan) .simple span)

/-- parser.rs:2468-2487 `parse_super` -/
def parseSuper : PM Node := do
  startSpan
  let _ ← consumeKw cs!"super"
  let t ← cur
  if t.isP .lBracket ∨ t.isP .dot ∨ t.isP .lParen then do
    let span ← endSpan
    pure (.super .simple span)
  else unexpectedCurrent

/-- parser.rs:2330-2361: the loop of `parse_member_expr` with a budget -/
def memberLoopF (r : Rec) : Nat → Node → PM Node
  | 0, _ => fail .fuel
  | n + 1, expr => do
    let t ← cur
    if t.isP .lBracket then do
      let expr ← parseComputedMemberExpr r expr
      memberLoopF r n expr
    else if t.isP .dot then do
      let expr ← parseStaticMemberExpr expr
      memberLoopF r n expr
    else if t.tokentype = .template ∧ t.head = some true then do
      let expr ← parseTaggedTemplate r expr
      memberLoopF r n expr
    else pure expr

/-- parser.rs:2316-2329: what `parse_member_expr` starts with -/
def parseMemberHead (r : Rec) : PM Node := do
  let t ← cur
  if t.isKw cs!"super" then do
    let object ← parseSuper
    let t ← cur
    if t.isP .lBracket then parseComputedMemberExpr r object
    else if t.isP .dot then parseStaticMemberExpr object
    else unexpectedCurrent
  else parsePrimaryExpr r

/-- parser.rs:2307-2363 `parse_member_expr` -/
def parseMemberExpr (r : Rec) : PM Node := do
  let expr ← parseMemberHead r
  fun s => memberLoopF r (s.size + 1) expr s

/-- parser.rs:2264-2302: the loop of `parse_call_expr_tail` with a budget -/
def callLoopF (r : Rec) : Nat → Node → PM Node
  | 0, _ => fail .fuel
  | n + 1, callee => do
    let t ← cur
    if t.isP .lParen then do
      let arguments ← parseArguments r
      let span ← peekSpan
      callLoopF r n (.callExpression callee arguments .invalid span)
    else if t.isP .lBracket then do
      let callee ← parseComputedMemberExpr r callee
      callLoopF r n callee
    else if t.isP .dot then do
      let callee ← parseStaticMemberExpr callee
      callLoopF r n callee
    else if t.tokentype = .template ∧ t.head = some true then do
      let callee ← parseTaggedTemplate r callee
      callLoopF r n callee
    else pure callee

/-- parser.rs:2263-2305 `parse_call_expr_tail` -/
def parseCallExprTail (r : Rec) (callee : Node) : PM Node := do
  let callee ← (fun s => callLoopF r (s.size + 1) callee s)
  let _ ← endSpan
  pure callee

/-- parser.rs:2237-2259: what `parse_call_expr` starts with -/
def parseCallHead (r : Rec) : PM Node := do
  let t ← cur
  if t.isKw cs!"super" then do
    let object ← parseSuper
    let t ← cur
    if t.isP .lParen then do
      let arguments ← parseArguments r
      let span ← peekSpan
      pure (.callExpression object arguments .invalid span)
    else if t.isP .lBracket then parseComputedMemberExpr r object
    else if t.isP .dot then parseStaticMemberExpr object
    else unexpectedCurrent
  else parseMemberExpr r

/-- parser.rs:2231-2261 `parse_call_expr` -/
def parseCallExpr (r : Rec) : PM Node := do
  startSpan
  let callee ← parseCallHead r
  parseCallExprTail r callee

/-- parser.rs:2417-2440: `new.target`; both names carry the span taken after `new` -/
def parseNewTarget (newTok : Token) (span : Span) : PM Node := do
  let _ ← advance .regExp
  let t ← cur
  if t.isId cs!"target" then do
    let t ← advance .div
    let name ← unwrap .tokenFieldUnwrap t.value.string?
    let newName ← unwrap .tokenFieldUnwrap newTok.value.string?
    let span' ← endSpan
    pure (.metaProperty (.identifier newName .invalid span) (.identifier name .invalid span) .invalid span')
  else unexpectedCurrent

/-- parser.rs:2447-2463: `new` with a callee and optional arguments -/
def parseNewCallee (r : Rec) : PM Node := do
  let callee ← parseMemberExpr r
  let t ← cur
  let arguments ← (if t.isP .lParen then parseArguments r else pure [])
  let span ← endSpan
  parseCallExprTail r (.newExpression callee arguments .invalid span)

/-- parser.rs:2400-2466 `parse_new_expr` -/
def parseNewExpr (r : Rec) : PM Node := do
  startSpan
  let newTok ← consumeKw cs!"new"
  let span ← peekSpan
  let t ← cur
  if t.isP .dot then parseNewTarget newTok span
  else if t.isKw cs!"new" then do
    let callee ← r.newExpr
    let span ← endSpan
    pure (.newExpression callee [] .invalid span)
  else parseNewCallee r

/-- parser.rs:2223-2229 `parse_left_hand_side_expr` -/
def parseLeftHandSideExpr (r : Rec) : PM Node := do
  let t ← cur
  if t.isKw cs!"new" then parseNewExpr r else parseCallExpr r

/-- parser.rs:2179-2197: `++x` and `--x` -/
def parsePrefixUpdate (r : Rec) : PM Node := do
  startSpan
  let operator ← advanceStr .regExp
  let t ← cur
  let expr ← r.unaryExpr
  if expr.assignTargetType = .invalid ∨ expr.assignTargetType = .strict then
    fail (.err ⟨t.lineNum, t.col, .invalidLhsInPrefixOp⟩)
  else do
    let span ← endSpan
    pure (.updateExpression operator expr true .invalid span)

/-- parser.rs:2199-2219: an operand with optional postfix operator.  The marker pushed by `start_span` is left on
the stack when there is none. -/
def parsePostfix (r : Rec) : PM Node := do
  startSpan
  let t ← cur
  let expr ← parseLeftHandSideExpr r
  let s ← get
  if s.hasLineTerminator = false ∧ s.current.isUpdateOp then
    if expr.assignTargetType = .invalid ∨ expr.assignTargetType = .strict then
      fail (.err ⟨t.lineNum, t.col, .invalidLhsInPostfixOp⟩)
    else do
      let operator ← advanceStr .regExp
      let span ← endSpan
      pure (.updateExpression operator expr false .invalid span)
  else pure expr

/-- parser.rs:2177-2221 `parse_update_expr` -/
def parseUpdateExpr (r : Rec) : PM Node := do
  let t ← cur
  if t.isUpdateOp then parsePrefixUpdate r else parsePostfix r

/-- parser.rs:2161-2174 -/
def parseUnaryOp (r : Rec) : PM Node := do
  startSpan
  let operator ← advanceStr .regExp
  let argument ← r.unaryExpr
  let span ← endSpan
  pure (.unaryExpression operator argument true .invalid span)

/-- parser.rs:2148-2175 `parse_unary_expr` -/
def parseUnaryExpr (r : Rec) : PM Node := do
  let s ← get
  if s.current.tokentype = .punctuator ∨ s.current.tokentype = .keyword then do
    let b ← unwrap .tokenNotStr (s.current.isUnaryOp s.params.hasAwait)
    if b then parseUnaryOp r else parseUpdateExpr r
  else parseUpdateExpr r

/-- parser.rs:2126-2144: an operand with optional `**` -/
def parsePow (r : Rec) : PM Node := do
  startSpan
  let lhs ← parseUpdateExpr r
  let t ← cur
  if t.isP .pow then do
    let t ← consume .pow
    let operator ← unwrap .tokenNotStr t.toStr?
    let rhs ← r.exponentiationExpr
    let span ← endSpan
    pure (.binaryExpression operator lhs rhs .invalid span)
  else do
    let _ ← endSpan
    pure lhs

/-- parser.rs:2118-2146 `parse_exponentiation_expr` -/
def parseExponentiationExpr (r : Rec) : PM Node := do
  let s ← get
  let b ← unwrap .tokenNotStr (s.current.isUnaryOp s.params.hasAwait)
  if b then parseUnaryExpr r else parsePow r

/-- parser.rs:2100-2104: the inner loop of `precedence_climbing` with a budget -/
def climbInnerF (r : Rec) (opPrec : Nat) : Nat → Node → PM Node
  | 0, _ => fail .fuel
  | n + 1, rhs => do
    let s ← get
    if s.current.isBinOp ∧ s.current.precedence s.params.hasIn > opPrec then do
      let rhs ← r.precedenceClimbing rhs (s.current.precedence s.params.hasIn)
      climbInnerF r opPrec n rhs
    else pure rhs

/-- parser.rs:2097-2113: one round of the outer loop of `precedence_climbing` -/
def climbStep (r : Rec) (lhs : Node) : PM Node := do
  let op ← advance .regExp
  let rhs ← r.exponentiationExpr
  let s ← get
  let rhs ← (fun s' => climbInnerF r (op.precedence s.params.hasIn) (s'.size + 1) rhs s')
  let operator ← unwrap .tokenNotStr op.toStr?
  let span ← endSpan
  startSpan
  pure (.binaryExpression operator lhs rhs .invalid span)

/-- parser.rs:2097-2113: the outer loop of `precedence_climbing` with a budget -/
def climbF (r : Rec) (prec : Nat) : Nat → Node → PM Node
  | 0, _ => fail .fuel
  | n + 1, lhs => do
    let s ← get
    if s.current.isBinOp ∧ s.current.precedence s.params.hasIn ≥ prec then do
      let lhs ← climbStep r lhs
      climbF r prec n lhs
    else pure lhs

/-- parser.rs:2096-2116 `precedence_climbing` -/
def precedenceClimbing (r : Rec) (lhs : Node) (prec : Nat) : PM Node := do
  let res ← (fun s => climbF r prec (s.size + 1) lhs s)
  let _ ← endSpan
  pure res

/-- parser.rs:2088-2094 `parse_binary_expr` -/
def parseBinaryExpr (r : Rec) : PM Node := do
  startSpan
  let lhs ← parseExponentiationExpr r
  precedenceClimbing r lhs 1

/-- parser.rs:2063-2086 `parse_conditional_expr`.  The marker pushed by `start_span` is left on the stack when
there is no `?`. -/
def parseConditionalExpr (r : Rec) : PM Node := do
  startSpan
  let expr ← parseBinaryExpr r
  let t ← cur
  if t.matchesPunc .question then do
    let _ ← consume .question
    let consequent ← withIn true r.assignmentExpr
    let _ ← consume .colon
    let alternate ← r.assignmentExpr
    let span ← endSpan
    pure (.conditionalExpression expr consequent alternate span)
  else pure expr

/-- parser.rs:2047-2061 `parse_single_param_arrow_function_expr` -/
def parseSingleParamArrow (r : Rec) (name : Str) : PM Node := do
  let _ ← consume .fatArrow
  let (body, expression) ← parseArrowBody r
  let span ← endSpan
  pure (.arrowFunctionExpression none [.bindingIdentifier name] body false expression false .invalid span)

/-- parser.rs:2000-2045 `parse_yield_expr` -/
def parseYieldExpr (r : Rec) : PM Node := do
  startSpan
  let _ ← consumeKw cs!"yield"
  let s ← get
  if s.hasLineTerminator = false then
    if s.current.isP .star then do
      let _ ← advance .regExp
      let argument ← withYield true r.assignmentExpr
      let span ← endSpan
      pure (.yieldExpression (some argument) true .invalid span)
    else if s.current.isP .fatArrow then parseSingleParamArrow r cs!"yield"
    else do
      let argument ← withYield true r.assignmentExpr
      let span ← endSpan
      pure (.yieldExpression (some argument) false .invalid span)
  else do
    let span ← endSpan
    pure (.yieldExpression none false .invalid span)

/-- parser.rs:1953-1960: an identifier followed by `=>` is an arrow function -/
def arrowIfIdentifier (r : Rec) (lhs : Node) : PM Node :=
  match lhs with
  | .identifier name _ _ => do
    let t ← cur
    if t.isP .fatArrow then parseSingleParamArrow r name else pure lhs
  | _ => pure lhs

/-- parser.rs:1962-1977: plain assignment -/
def parseAssignTail (r : Rec) (lhs : Node) : PM Node := do
  let t ← advance .regExp
  let lhs ← ofExcept (toAssignmentPattern lhs)
  if lhs.assignTargetType ≠ .simple then error t .invalidLhsInAssignment
  else do
    let rhs ← r.assignmentExpr
    let span ← endSpan
    pure (.assignmentExpression cs!"=" lhs rhs .invalid span)

/-- parser.rs:1978-1992: compound assignment -/
def parseOpAssignTail (r : Rec) (lhs : Node) : PM Node := do
  let t ← advance .regExp
  let p ← unwrap .tokenFieldUnwrap t.value.punc?
  if lhs.assignTargetType ≠ .simple then error t .invalidLhsInAssignment
  else do
    let rhs ← r.assignmentExpr
    let span ← endSpan
    pure (.assignmentExpression p.toStr lhs rhs .invalid span)

/-- parser.rs:1938-1998 `parse_assignment_expr` -/
def parseAssignmentExpr (r : Rec) : PM Node := do
  let s ← get
  if s.params.hasYield && s.current.matchesStr cs!"yield" then parseYieldExpr r
  else do
    startSpan
    let lhs ← parseConditionalExpr r
    let lhs ← arrowIfIdentifier r lhs
    let t ← cur
    if t.isP .assign then parseAssignTail r lhs
    else if t.tokentype = .punctuator ∧ t.isAssignOp then parseOpAssignTail r lhs
    else do
      let _ ← endSpan
      pure lhs

end Parser
end Giron

import Verif.Model.Parser.Expr
/-
giron/src/parser/parser.rs: statements and declarations.
-/
namespace Giron
namespace Parser
variable [Env]
open M

/-- parser.rs:657-671 `parse_block_stmt` -/
def parseBlockStmt (r : Rec) : PM Node := do
  startSpan
  let _ ← consume .lBrace
  let body ← parseStatementList r
  let _ ← consume .rBrace
  let span ← endSpan
  pure (.blockStatement body span)

/-- parser.rs:703-720 `parse_variable_dclr` -/
def parseVariableDclr (r : Rec) : PM VariableDeclarator := do
  let id ← r.bindingIdOrPat
  let t ← cur
  if t.isP .assign then do
    let _ ← advance .regExp
    let init ← r.assignmentExpr
    pure (.mk id (some init))
  else
    match id with
    | .bindingIdentifier _ _ => pure (.mk id none)
    | _ => do
      let t ← advance .regExp
      error t .missingInitializer

/-- parser.rs:690-693, 1892-1895: one round of the comma loop of a declaration list -/
def commaDclr (r : Rec) : PM VariableDeclarator := do
  let _ ← consume .comma
  parseVariableDclr r

/-- parser.rs:686-694: `save_params; has_in = true; ...; restore_params` around the list -/
def parseVarList (r : Rec) : PM (List VariableDeclarator) := do
  let d ← parseVariableDclr r
  let ds ← whilePunc .comma (commaDclr r)
  pure (d :: ds)

/-- parser.rs:673-701 `parse_variable_stmt`; both callers pass `consume_var = true` -/
def parseVariableStmt (r : Rec) : PM Node := do
  startSpan
  let _ ← consumeKw cs!"var"
  let declarations ← withIn true (parseVarList r)
  consumeSemicolon
  let span ← endSpan
  pure (.variableDeclaration declarations cs!"var" span)

/-- parser.rs:1874-1903 `parse_lexical_dclr` -/
def parseLexicalDclr (r : Rec) : PM Node := do
  startSpan
  let t ← cur
  let kind ← (
    if t.tokentype = .identifier then do
      let _ ← consumeId cs!"let"
      pure cs!"let"
    else if t.tokentype = .keyword then do
      let _ ← consumeKw cs!"const"
      pure cs!"const"
    else unexpectedCurrent)
  let declarations ← parseVarList r
  consumeSemicolon
  let span ← endSpan
  pure (.variableDeclaration declarations kind span)

/-- parser.rs:722-729 `parse_empty_stmt` -/
def parseEmptyStmt : PM Node := do
  startSpan
  let _ ← consume .semicolon
  let span ← endSpan
  pure (.emptyStatement span)

/-- parser.rs:731-736 `parse_expression_stmt` -/
def parseExpressionStmt (expression : Node) : PM Node := do
  let span ← endSpan
  consumeSemicolon
  pure (.expressionStatement expression span)

/-- parser.rs:755-760: `else` -/
def parseElse (r : Rec) : PM (Option Node) := do
  let t ← cur
  if t.isKw cs!"else" then do
    let _ ← advance .regExp
    let n ← r.statement
    pure (some n)
  else pure none

/-- parser.rs:738-768 `parse_if_stmt` -/
def parseIfStmt (r : Rec) : PM Node := do
  startSpan
  let _ ← consumeKw cs!"if"
  let _ ← consume .lParen
  let test ← withIn true (parseExpression r)
  let _ ← consume .rParen
  let consequent ← r.statement
  let alternate ← parseElse r
  let span ← endSpan
  pure (.ifStatement test consequent alternate span)

/-- parser.rs:1044-1047, 1069-1072, 1092-1095, 1116-1119, 1134-1137: the body of a loop, with `in_iteration` set -/
def parseLoopBody (r : Rec) : PM Node := do
  let s0 ← get
  modify fun s => { s with ctx := { s.ctx with inIteration := true } }
  let body ← r.statement
  modify fun s => { s with ctx := { s.ctx with inIteration := s0.ctx.inIteration } }
  pure body

/-- parser.rs:1036-1039, 1041-1044: an optional expression before `close` -/
def optExpr (r : Rec) (close : Punctuator) : PM (Option Node) := do
  let t ← cur
  if t.isP close then pure none
  else do
    let e ← withIn true (parseExpression r)
    pure (some e)

/-- parser.rs:1025-1057 `parse_for_classic_stmt` -/
def parseForClassic (r : Rec) (init : Option Node) : PM Node := do
  let _ ← consume .semicolon
  let test ← optExpr r .semicolon
  let _ ← consume .semicolon
  let update ← optExpr r .rParen
  let _ ← consume .rParen
  let body ← parseLoopBody r
  let span ← endSpan
  pure (.forStatement init test update body span)

/-- parser.rs:1059-1081 `parse_for_in_stmt` -/
def parseForIn (r : Rec) (left : Node) : PM Node := do
  let _ ← consumeKw cs!"in"
  let right ← withIn true (parseExpression r)
  let _ ← consume .rParen
  let body ← parseLoopBody r
  let span ← endSpan
  pure (.forInStatement left right body false span)

/-- parser.rs:1083-1104 `parse_for_of_stmt` -/
def parseForOf (r : Rec) (left : Node) : PM Node := do
  let _ ← consumeId cs!"of"
  let right ← withIn true r.assignmentExpr
  let _ ← consume .rParen
  let body ← parseLoopBody r
  let span ← endSpan
  pure (.forOfStatement left right body span)

/-- parser.rs:829-837, 861-868, 915-922, 946-953: one round of the comma loop in a `for` head -/
def forCommaDclr (r : Rec) : PM VariableDeclarator := do
  let _ ← consume .comma
  withIn true (parseVariableDclr r)

/-- parser.rs:827-843, 859-874, 913-928, 944-959: the rest of a classic `for` whose first declarator has been read -/
def parseForDclrs (r : Rec) (kind : Str) (d : VariableDeclarator) : PM Node := do
  let ds ← whilePunc .comma (forCommaDclr r)
  let span ← endSpan
  parseForClassic r (some (.variableDeclaration (d :: ds) kind span))

/-- parser.rs:824-843, 911-929: `for (var x = ...` -/
def parseForInit (r : Rec) (kind : Str) (id : Binding) : PM Node := do
  let _ ← advance .regExp
  let init ← withIn false r.assignmentExpr
  parseForDclrs r kind (.mk id (some init))

/-- parser.rs:820-881: `for (var`.  The keyword test for "of" (845) never succeeds, `of` being an identifier. -/
def parseForVar (r : Rec) : PM Node := do
  startSpan
  let _ ← advance .regExp
  let id ← r.bindingIdOrPat
  let t ← cur
  if t.isP .assign then parseForInit r cs!"var" id
  else if t.isKw cs!"of" then do
    let left ← ofExcept id.toNode
    parseForOf r left
  else if t.isKw cs!"in" then do
    let left ← ofExcept id.toNode
    parseForIn r left
  else
    match id with
    | .bindingIdentifier _ _ => parseForDclrs r cs!"var" (.mk id none)
    | _ => errorCurrent .missingInitializer

/-- parser.rs:900-904: `let` or `const` -/
def parseForKind : PM Str := do
  let t ← cur
  if t.isKw cs!"const" then pure cs!"const"
  else if t.isId cs!"let" then pure cs!"let"
  else unexpectedCurrent

/-- parser.rs:882-967: `for (let` and `for (const` -/
def parseForLexical (r : Rec) : PM Node := do
  startSpan
  let kind ← parseForKind
  let _ ← advance .regExp
  let t0 ← cur
  let id ← r.bindingIdOrPat
  let t ← cur
  if t.isP .assign then parseForInit r kind id
  else if t.isKw cs!"in" then do
    let left ← ofExcept id.toNode
    parseForIn r left
  else if t.isId cs!"of" then do
    let left ← ofExcept id.toNode
    parseForOf r left
  else
    match id with
    | .bindingIdentifier _ _ => parseForDclrs r kind (.mk id none)
    | _ => fail (.err ⟨t0.lineNum, t0.col, .missingInitializer⟩)

/-- parser.rs:985-990, 1000-1005: object and array literals become patterns, other expressions stay -/
def forTarget (expr : Node) : Except Fail Node :=
  match expr with
  | .objectExpression .. => toAssignmentPattern expr
  | .arrayExpression .. => toAssignmentPattern expr
  | _ => .ok expr

/-- parser.rs:983-996, 998-1011: the target of `for (expr in` / `for (expr of` -/
def parseForTarget (expr : Node) : PM Node := do
  let _ ← endSpan
  let expr ← ofExcept (forTarget expr)
  if expr.assignTargetType ≠ .simple then do
    let t ← advance .regExp
    error t .invalidLhsInFor
  else pure expr

/-- parser.rs:1015-1018: one round of the comma loop of a `for` head without declaration -/
def forCommaExpr (r : Rec) : PM Node := do
  let _ ← consume .comma
  withIn true r.assignmentExpr

/-- parser.rs:968-1021: `for (` without declaration -/
def parseForExpr (r : Rec) : PM Node := do
  startSpan
  let t ← cur
  if t.isP .semicolon then parseForClassic r none
  else do
    let expr ← withIn false r.assignmentExpr
    let t ← cur
    if t.isKw cs!"in" then do
      let expr ← parseForTarget expr
      parseForIn r expr
    else if t.isKw cs!"of" then do
      let expr ← parseForTarget expr
      parseForOf r expr
    else do
      let more ← whilePunc .comma (forCommaExpr r)
      let span ← endSpan
      parseForClassic r (some (.sequenceExpression (expr :: more) .invalid span))

/-- parser.rs:780-1023 `parse_for_stmt` -/
def parseForStmt (r : Rec) : PM Node := do
  startSpan
  let _ ← consumeKw cs!"for"
  let _ ← consume .lParen
  let t ← cur
  if t.isKw cs!"var" then parseForVar r
  else if t.isIdOrKw ∧ t.isLexicalDclrKw then parseForLexical r
  else parseForExpr r

/-- parser.rs:1106-1124 `parse_while_stmt` -/
def parseWhileStmt (r : Rec) : PM Node := do
  startSpan
  let _ ← consumeKw cs!"while"
  let _ ← consume .lParen
  let test ← withIn true (parseExpression r)
  let _ ← consume .rParen
  let body ← parseLoopBody r
  let span ← endSpan
  pure (.whileStatement test body span)

/-- parser.rs:1126-1150 `parse_do_while_stmt` -/
def parseDoWhileStmt (r : Rec) : PM Node := do
  startSpan
  let _ ← consumeKw cs!"do"
  let body ← parseLoopBody r
  let _ ← consumeKw cs!"while"
  let _ ← consume .lParen
  let test ← withIn true (parseExpression r)
  let _ ← consume .rParen
  consumeSemicolon
  let span ← endSpan
  pure (.doWhileStatement body test span)

/-- parser.rs:770-778 `parse_iteration_stmt` -/
def parseIterationStmt (r : Rec) : PM Node := do
  let t ← cur
  if t.isKw cs!"for" then parseForStmt r
  else if t.isKw cs!"while" then parseWhileStmt r
  else if t.isKw cs!"do" then parseDoWhileStmt r
  else panic (.unreachableArm 776)

/-- parser.rs:1213-1224 `parse_switch_case_consequent` with a loop budget -/
def consequentF (r : Rec) : Nat → PM (List Node)
  | 0 => fail .fuel
  | n + 1 => do
    let t ← cur
    if t.isP .rBrace ∨ t.isKw cs!"case" ∨ t.isKw cs!"default" then pure []
    else do
      let x ← r.stmtListItem
      let xs ← consequentF r n
      pure (x :: xs)

/-- parser.rs:1213-1224 `parse_switch_case_consequent` -/
def parseConsequent (r : Rec) : PM (List Node) := fun s => consequentF r (s.size + 1) s

/-- parser.rs:1179-1194: `case e` / `default`; the flag is the new value of `first_default` -/
def parseCaseTest (r : Rec) (firstDefault : Bool) : PM (Option Node × Bool) := do
  let t ← cur
  if t.isKw cs!"case" then do
    let _ ← advance .regExp
    let e ← withIn true (parseExpression r)
    pure (some e, firstDefault)
  else if t.isKw cs!"default" ∧ firstDefault = true then do
    let _ ← advance .regExp
    pure (none, false)
  else if t.isKw cs!"default" then errorCurrent .multipleDefaultsInSwitch
  else unexpectedCurrent

/-- parser.rs:1178-1202: the loop of `parse_switch_stmt` with a budget -/
def casesF (r : Rec) : Nat → Bool → PM (List SwitchCase)
  | 0, _ => fail .fuel
  | n + 1, firstDefault => do
    let (test, firstDefault) ← parseCaseTest r firstDefault
    let _ ← consume .colon
    let consequent ← parseConsequent r
    let t ← cur
    if t.isP .rBrace then pure [.mk test consequent]
    else do
      let more ← casesF r n firstDefault
      pure (.mk test consequent :: more)

/-- parser.rs:1171-1203: the part of `parse_switch_stmt` under `in_switch` -/
def parseSwitchInner (r : Rec) : PM (Node × List SwitchCase) := do
  let _ ← consume .lParen
  let discriminant ← withIn true (parseExpression r)
  let _ ← consume .rParen
  let _ ← consume .lBrace
  let cases ← (fun s => casesF r (s.size + 1) true s)
  let _ ← consume .rBrace
  pure (discriminant, cases)

/-- parser.rs:1152-1211 `parse_switch_stmt` -/
def parseSwitchStmt (r : Rec) : PM Node := do
  startSpan
  let _ ← consumeKw cs!"switch"
  let s0 ← get
  modify fun s => { s with ctx := { s.ctx with inSwitch := true } }
  let (discriminant, cases) ← parseSwitchInner r
  modify fun s => { s with ctx := { s.ctx with inSwitch := s0.ctx.inSwitch } }
  let span ← endSpan
  pure (.switchStatement discriminant cases span)

/-- parser.rs:1233-1238, 1258-1263: an optional label -/
def parseLabelOpt : PM (Option Node) := do
  let s ← get
  if s.current.isIdOrKw ∧ s.hasLineTerminator = false then do
    let n ← parseIdReference
    pure (some n)
  else pure none

/-- parser.rs:1226-1250 `parse_continue_stmt` -/
def parseContinueStmt : PM Node := do
  startSpan
  let _ ← consumeKw cs!"continue"
  let label ← parseLabelOpt
  let s ← get
  if label.isNone ∧ s.ctx.inIteration = false then errorCurrent .noIterationStatement
  else do
    consumeSemicolon
    let span ← endSpan
    pure (.continueStatement label span)

/-- parser.rs:1252-1276 `parse_break_stmt` -/
def parseBreakStmt : PM Node := do
  startSpan
  let _ ← consumeKw cs!"break"
  let label ← parseLabelOpt
  let s ← get
  if label.isNone ∧ s.ctx.inIteration = false ∧ s.ctx.inSwitch = false then errorCurrent .illegalBreak
  else do
    consumeSemicolon
    let span ← endSpan
    pure (.breakStatement label span)

/-- parser.rs:1285-1291: the argument of `return` -/
def parseReturnArg (r : Rec) : PM (Option Node) := do
  let s ← get
  if s.current.isP .semicolon then pure none
  else if s.hasLineTerminator = false then do
    let e ← withIn true (parseExpression r)
    pure (some e)
  else pure none

/-- parser.rs:1278-1297 `parse_return_stmt` -/
def parseReturnStmt (r : Rec) : PM Node := do
  startSpan
  let _ ← consumeKw cs!"return"
  let argument ← parseReturnArg r
  consumeSemicolon
  let span ← endSpan
  pure (.returnStatement argument span)

/-- parser.rs:546-553, 622-629: `return` as a statement -/
def parseReturn (r : Rec) : PM Node := do
  let s ← get
  if s.params.hasReturn then parseReturnStmt r
  else do
    let t ← advance .regExp
    error t .illegalReturn

/-- parser.rs:1299-1317 `parse_with_stmt` -/
def parseWithStmt (r : Rec) : PM Node := do
  let s ← get
  if s.ctx.strict then errorCurrent .strictWith
  else do
    startSpan
    let _ ← consumeKw cs!"with"
    let _ ← consume .lParen
    let object ← withIn true (parseExpression r)
    let _ ← consume .rParen
    let body ← r.statement
    let span ← endSpan
    pure (.withStatement object body span)

/-- parser.rs:1357-1373 `parse_throw_stmt` -/
def parseThrowStmt (r : Rec) : PM Node := do
  startSpan
  let _ ← consumeKw cs!"throw"
  let s ← get
  if s.hasLineTerminator = false then do
    let argument ← withIn true (parseExpression r)
    consumeSemicolon
    let span ← endSpan
    pure (.throwStatement argument span)
  else errorCurrent .newlineAfterThrow

/-- parser.rs:1408-1416: the parameter of `catch` -/
def parseCatchParam (r : Rec) : PM (Option Binding) := do
  let t ← cur
  if t.isP .lParen then do
    let _ ← advance .regExp
    let binding ← r.bindingIdOrPat
    let _ ← consume .rParen
    pure (some binding)
  else pure none

/-- parser.rs:1404-1423 `parse_catch_clause` -/
def parseCatchClause (r : Rec) : PM (Option CatchClause) := do
  let t ← cur
  if t.isKw cs!"catch" then do
    let _ ← advance .regExp
    let param ← parseCatchParam r
    let body ← parseBlockStmt r
    pure (some (.mk param body))
  else if t.isKw cs!"finally" then pure none
  else unexpectedCurrent

/-- parser.rs:1425-1435 `parse_finally_clause` -/
def parseFinallyClause (r : Rec) : PM (Option Node) := do
  let t ← cur
  if t.isKw cs!"finally" then do
    let _ ← advance .regExp
    let n ← parseBlockStmt r
    pure (some n)
  else pure none

/-- parser.rs:1375-1402 `parse_try_stmt` -/
def parseTryStmt (r : Rec) : PM Node := do
  startSpan
  let _ ← consumeKw cs!"try"
  let block ← parseBlockStmt r
  let handler ← parseCatchClause r
  let finalizer ← parseFinallyClause r
  let span ← endSpan
  pure (.tryStatement block handler finalizer span)

/-- parser.rs:1437-1445 `parse_debugger_stmt` -/
def parseDebuggerStmt : PM Node := do
  startSpan
  let _ ← consumeKw cs!"debugger"
  consumeSemicolon
  let span ← endSpan
  pure (.debuggerStatement span)

/-- parser.rs:1502-1511: `*` in a function declaration -/
def parseGeneratorMark (allowGenerator : Bool) : PM Bool := do
  let t ← cur
  if t.isP .star then
    if allowGenerator = false then errorCurrent .generatorInSingleStatementContext
    else do
      let _ ← advance .regExp
      pure true
  else pure false

/-- parser.rs:1512-1527: the name of a function declaration.  (`parse_binding_id` returns no other binding than a
`BindingIdentifier`; the Rust has `unexpected_current` for the others.) -/
def parseFunctionName : PM (Option Node) := do
  let s ← get
  if s.current.isP .lParen then
    if s.params.hasDefault = false then errorCurrent .missingFunctionName else pure none
  else do
    let b ← parseBindingId
    match b with
    | .bindingIdentifier name span => pure (some (.bindingIdentifier name span))
    | _ => unexpectedCurrent

/-- parser.rs:1495-1556: `parse_function_dclr` after the test at 1492 -/
def parseFunctionDclrRest (r : Rec) (async allowGenerator : Bool) : PM Node := do
  when (async = false) startSpan
  let _ ← consumeKw cs!"function"
  let generator ← parseGeneratorMark allowGenerator
  let id ← parseFunctionName
  let (params, body) ← parseParamsAndBody r generator async
  let span ← endSpan
  pure (.functionDeclaration id params body generator false async span)

/-- parser.rs:1467-1557 `parse_function_dclr`; an `async function` on one line is rejected (1492: the test is
inverted) -/
def parseFunctionDclr (r : Rec) (async allowGenerator : Bool) : PM Node := do
  let s ← get
  if async = true ∧ s.hasLineTerminator = false then unexpectedCurrent
  else parseFunctionDclrRest r async allowGenerator

/-- parser.rs:1447-1465 `parse_hoistable_dclr` -/
def parseHoistableDclr (r : Rec) : PM Node := do
  let t ← cur
  if t.isId cs!"async" then do
    startSpan
    let _ ← advance .regExp
    parseFunctionDclr r true true
  else if t.isKw cs!"function" then parseFunctionDclr r false true
  else unexpectedCurrent

/-- parser.rs:511-525 `parse_declaration` -/
def parseDeclaration (r : Rec) : PM Node := do
  let t ← cur
  if t.tokentype = .keyword ∧ t.isHoistableDclrKw then withDefault false (parseHoistableDclr r)
  else if t.isKw cs!"class" then withDefault false (parseClassDclr r)
  else if t.tokentype = .keyword ∧ t.isLexicalDclrKw then withIn true (parseLexicalDclr r)
  else unexpectedCurrent

/-- parser.rs:1337-1349: the body of a labelled statement -/
def parseLabelBody (r : Rec) : PM Node := do
  let s ← get
  if s.current.isKw cs!"function" then
    if s.ctx.strict then errorCurrent .strictFunction
    else withDefault false (parseFunctionDclr r false false)
  else r.statement

/-- parser.rs:1319-1355 `parse_labelled_stmt`; its only caller passes a label (the `None` arm 1328-1333 is dead) -/
def parseLabelledStmt (r : Rec) (label : Identifier) : PM Node := do
  let _ ← consume .colon
  let body ← parseLabelBody r
  let span ← endSpan
  pure (.labeledStatement label body span)

/-- parser.rs:642-655 `parse_expression_or_labelled_stmt` -/
def parseExpressionOrLabelled (r : Rec) : PM Node := do
  startSpan
  let expr ← withIn true (parseExpression r)
  let t ← cur
  if t.isP .colon then
    match expr with
    | .identifier name _ span => parseLabelledStmt r ⟨name, span⟩
    | expr => parseExpressionStmt expr
  else parseExpressionStmt expr

/-- parser.rs:561-584: a statement that starts with `async` -/
def parseAsyncItem (r : Rec) : PM Node := do
  startSpan
  let t ← cur
  let next ← peekToken
  if next.isKw cs!"function" ∧ t.lineNum = next.lineNum then withDefault false (parseHoistableDclr r)
  else do
    let _ ← endSpan
    parseExpressionOrLabelled r

/-- parser.rs:532-593 `parse_stmt_list_item` -/
def parseStmtListItem (r : Rec) : PM Node := do
  let t ← cur
  if t.isP .lBrace then parseBlockStmt r
  else if t.isP .semicolon then parseEmptyStmt
  else if t.isKw cs!"var" then parseVariableStmt r
  else if t.isKw cs!"if" then parseIfStmt r
  else if t.tokentype = .keyword ∧ t.isIterationKw then parseIterationStmt r
  else if t.isKw cs!"switch" then parseSwitchStmt r
  else if t.isKw cs!"continue" then parseContinueStmt
  else if t.isKw cs!"break" then parseBreakStmt
  else if t.isKw cs!"return" then parseReturn r
  else if t.isKw cs!"with" then parseWithStmt r
  else if t.isKw cs!"throw" then parseThrowStmt r
  else if t.isKw cs!"try" then parseTryStmt r
  else if t.isKw cs!"debugger" then parseDebuggerStmt
  else if t.isId cs!"async" then parseAsyncItem r
  else if t.isIdOrKw ∧ t.isHoistableDclrKw then withDefault false (parseHoistableDclr r)
  else if t.isKw cs!"class" then withDefault false (parseClassDclr r)
  else if t.isIdOrKw ∧ t.isLexicalDclrKw then withIn true (parseLexicalDclr r)
  else parseExpressionOrLabelled r

/-- parser.rs:595-640 `parse_statement` -/
def parseStatement (r : Rec) : PM Node := do
  let t ← cur
  if t.isP .lBrace then parseBlockStmt r
  else if t.isKw cs!"var" then parseVariableStmt r
  else if t.isP .semicolon then parseEmptyStmt
  else if t.isKw cs!"if" then parseIfStmt r
  else if t.tokentype = .keyword ∧ t.isIterationKw then parseIterationStmt r
  else if t.isKw cs!"switch" then parseSwitchStmt r
  else if t.isKw cs!"continue" then parseContinueStmt
  else if t.isKw cs!"break" then parseBreakStmt
  else if t.isKw cs!"return" then parseReturn r
  else if t.isKw cs!"with" then parseWithStmt r
  else if t.isKw cs!"throw" then parseThrowStmt r
  else if t.isKw cs!"try" then parseTryStmt r
  else if t.isKw cs!"debugger" then parseDebuggerStmt
  else parseExpressionOrLabelled r

end Parser
end Giron

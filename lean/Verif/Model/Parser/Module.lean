import Verif.Model.Parser.Stmt
/-
giron/src/parser/parser.rs: imports, exports, scripts, modules; giron/src/lib.rs: the API.
-/
namespace Giron
namespace Parser
variable [Env]
open M

/-- parser.rs:204-213, 246-255, 271-280: a local name of an import -/
def parseImportLocal : PM Identifier := do
  let b ← withYieldAwait false false parseBindingId
  ofExcept b.toId

/-- parser.rs:325-339 `parse_module_specifier` -/
def parseModuleSpecifier : PM Literal := do
  let t ← cur
  if t.tokentype = .stringLiteral then do
    startSpan
    let t ← advance .regExp
    let span ← endSpan
    pure ⟨t.value, t.value.toString, span⟩
  else unexpectedCurrent

/-- parser.rs:311-323 `parse_import_from_dclr` -/
def parseImportFrom (specifiers : List ImportDeclarationSpecifier) : PM Node := do
  let _ ← consumeId cs!"from"
  let source ← parseModuleSpecifier
  consumeSemicolon
  let span ← endSpan
  pure (.importDeclaration specifiers source span)

/-- parser.rs:243-259 `parse_namespace_import_specifiers` -/
def parseNamespaceImport : PM (List ImportDeclarationSpecifier) := do
  let _ ← consume .star
  let _ ← consumeId cs!"as"
  let loc ← parseImportLocal
  pure [.importNamespaceSpecifier loc]

/-- parser.rs:263-305: one round of `parse_named_import_specifiers` -/
def importSpec : PM ImportDeclarationSpecifier := do
  startSpan
  let name ← parseIdName .regExp
  let span ← endSpan
  let t ← cur
  if t.isId cs!"as" then do
    let _ ← advance .regExp
    let loc ← parseImportLocal
    commaUnless .rBrace
    pure (.importSpecifier loc ⟨name, span⟩)
  else if Scanner.isKeyword name then do
    let t ← advance .regExp
    error t .unexpectedReserved
  else do
    commaUnless .rBrace
    pure (.importSpecifier ⟨name, span⟩ ⟨name, span⟩)

/-- parser.rs:261-309 `parse_named_import_specifiers` -/
def parseNamedImports : PM (List ImportDeclarationSpecifier) := do
  let _ ← consume .lBrace
  let specifiers ← untilPunc .rBrace importSpec
  let _ ← consume .rBrace
  pure specifiers

/-- parser.rs:203-231: `import` followed by a name.  The name becomes an `ImportSpecifier` (214), not an
`ImportDefaultSpecifier`. -/
def parseImportDefault : PM Node := do
  let loc ← parseImportLocal
  let spec := ImportDeclarationSpecifier.importSpecifier loc loc
  let t ← cur
  if t.isP .comma then do
    let _ ← advance .regExp
    let t ← cur
    if t.isP .star then do
      let specs ← parseNamespaceImport
      parseImportFrom (spec :: specs)
    else if t.isP .lBrace then do
      let specs ← parseNamedImports
      parseImportFrom (spec :: specs)
    else unexpectedCurrent
  else parseImportFrom [spec]

/-- parser.rs:193-241 `parse_import_dclr` -/
def parseImportDclr : PM Node := do
  startSpan
  let _ ← consumeKw cs!"import"
  let t ← cur
  if t.isP .star then do
    let specs ← parseNamespaceImport
    parseImportFrom specs
  else if t.isP .lBrace then do
    let specs ← parseNamedImports
    parseImportFrom specs
  else if t.isIdOrKw then parseImportDefault
  else if t.tokentype = .stringLiteral then panic .importString
  else unexpectedCurrent

/-- parser.rs:469-500: one round of `parse_named_export_specifiers`; in `{a as b}` the exported name is `a`
(474-482) -/
def exportSpec : PM ExportSpecifier := do
  startSpan
  let name ← parseIdName .regExp
  let t ← cur
  if t.isId cs!"as" then do
    let span ← endSpan
    let _ ← advance .regExp
    startSpan
    let locName ← parseIdName .regExp
    let locSpan ← endSpan
    commaUnless .rBrace
    pure ⟨⟨name, span⟩, ⟨locName, locSpan⟩⟩
  else do
    let span ← endSpan
    commaUnless .rBrace
    pure ⟨⟨name, span⟩, ⟨name, span⟩⟩

/-- parser.rs:467-505 `parse_named_export_specifiers` -/
def parseNamedExports : PM (List ExportSpecifier) := do
  let _ ← consume .lBrace
  let specifiers ← untilPunc .rBrace exportSpec
  let _ ← consume .rBrace
  pure specifiers

/-- parser.rs:346-398: `export default` -/
def parseExportDefault (r : Rec) : PM Node := do
  let _ ← advance .regExp
  let t ← cur
  if t.isIdOrKw ∧ t.isHoistableDclrKw then do
    let declaration ← withParams (fun p => { p with hasYield := false, hasAwait := false, hasDefault := true })
      (parseHoistableDclr r)
    let span ← endSpan
    pure (.exportDefaultDeclaration declaration span)
  else if t.isKw cs!"class" then do
    let declaration ← withParams (fun p => { p with hasYield := false, hasAwait := false, hasDefault := true })
      (parseClassDclr r)
    let span ← endSpan
    pure (.exportDefaultDeclaration declaration span)
  else do
    let declaration ← withParams (fun p => { p with hasIn := true, hasYield := false, hasAwait := false })
      r.assignmentExpr
    consumeSemicolon
    let span ← endSpan
    pure (.exportDefaultDeclaration declaration span)

/-- parser.rs:432-453: `export {...}`; the keyword test for "from" (435) never succeeds -/
def parseExportNamed : PM Node := do
  let specifiers ← parseNamedExports
  let t ← cur
  if t.isKw cs!"from" then do
    let _ ← advance .regExp
    let source ← parseModuleSpecifier
    consumeSemicolon
    let span ← endSpan
    pure (.exportNamedDeclaration none specifiers (some source) span)
  else do
    let span ← endSpan
    pure (.exportNamedDeclaration none specifiers none span)

/-- parser.rs:454-463: `export *` -/
def parseExportAll : PM Node := do
  let _ ← advance .regExp
  let _ ← consumeId cs!"from"
  let source ← parseModuleSpecifier
  consumeSemicolon
  let span ← endSpan
  pure (.exportAllDeclaration source span)

/-- parser.rs:341-465 `parse_export_dclr` -/
def parseExportDclr (r : Rec) : PM Node := do
  startSpan
  let _ ← consumeKw cs!"export"
  let t ← cur
  if t.isKw cs!"default" then parseExportDefault r
  else if t.isKw cs!"var" then do
    let declaration ← withYieldAwait false false (parseVariableStmt r)
    let span ← endSpan
    pure (.exportNamedDeclaration (some declaration) [] none span)
  else if t.tokentype = .keyword ∧ t.isDclrKw then do
    let declaration ← withYieldAwait false false (parseDeclaration r)
    let span ← endSpan
    pure (.exportNamedDeclaration (some declaration) [] none span)
  else if t.isP .lBrace then parseExportNamed
  else if t.isP .star then parseExportAll
  else unexpectedCurrent

/-- `Params { has_yield: false, has_await: false, has_return: false, ..self.params }` -/
def moduleParams (p : Params) : Params := { p with hasYield := false, hasAwait := false, hasReturn := false }

/-- parser.rs:172-191 `parse_module_item` -/
def parseModuleItem (r : Rec) : PM Node := do
  let t ← cur
  if t.isKw cs!"import" then parseImportDclr
  else if t.isKw cs!"export" then parseExportDclr r
  else withParams moduleParams r.stmtListItem

/-- parser.rs:110-121 `parse_script` -/
def parseScriptBody (r : Rec) : PM Node := do
  startSpan
  let prologues ← parseDirectivePrologues r
  let body ← untilEof r.stmtListItem
  let span ← endSpan
  pure (.program (prologues ++ body) cs!"script" span)

/-- parser.rs:124-144 `parse_module` -/
def parseModuleBody (r : Rec) : PM Node := do
  startSpan
  modify fun s => { s with ctx := { s.ctx with strict := true } }
  let prologues ← withParams moduleParams (parseDirectivePrologues r)
  let body ← untilEof (parseModuleItem r)
  let span ← endSpan
  pure (.program (prologues ++ body) cs!"module" span)

/-- The recursion through `Rec`, `n` levels deep.  Running out is `Fail.fuel`, proved impossible for the depth
used by `parseScript`/`parseModule`. (Model artefact.) -/
def run : Nat → Rec
  | 0 =>
    { assignmentExpr := fail .fuel, stmtListItem := fail .fuel, statement := fail .fuel,
      unaryExpr := fail .fuel, exponentiationExpr := fail .fuel, newExpr := fail .fuel,
      precedenceClimbing := fun _ _ => fail .fuel, bindingIdOrPat := fail .fuel,
      leftHandSideExpr := fail .fuel }
  | n + 1 =>
    { assignmentExpr := parseAssignmentExpr (run n)
      stmtListItem := parseStmtListItem (run n)
      statement := parseStatement (run n)
      unaryExpr := parseUnaryExpr (run n)
      exponentiationExpr := parseExponentiationExpr (run n)
      newExpr := parseNewExpr (run n)
      precedenceClimbing := precedenceClimbing (run n)
      bindingIdOrPat := parseBindingIdOrPat (run n)
      leftHandSideExpr := parseLeftHandSideExpr (run n) }

/-- parser.rs:84-104 `Parser::new`: an error in the first token is unwrapped (86) -/
def new (source : Str) : Except Fail Parser :=
  match Scanner.next .regExp (Scanner.new source) with
  | .ok (t, sc) =>
    .ok { scanner := sc, hasLineTerminator := false, current := t,
          ctx := ⟨false, false, false, false⟩, params := Params.new, paramsStack := [], markerStack := [] }
  | .error (.err _) => .error (.panic .firstToken)
  | .error e => .error e

/-- Recursion depth granted for a source: linear in its length. -/
def depth (source : Str) : Nat := 2 * source.length + 6

end Parser

variable [Env]

/-- giron/src/lib.rs:28-31 `parse_script`, with the final state of the parser -/
def parseScriptState (source : Str) : Except Fail (Node × Parser) :=
  match Parser.new source with
  | .ok p => Parser.parseScriptBody (Parser.run (Parser.depth source)) p
  | .error e => .error e

/-- giron/src/lib.rs:22-25 `parse_module`, with the final state of the parser -/
def parseModuleState (source : Str) : Except Fail (Node × Parser) :=
  match Parser.new source with
  | .ok p => Parser.parseModuleBody (Parser.run (Parser.depth source)) p
  | .error e => .error e

/-- giron/src/lib.rs:28-31 `parse_script` -/
def parseScript (source : Str) : Except Fail Node := (parseScriptState source).map Prod.fst

/-- giron/src/lib.rs:22-25 `parse_module` -/
def parseModule (source : Str) : Except Fail Node := (parseModuleState source).map Prod.fst

end Giron

import Verif.Model.Scanner
import Verif.Model.Syntax
import Verif.Model.EstreeFns
/-
giron/src/parser/parser.rs: the parser state and its utility methods.
-/
namespace Giron
open M

/-- parser.rs:31-36 `struct Context` -/
structure Context where
  strict : Bool
  inFunction : Bool
  inIteration : Bool
  inSwitch : Bool
deriving DecidableEq, Repr

/-- parser.rs:40-47 `struct Params` -/
structure Params where
  hasIn : Bool
  hasAwait : Bool
  hasYield : Bool
  hasTagged : Bool
  hasReturn : Bool
  hasDefault : Bool
deriving DecidableEq, Repr

/-- parser.rs:49-60 `Params::new` -/
def Params.new : Params := ⟨false, false, false, false, false, false⟩

/-- parser.rs:68-77 `struct Parser`.  The field `goal` is written (112, 126) but never read; it is omitted.
Stacks have their top at the head. -/
structure Parser where
  scanner : Scanner
  hasLineTerminator : Bool
  current : Token
  ctx : Context
  params : Params
  paramsStack : List Params
  markerStack : List Marker
deriving Repr

/-- Parser methods. -/
abbrev PM := M Parser

/-- parser.rs:26-29 `enum ValueOrExpr` -/
inductive ValueOrExpr
  | value (v : Value)
  | expr (n : Node)

namespace Token
/-- `TokenType::Punctuator if self.current.matches_punc(p)` -/
def isP (t : Token) (p : Punctuator) : Bool := decide (t.tokentype = .punctuator) && t.matchesPunc p
/-- `TokenType::Keyword if self.current.matches_str(s)` -/
def isKw (t : Token) (s : Str) : Bool := decide (t.tokentype = .keyword) && t.matchesStr s
/-- `TokenType::Identifier if self.current.matches_str(s)` -/
def isId (t : Token) (s : Str) : Bool := decide (t.tokentype = .identifier) && t.matchesStr s
/-- `TokenType::Identifier | TokenType::Keyword` -/
def isIdOrKw (t : Token) : Bool := decide (t.tokentype = .identifier) || decide (t.tokentype = .keyword)
end Token

namespace Parser
variable [Env]

/-- Number of loop rounds granted to a loop that consumes at least one token per round: the characters not
yet scanned, plus a pushed back token, plus the current token.  Running out is `Fail.fuel`, proved
impossible.  (Model artefact.) -/
def size (s : Parser) : Nat :=
  s.scanner.rest.length
    + (match s.scanner.unscanned with | some t => if t.tokentype = .eof then 0 else 1 | none => 0)
    + (if s.current.tokentype = .eof then 0 else 1)

/-- `self.current` -/
def cur : PM Token := fun s => .ok (s.current, s)

/-- `self.scanner.method()` -/
def liftScanner {α} (m : SM α) : PM α := fun s =>
  match m s.scanner with
  | .ok (a, sc) => .ok (a, { s with scanner := sc })
  | .error e => .error e

/-- parser.rs:4020-4025 `advance` -/
def advance (goal : LexGoal) : PM Token := fun s =>
  match s.scanner.next goal with
  | .ok (t, sc) =>
    .ok (s.current, { s with scanner := sc, current := t,
                             hasLineTerminator := decide (t.lineNum > s.current.lineNum) })
  | .error e => .error e

/-- parser.rs:4114-4120 `error` -/
def error {α} (t : Token) (e : ErrorType) : PM α := fail (.err ⟨t.lineNum, t.col, e⟩)

/-- parser.rs:4122-4125 `error_current` -/
def errorCurrent {α} (e : ErrorType) : PM α := do
  let t ← advance .regExp
  error t e

/-- parser.rs:4127-4135 `unexpected` -/
def unexpected {α} (t : Token) : PM α := error t (.unexpectedToken t.value.toString)

/-- parser.rs:4137-4140 `unexpected_current` -/
def unexpectedCurrent {α} : PM α := do
  let t ← advance .regExp
  unexpected t

/-- parser.rs:4027-4033 `consume` (the token type is not checked) -/
def consume (p : Punctuator) (goal : LexGoal := .regExp) : PM Token := do
  let t ← cur
  if t.matchesPunc p then advance goal else unexpectedCurrent

/-- parser.rs:4035-4040 `consume_kw` -/
def consumeKw (kw : Str) (goal : LexGoal := .regExp) : PM Token := do
  let t ← cur
  if t.isKw kw then advance goal else unexpectedCurrent

/-- parser.rs:4042-4047 `consume_id` -/
def consumeId (id : Str) (goal : LexGoal := .regExp) : PM Token := do
  let t ← cur
  if t.isId id then advance goal else unexpectedCurrent

/-- parser.rs:4049-4062 `consume_semicolon` -/
def consumeSemicolon (goal : LexGoal := .regExp) : PM Unit := do
  let s ← get
  if s.current.isP .semicolon then do
    let _ ← advance goal
    pure ()
  else if !s.hasLineTerminator then
    if s.current.isP .rBrace then pure ()
    else if s.current.tokentype = .eof then pure ()
    else unexpectedCurrent
  else pure ()

/-- parser.rs:4064-4066 `save_params` -/
def saveParams : PM Unit := modify fun s => { s with paramsStack := s.params :: s.paramsStack }

/-- parser.rs:4068-4070 `restore_params` -/
def restoreParams : PM Unit := fun s =>
  match s.paramsStack with
  | p :: ps => .ok ((), { s with params := p, paramsStack := ps })
  | [] => .error (.panic .paramsStack)

/-- parser.rs:3954-3963 `with_params`, 3965-3974 `with_in`, 3976-3985 `with_yield`, 3987-3996 `with_await`,
3998-4007 `with_default`, 4009-4018 `with_return`: they differ in the update `f` of the parameters. -/
def withParams {α} (f : Params → Params) (m : PM α) : PM α := do
  saveParams
  modify fun s => { s with params := f s.params }
  let x ← m
  restoreParams
  pure x

/-- parser.rs:3965-3974 `with_in` -/
def withIn {α} (b : Bool) (m : PM α) : PM α := withParams (fun p => { p with hasIn := b }) m
/-- parser.rs:3998-4007 `with_default` -/
def withDefault {α} (b : Bool) (m : PM α) : PM α := withParams (fun p => { p with hasDefault := b }) m
/-- parser.rs:4009-4018 `with_return` -/
def withReturn {α} (b : Bool) (m : PM α) : PM α := withParams (fun p => { p with hasReturn := b }) m
/-- parser.rs:3976-3985 `with_yield` -/
def withYield {α} (b : Bool) (m : PM α) : PM α := withParams (fun p => { p with hasYield := b }) m
/-- parser.rs:3987-3996 `with_await` -/
def withAwait {α} (b : Bool) (m : PM α) : PM α := withParams (fun p => { p with hasAwait := b }) m
/-- `with_params(Params { has_yield, has_await, ..self.params }, ..)` -/
def withYieldAwait {α} (y a : Bool) (m : PM α) : PM α :=
  withParams (fun p => { p with hasYield := y, hasAwait := a }) m

/-- parser.rs:4072-4078 `start_span` -/
def startSpan : PM Unit := modify fun s =>
  { s with markerStack := ⟨s.current.lineNum, s.current.col, s.current.start⟩ :: s.markerStack }

/-- parser.rs:4086-4092, 4103-4109: the end marker -/
def endMarker (s : Parser) : Marker := ⟨s.scanner.line, s.scanner.col, s.scanner.current⟩

/-- parser.rs:4080-4094 `end_span` -/
def endSpan : PM Span := fun s =>
  match s.markerStack with
  | m :: ms => .ok (⟨m, endMarker s⟩, { s with markerStack := ms })
  | [] => .error (.panic .spanStack)

/-- parser.rs:4096-4110 `peek_span` -/
def peekSpan : PM Span := fun s =>
  match s.markerStack with
  | m :: _ => .ok (⟨m, endMarker s⟩, s)
  | [] => .error (.panic .spanStack)

/-- parser.rs:3892-3905 `parse_while_punc` with a loop budget -/
def whilePuncF {α} (p : Punctuator) (f : PM α) : Nat → PM (List α)
  | 0 => fail .fuel
  | n + 1 => do
    let t ← cur
    if t.isP p then do
      let x ← f
      let xs ← whilePuncF p f n
      pure (x :: xs)
    else pure []

/-- parser.rs:3892-3905 `parse_while_punc` -/
def whilePunc {α} (p : Punctuator) (f : PM α) : PM (List α) := fun s => whilePuncF p f (s.size + 1) s

/-- parser.rs:3907-3920 `parse_until_punc` with a loop budget -/
def untilPuncF {α} (p : Punctuator) (f : PM α) : Nat → PM (List α)
  | 0 => fail .fuel
  | n + 1 => do
    let t ← cur
    if t.isP p then pure []
    else do
      let x ← f
      let xs ← untilPuncF p f n
      pure (x :: xs)

/-- parser.rs:3907-3920 `parse_until_punc` -/
def untilPunc {α} (p : Punctuator) (f : PM α) : PM (List α) := fun s => untilPuncF p f (s.size + 1) s

/-- parser.rs:3922-3939 `parse_until_punc_or_rest` with a loop budget -/
def untilPuncOrRestF {α} (p : Punctuator) (f : PM α) : Nat → PM (List α)
  | 0 => fail .fuel
  | n + 1 => do
    let t ← cur
    if t.isP p then pure []
    else if t.isP .ellipsis then do
      let x ← f
      pure [x]
    else do
      let x ← f
      let xs ← untilPuncOrRestF p f n
      pure (x :: xs)

/-- parser.rs:3922-3939 `parse_until_punc_or_rest` -/
def untilPuncOrRest {α} (p : Punctuator) (f : PM α) : PM (List α) := fun s =>
  untilPuncOrRestF p f (s.size + 1) s

/-- parser.rs:3941-3952 `parse_until_eof` with a loop budget -/
def untilEofF (f : PM Node) : Nat → PM (List Node)
  | 0 => fail .fuel
  | n + 1 => do
    let t ← cur
    if t.tokentype = .eof then pure []
    else do
      let x ← f
      let xs ← untilEofF f n
      pure (x :: xs)

/-- parser.rs:3941-3952 `parse_until_eof` -/
def untilEof (f : PM Node) : PM (List Node) := fun s => untilEofF f (s.size + 1) s

/-- The recursive entry points.  Every Rust method below is a definition that takes the entry points it may
re-enter as this record; `Parser.run` ties the knot. -/
structure Rec where
  /-- parser.rs:1938 `parse_assignment_expr` -/
  assignmentExpr : PM Node
  /-- parser.rs:532 `parse_stmt_list_item` -/
  stmtListItem : PM Node
  /-- parser.rs:595 `parse_statement` -/
  statement : PM Node
  /-- parser.rs:2148 `parse_unary_expr` -/
  unaryExpr : PM Node
  /-- parser.rs:2118 `parse_exponentiation_expr` -/
  exponentiationExpr : PM Node
  /-- parser.rs:2400 `parse_new_expr` -/
  newExpr : PM Node
  /-- parser.rs:2096 `precedence_climbing` -/
  precedenceClimbing : Node → Nat → PM Node
  /-- parser.rs:2772 `parse_binding_id_or_pat` -/
  bindingIdOrPat : PM Binding
  /-- parser.rs:2223 `parse_left_hand_side_expr` -/
  leftHandSideExpr : PM Node

end Parser
end Giron

/-
Basic vocabulary of the model: text, environment parameters, failures, the state + failure monad.
-/
namespace Giron

/-- Text.  Rust `String`/`&str`/`Chars` are sequences of Unicode scalar values; Lean `Char` is exactly
a Unicode scalar value.  `List Char` is used instead of `String` because the kernel evaluates it well. -/
abbrev Str := List Char

/-- `cs!"abc"` is the explicit character list `['a', 'b', 'c']`. -/
syntax:max "cs!" str : term
macro_rules
  | `(cs! $s:str) => do
    let elems : Array Lean.Term := s.getString.toList.toArray.map fun c => Lean.Syntax.mkCharLit c
    `(([$elems,*] : List Char))

/-- The exact value `mant * 10 ^ exp` denoted by a numeric literal, before rounding to `f64`
(giron/src/token/value.rs:8 `Num(f64)`).  Rounding: `Num.toF64` (Model/Double.lean). -/
structure Num where
  mant : Nat
  exp : Int
deriving DecidableEq, Repr, Inhabited

/-- What the model leaves open; every theorem holds for all choices.
* `idStart`, `idContinue`: `Codepoint::is_id_start/is_id_continue` of crate `ucd`
  (giron/src/codepoint/codepoint.rs:1,43,50).
* `showNum`: `f64::to_string` (giron/src/token/value.rs:17).
* `checked`: whether the build has arithmetic overflow checks (debug) or wraps (release).
* `usizeMax`: `usize::MAX`, seen only when `current - 1` wraps (scanner.rs:1007).
* `printable`: the characters that `{:?}` of a string shows as they are, but for quotes and backslashes (standard library). -/
class Env where
  idStart : Char → Bool
  idContinue : Char → Bool
  showNum : Num → Str
  checked : Bool
  usizeMax : Nat
  printable : Char → Bool

/-- giron/src/errors/errors.rs:97-126. -/
inductive ErrorType
  | unexpectedToken (s : Str)
  | unexpectedReserved
  | illegalReturn
  | missingInitializer
  | invalidLhsInFor
  | multipleDefaultsInSwitch
  | noIterationStatement
  | illegalBreak
  | strictWith
  | strictFunction
  | newlineAfterThrow
  | generatorInSingleStatementContext
  | missingFunctionName
  | invalidLhsInAssignment
  | unexpectedTokenUnaryExponentiation
  | invalidLhsInPostfixOp
  | invalidLhsInPrefixOp
  | paramAfterRest
  | invalidDestructuringTarget
  | unexpectedTemplateString
  | yieldInParameter
  | awaitExpressionFormalParameter
  | unexpectedEOS
  | invalidOrUnexpectedToken
  | invalidUnicodeEscapeSequence
  | invalidRestBindingPattern
  | unexpectedStrictReserved
deriving DecidableEq, Repr

/-- giron/src/errors/errors.rs:90-95. -/
structure Error where
  line : Nat
  col : Nat
  errortype : ErrorType
deriving DecidableEq, Repr

/-- Every place in the crate that can panic.  Constructors cite the site. -/
inductive PanicSite
  /-- scanner.rs:155, 182, 367, 371, 418, 621: `self.consume().unwrap()` -/
  | scanUnwrap
  /-- scanner.rs:213, 227, 541: `cp.to_digit(16).unwrap()` -/
  | toDigitUnwrap
  /-- scanner.rs:213: `value * 16 + digit` on `u32` with overflow checks -/
  | escOverflow
  /-- scanner.rs:657, 692: `unreachable!()` after an unterminated template -/
  | unterminatedTemplate
  /-- scanner.rs:1010: `self.current - 1` with overflow checks -/
  | tokenEndUnderflow
  /-- scanner.rs:1063: `panic!("Trying to restore an unsaved state.")` -/
  | restoreUnsaved
  /-- punctuators.rs:276: `panic!("Invalid punctuator.")` -/
  | invalidPunctuator
  /-- syntax.rs:34, 42: `to_string`/`to_str` on a value that is neither string nor punctuator -/
  | tokenNotStr
  /-- parser.rs:88: `scanner.next(LexGoal::RegExp).unwrap()` in `Parser::new` -/
  | firstToken
  /-- parser.rs:232: `unimplemented!()` on `import "x"` -/
  | importString
  /-- `unwrap` of `Token` optional fields or `Value::string()`/`Value::punc()` in parser.rs -/
  | tokenFieldUnwrap
  /-- parser.rs:4086,4100,4106: `unwrap` on the span stack -/
  | spanStack
  /-- parser.rs:4070: `self.params_stack.pop().unwrap()` -/
  | paramsStack
  /-- estree.rs:109-126 `to_node` -/
  | toNode
  /-- estree.rs:128-135 `to_id` -/
  | toId
  /-- estree.rs:956 `expr_span` on a node that is not an expression -/
  | exprSpan
  /-- estree.rs:1268 `elements.len() - 1` with overflow checks -/
  | arrayLenUnderflow
  /-- `unreachable!()` in parser.rs -/
  | unreachableArm (line : Nat)
deriving DecidableEq, Repr

/-- How a computation can fail to return: `Err(e)`, a panic, or exhaustion of the model's own recursion
budget (not a behaviour of the program; proved impossible at the top level). -/
inductive Fail
  | err (e : Error)
  | panic (p : PanicSite)
  | fuel
deriving DecidableEq, Repr

/-- State + failure.  The state is dropped on failure: every `Err` in the crate propagates to the API
caller, which never sees the scanner or parser again (lib.rs:22-31). -/
def M (σ : Type) (α : Type) : Type := σ → Except Fail (α × σ)

namespace M
variable {σ α β : Type}

@[inline] protected def pure (a : α) : M σ α := fun s => .ok (a, s)

@[inline] protected def bind (m : M σ α) (k : α → M σ β) : M σ β := fun s =>
  match m s with
  | .ok (a, s') => k a s'
  | .error e => .error e

instance : Monad (M σ) where
  pure := M.pure
  bind := M.bind

/-- fail -/
@[inline] def fail (f : Fail) : M σ α := fun _ => .error f
/-- panic at a site -/
@[inline] def panic (p : PanicSite) : M σ α := fail (.panic p)
/-- read the state -/
@[inline] def get : M σ σ := fun s => .ok (s, s)
/-- update the state -/
@[inline] def modify (f : σ → σ) : M σ Unit := fun s => .ok ((), f s)
/-- `if c { m }` -/
@[inline] def when (c : Prop) [Decidable c] (m : M σ Unit) : M σ Unit := if c then m else M.pure ()
/-- `opt.unwrap()` -/
@[inline] def unwrap (p : PanicSite) : Option α → M σ α
  | some a => M.pure a
  | none => panic p
/-- Lift a pure `Result`. -/
@[inline] def ofExcept : Except Fail α → M σ α
  | .ok a => M.pure a
  | .error e => fail e
end M

end Giron

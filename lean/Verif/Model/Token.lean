import Verif.Model.Punctuator
/-
giron/src/token/token.rs, value.rs, giron/src/span/span.rs
-/
namespace Giron

/-- value.rs:6-11 `enum Value` -/
inductive Value
  | str (s : Str)
  | num (x : Num)
  | punc (p : Punctuator)
  | null
deriving DecidableEq, Repr, Inhabited

/-- value.rs:13-22 `From<&Value> for String` -/
def Value.toString [Env] : Value → Str
  | .str s => s
  | .num x => Env.showNum x
  | .punc p => p.toStr
  | .null => cs!"null"

/-- value.rs:25-30 `Value::string` -/
def Value.string? : Value → Option Str
  | .str s => some s
  | _ => none

/-- value.rs:32-37 `Value::punc` -/
def Value.punc? : Value → Option Punctuator
  | .punc p => some p
  | _ => none

/-- token.rs:5-16 `enum TokenType` -/
inductive TokenType
  | booleanLiteral
  | identifier
  | keyword
  | nullLiteral
  | numericLiteral
  | stringLiteral
  | punctuator
  | regularExpression
  | template
  | eof
deriving DecidableEq, Repr, Inhabited

/-- token.rs:19-32 `struct Token` -/
structure Token where
  tokentype : TokenType
  value : Value
  pattern : Option Str
  flags : Option (List Char)
  octal : Option Bool
  cooked : Option Str
  head : Option Bool
  tail : Option Bool
  lineNum : Nat
  col : Nat
  start : Nat
  «end» : Nat
deriving DecidableEq, Repr, Inhabited

/-- span.rs:5-9 `struct Marker` -/
structure Marker where
  line : Nat
  col : Nat
  idx : Nat
deriving DecidableEq, Repr, Inhabited

/-- span.rs:13-16 `struct Span` -/
structure Span where
  start : Marker
  «end» : Marker
deriving DecidableEq, Repr, Inhabited

end Giron

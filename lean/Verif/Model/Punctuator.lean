import Verif.Model.Codepoint
/-
giron/src/token/punctuators.rs
-/
namespace Giron

/-- punctuators.rs:5-62 `enum Punctuator` -/
inductive Punctuator
  | lBrace
  | lParen
  | rParen
  | lBracket
  | rBracket
  | dot
  | ellipsis
  | semicolon
  | comma
  | lAngle
  | rAngle
  | lEqual
  | gEqual
  | equal
  | nEqual
  | strictEqual
  | strictNEqual
  | plus
  | minus
  | star
  | mod
  | pow
  | inc
  | dec
  | lShift
  | rShift
  | zRShift
  | bitAnd
  | bitOr
  | bitXor
  | bang
  | tilde
  | logicalAnd
  | logicalOr
  | question
  | colon
  | assign
  | plusAssign
  | minusAssign
  | starAssign
  | modAssign
  | powAssign
  | lShiftAssign
  | rShiftAssign
  | zRShiftAssign
  | bitAndAssign
  | bitOrAssign
  | bitXorAssign
  | fatArrow
  | slash
  | slashAssign
  | rBrace
  | instanceof
  | qMarkDot
  | doubleQMark
deriving DecidableEq, Repr, Inhabited

namespace Punctuator

/-- punctuators.rs:92-152 `to_str` (and 154-214 `to_string`, the same table) -/
def toStr : Punctuator → Str
  | .lBrace => cs!"{"
  | .lParen => cs!"("
  | .rParen => cs!")"
  | .lBracket => cs!"["
  | .rBracket => cs!"]"
  | .dot => cs!"."
  | .ellipsis => cs!"..."
  | .semicolon => cs!";"
  | .comma => cs!","
  | .lAngle => cs!"<"
  | .rAngle => cs!">"
  | .lEqual => cs!"<="
  | .gEqual => cs!">="
  | .equal => cs!"=="
  | .nEqual => cs!"!="
  | .strictEqual => cs!"==="
  | .strictNEqual => cs!"!=="
  | .plus => cs!"+"
  | .minus => cs!"-"
  | .star => cs!"*"
  | .mod => cs!"%"
  | .pow => cs!"**"
  | .inc => cs!"++"
  | .dec => cs!"--"
  | .lShift => cs!"<<"
  | .rShift => cs!">>"
  | .zRShift => cs!">>>"
  | .bitAnd => cs!"&"
  | .bitOr => cs!"|"
  | .bitXor => cs!"^"
  | .bang => cs!"!"
  | .tilde => cs!"~"
  | .logicalAnd => cs!"&&"
  | .logicalOr => cs!"||"
  | .question => cs!"?"
  | .colon => cs!":"
  | .assign => cs!"="
  | .plusAssign => cs!"+="
  | .minusAssign => cs!"-="
  | .starAssign => cs!"*="
  | .modAssign => cs!"%="
  | .powAssign => cs!"**="
  | .lShiftAssign => cs!"<<="
  | .rShiftAssign => cs!">>="
  | .zRShiftAssign => cs!">>>="
  | .bitAndAssign => cs!"&="
  | .bitOrAssign => cs!"|="
  | .bitXorAssign => cs!"^="
  | .fatArrow => cs!"=>"
  | .slash => cs!"/"
  | .slashAssign => cs!"/="
  | .rBrace => cs!"}"
  | .instanceof => cs!"instanceof"
  | .qMarkDot => cs!"?."
  | .doubleQMark => cs!"??"

/-- punctuators.rs:217-280 `From<&str>`: `none` is the `panic!("Invalid punctuator.")` arm (line 276). -/
def ofStr (s : Str) : Option Punctuator :=
  if s = cs!"{" then some .lBrace
  else if s = cs!"(" then some .lParen
  else if s = cs!")" then some .rParen
  else if s = cs!"[" then some .lBracket
  else if s = cs!"]" then some .rBracket
  else if s = cs!"." then some .dot
  else if s = cs!"..." then some .ellipsis
  else if s = cs!";" then some .semicolon
  else if s = cs!"," then some .comma
  else if s = cs!"<" then some .lAngle
  else if s = cs!">" then some .rAngle
  else if s = cs!"<=" then some .lEqual
  else if s = cs!">=" then some .gEqual
  else if s = cs!"==" then some .equal
  else if s = cs!"!=" then some .nEqual
  else if s = cs!"===" then some .strictEqual
  else if s = cs!"!==" then some .strictNEqual
  else if s = cs!"+" then some .plus
  else if s = cs!"-" then some .minus
  else if s = cs!"*" then some .star
  else if s = cs!"%" then some .mod
  else if s = cs!"**" then some .pow
  else if s = cs!"++" then some .inc
  else if s = cs!"--" then some .dec
  else if s = cs!"<<" then some .lShift
  else if s = cs!">>" then some .rShift
  else if s = cs!">>>" then some .zRShift
  else if s = cs!"&" then some .bitAnd
  else if s = cs!"|" then some .bitOr
  else if s = cs!"^" then some .bitXor
  else if s = cs!"!" then some .bang
  else if s = cs!"~" then some .tilde
  else if s = cs!"&&" then some .logicalAnd
  else if s = cs!"||" then some .logicalOr
  else if s = cs!"?" then some .question
  else if s = cs!":" then some .colon
  else if s = cs!"=" then some .assign
  else if s = cs!"+=" then some .plusAssign
  else if s = cs!"-=" then some .minusAssign
  else if s = cs!"*=" then some .starAssign
  else if s = cs!"%=" then some .modAssign
  else if s = cs!"**=" then some .powAssign
  else if s = cs!"<<=" then some .lShiftAssign
  else if s = cs!">>=" then some .rShiftAssign
  else if s = cs!">>>=" then some .zRShiftAssign
  else if s = cs!"&=" then some .bitAndAssign
  else if s = cs!"|=" then some .bitOrAssign
  else if s = cs!"^=" then some .bitXorAssign
  else if s = cs!"=>" then some .fatArrow
  else if s = cs!"/" then some .slash
  else if s = cs!"/=" then some .slashAssign
  else if s = cs!"}" then some .rBrace
  else if s = cs!"instanceof" then some .instanceof
  else if s = cs!"?." then some .qMarkDot
  else if s = cs!"??" then some .doubleQMark
  else none

/-- punctuators.rs:66-82 `is_assign_op` -/
def isAssignOp : Punctuator → Bool
  | .plusAssign | .minusAssign | .starAssign | .modAssign | .powAssign | .lShiftAssign | .rShiftAssign
  | .zRShiftAssign | .bitAndAssign | .bitOrAssign | .bitXorAssign | .slashAssign => true
  | .equal => true
  | _ => false

end Punctuator
end Giron

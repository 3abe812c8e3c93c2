import Verif.Model.Token
/-
giron/src/parser/syntax.rs: predicates on tokens.

`matches_punc(val)` compares with `Punctuator::from(val)`; `val` is always a literal, so the model takes the
punctuator itself.  The only literal for which `from` panics is "`" (see `Parser.parseAsyncPrimaryExpr`).
-/
namespace Giron
namespace Token

/-- syntax.rs:46-51 `matches_str` -/
def matchesStr (t : Token) (s : Str) : Bool := decide (t.value = .str s)

/-- syntax.rs:53-58 `matches_punc` -/
def matchesPunc (t : Token) (p : Punctuator) : Bool := decide (t.value = .punc p)

/-- syntax.rs:30-36 `to_string`, 38-44 `to_str`; `none` is the `panic!` arm -/
def toStr? (t : Token) : Option Str :=
  match t.value with
  | .str s => some s
  | .punc p => some p.toStr
  | _ => none

/-- syntax.rs:67-84 `is_assign_op` -/
def isAssignOp (t : Token) : Bool :=
  match t.value with
  | .punc .plusAssign | .punc .minusAssign | .punc .starAssign | .punc .modAssign | .punc .powAssign
  | .punc .lShiftAssign | .punc .rShiftAssign | .punc .zRShiftAssign | .punc .bitAndAssign
  | .punc .bitOrAssign | .punc .bitXorAssign | .punc .slashAssign => true
  | .punc .equal => true
  | _ => false

/-- syntax.rs:86-114 `is_bin_op` -/
def isBinOp (t : Token) : Bool :=
  match t.tokentype with
  | .punctuator =>
    t.matchesPunc .lAngle || t.matchesPunc .rAngle || t.matchesPunc .lEqual || t.matchesPunc .gEqual ||
    t.matchesPunc .equal || t.matchesPunc .nEqual || t.matchesPunc .strictEqual ||
    t.matchesPunc .strictNEqual || t.matchesPunc .plus || t.matchesPunc .minus || t.matchesPunc .star ||
    t.matchesPunc .slash || t.matchesPunc .mod || t.matchesPunc .lShift || t.matchesPunc .rShift ||
    t.matchesPunc .zRShift || t.matchesPunc .bitAnd || t.matchesPunc .bitOr || t.matchesPunc .bitXor ||
    t.matchesPunc .logicalAnd || t.matchesPunc .logicalOr
  | .keyword => t.matchesStr cs!"in" || t.matchesStr cs!"instanceof"
  | _ => false

/-- syntax.rs:117-123: the punctuator half of `is_unary_op` -/
def isUnaryPunc (t : Token) : Bool :=
  match t.value with
  | .punc .plus | .punc .minus | .punc .tilde | .punc .bang => true
  | _ => false

/-- syntax.rs:124-131: the keyword half of `is_unary_op`; `none` when `to_str` panics -/
def isUnaryKeyword (t : Token) (hasAwait : Bool) : Option Bool :=
  match t.tokentype with
  | .keyword =>
    match t.toStr? with
    | none => none
    | some s =>
      some (s == cs!"delete" || s == cs!"void" || s == cs!"typeof" || (s == cs!"await" && hasAwait))
  | _ => some false

/-- syntax.rs:116-133 `is_unary_op`; `none` when `to_str` panics -/
def isUnaryOp (t : Token) (hasAwait : Bool) : Option Bool :=
  match t.isUnaryKeyword hasAwait with
  | none => none
  | some k => some (t.isUnaryPunc || k)

/-- syntax.rs:134-139 `is_update_op` -/
def isUpdateOp (t : Token) : Bool :=
  match t.value with
  | .punc .inc | .punc .dec => true
  | _ => false

/-- syntax.rs:141-169 `precedence` -/
def precedence (t : Token) (hasIn : Bool) : Nat :=
  match t.tokentype with
  | .punctuator =>
    if t.matchesPunc .logicalOr then 1
    else if t.matchesPunc .logicalAnd then 2
    else if t.matchesPunc .bitOr then 3
    else if t.matchesPunc .bitXor then 4
    else if t.matchesPunc .bitAnd then 5
    else if t.matchesPunc .equal then 6
    else if t.matchesPunc .nEqual then 6
    else if t.matchesPunc .strictEqual then 6
    else if t.matchesPunc .strictNEqual then 6
    else if t.matchesPunc .lAngle then 7
    else if t.matchesPunc .rAngle then 7
    else if t.matchesPunc .lEqual then 7
    else if t.matchesPunc .gEqual then 7
    else if t.matchesPunc .lShift then 8
    else if t.matchesPunc .rShift then 8
    else if t.matchesPunc .zRShift then 8
    else if t.matchesPunc .plus then 9
    else if t.matchesPunc .minus then 9
    else if t.matchesPunc .star then 10
    else if t.matchesPunc .slash then 10
    else if t.matchesPunc .mod then 11
    else 0
  | .keyword =>
    if t.matchesStr cs!"instanceof" then 7
    else if t.matchesStr cs!"in" && hasIn then 7
    else 0
  | _ => 0

/-- syntax.rs:171-178 `is_iteration_kw` -/
def isIterationKw (t : Token) : Bool :=
  match t.tokentype with
  | .keyword => t.matchesStr cs!"do" || t.matchesStr cs!"while" || t.matchesStr cs!"for"
  | _ => false

/-- syntax.rs:180-187 `is_hoistable_dclr_kw` -/
def isHoistableDclrKw (t : Token) : Bool :=
  match t.tokentype with
  | .identifier | .keyword => t.matchesStr cs!"async" || t.matchesStr cs!"function"
  | _ => false

/-- syntax.rs:189-196 `is_lexical_dclr_kw` -/
def isLexicalDclrKw (t : Token) : Bool :=
  match t.tokentype with
  | .identifier | .keyword => t.matchesStr cs!"let" || t.matchesStr cs!"const"
  | _ => false

/-- syntax.rs:198-205 `is_lexical_dclr_or_var_kw` -/
def isLexicalDclrOrVarKw (t : Token) : Bool :=
  match t.tokentype with
  | .identifier | .keyword => t.matchesStr cs!"let" || t.matchesStr cs!"const" || t.matchesStr cs!"var"
  | _ => false

/-- syntax.rs:207-216 `is_dclr_kw` -/
def isDclrKw (t : Token) : Bool :=
  if t.isHoistableDclrKw || t.isLexicalDclrKw then true
  else match t.tokentype with
    | .keyword => t.matchesStr cs!"class"
    | _ => false

/-- syntax.rs:218-223 `is_strict_reserved_kw`; `none` when `to_str` panics -/
def isStrictReservedKw (t : Token) : Option Bool :=
  match t.toStr? with
  | none => none
  | some s =>
    some (s == cs!"implements" || s == cs!"interface" || s == cs!"package" || s == cs!"private" ||
          s == cs!"protected" || s == cs!"public")

end Token
end Giron

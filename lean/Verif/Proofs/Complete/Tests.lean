import Verif.Proofs.Complete.Base
/-
More tests on tokens in terms of words, and the tactic that decides branches.
-/
namespace Giron.Complete
open Giron M Spec Grammar Parser

section
set_option linter.unusedSectionVars false
@[simp] theorem kw_await : cs!"await" ∈ keywords := by decide
@[simp] theorem wordy_await : wordy cs!"await" = true := by decide
@[simp] theorem plain_await : plain cs!"await" = false := by decide
@[simp] theorem kw_break : cs!"break" ∈ keywords := by decide
@[simp] theorem wordy_break : wordy cs!"break" = true := by decide
@[simp] theorem plain_break : plain cs!"break" = false := by decide
@[simp] theorem kw_case : cs!"case" ∈ keywords := by decide
@[simp] theorem wordy_case : wordy cs!"case" = true := by decide
@[simp] theorem plain_case : plain cs!"case" = false := by decide
@[simp] theorem kw_catch : cs!"catch" ∈ keywords := by decide
@[simp] theorem wordy_catch : wordy cs!"catch" = true := by decide
@[simp] theorem plain_catch : plain cs!"catch" = false := by decide
@[simp] theorem kw_class : cs!"class" ∈ keywords := by decide
@[simp] theorem wordy_class : wordy cs!"class" = true := by decide
@[simp] theorem plain_class : plain cs!"class" = false := by decide
@[simp] theorem kw_const : cs!"const" ∈ keywords := by decide
@[simp] theorem wordy_const : wordy cs!"const" = true := by decide
@[simp] theorem plain_const : plain cs!"const" = false := by decide
@[simp] theorem kw_continue : cs!"continue" ∈ keywords := by decide
@[simp] theorem wordy_continue : wordy cs!"continue" = true := by decide
@[simp] theorem plain_continue : plain cs!"continue" = false := by decide
@[simp] theorem kw_debugger : cs!"debugger" ∈ keywords := by decide
@[simp] theorem wordy_debugger : wordy cs!"debugger" = true := by decide
@[simp] theorem plain_debugger : plain cs!"debugger" = false := by decide
@[simp] theorem kw_default : cs!"default" ∈ keywords := by decide
@[simp] theorem wordy_default : wordy cs!"default" = true := by decide
@[simp] theorem plain_default : plain cs!"default" = false := by decide
@[simp] theorem kw_delete : cs!"delete" ∈ keywords := by decide
@[simp] theorem wordy_delete : wordy cs!"delete" = true := by decide
@[simp] theorem plain_delete : plain cs!"delete" = false := by decide
@[simp] theorem kw_do : cs!"do" ∈ keywords := by decide
@[simp] theorem wordy_do : wordy cs!"do" = true := by decide
@[simp] theorem plain_do : plain cs!"do" = false := by decide
@[simp] theorem kw_else : cs!"else" ∈ keywords := by decide
@[simp] theorem wordy_else : wordy cs!"else" = true := by decide
@[simp] theorem plain_else : plain cs!"else" = false := by decide
@[simp] theorem kw_enum : cs!"enum" ∈ keywords := by decide
@[simp] theorem wordy_enum : wordy cs!"enum" = true := by decide
@[simp] theorem plain_enum : plain cs!"enum" = false := by decide
@[simp] theorem kw_export : cs!"export" ∈ keywords := by decide
@[simp] theorem wordy_export : wordy cs!"export" = true := by decide
@[simp] theorem plain_export : plain cs!"export" = false := by decide
@[simp] theorem kw_extends : cs!"extends" ∈ keywords := by decide
@[simp] theorem wordy_extends : wordy cs!"extends" = true := by decide
@[simp] theorem plain_extends : plain cs!"extends" = false := by decide
@[simp] theorem kw_finally : cs!"finally" ∈ keywords := by decide
@[simp] theorem wordy_finally : wordy cs!"finally" = true := by decide
@[simp] theorem plain_finally : plain cs!"finally" = false := by decide
@[simp] theorem kw_for : cs!"for" ∈ keywords := by decide
@[simp] theorem wordy_for : wordy cs!"for" = true := by decide
@[simp] theorem plain_for : plain cs!"for" = false := by decide
@[simp] theorem kw_function : cs!"function" ∈ keywords := by decide
@[simp] theorem wordy_function : wordy cs!"function" = true := by decide
@[simp] theorem plain_function : plain cs!"function" = false := by decide
@[simp] theorem kw_if : cs!"if" ∈ keywords := by decide
@[simp] theorem wordy_if : wordy cs!"if" = true := by decide
@[simp] theorem plain_if : plain cs!"if" = false := by decide
@[simp] theorem kw_import : cs!"import" ∈ keywords := by decide
@[simp] theorem wordy_import : wordy cs!"import" = true := by decide
@[simp] theorem plain_import : plain cs!"import" = false := by decide
@[simp] theorem kw_in : cs!"in" ∈ keywords := by decide
@[simp] theorem wordy_in : wordy cs!"in" = true := by decide
@[simp] theorem plain_in : plain cs!"in" = false := by decide
@[simp] theorem kw_instanceof : cs!"instanceof" ∈ keywords := by decide
@[simp] theorem wordy_instanceof : wordy cs!"instanceof" = true := by decide
@[simp] theorem plain_instanceof : plain cs!"instanceof" = false := by decide
@[simp] theorem kw_new : cs!"new" ∈ keywords := by decide
@[simp] theorem wordy_new : wordy cs!"new" = true := by decide
@[simp] theorem plain_new : plain cs!"new" = false := by decide
@[simp] theorem kw_return : cs!"return" ∈ keywords := by decide
@[simp] theorem wordy_return : wordy cs!"return" = true := by decide
@[simp] theorem plain_return : plain cs!"return" = false := by decide
@[simp] theorem kw_super : cs!"super" ∈ keywords := by decide
@[simp] theorem wordy_super : wordy cs!"super" = true := by decide
@[simp] theorem plain_super : plain cs!"super" = false := by decide
@[simp] theorem kw_switch : cs!"switch" ∈ keywords := by decide
@[simp] theorem wordy_switch : wordy cs!"switch" = true := by decide
@[simp] theorem plain_switch : plain cs!"switch" = false := by decide
@[simp] theorem kw_this : cs!"this" ∈ keywords := by decide
@[simp] theorem wordy_this : wordy cs!"this" = true := by decide
@[simp] theorem plain_this : plain cs!"this" = false := by decide
@[simp] theorem kw_throw : cs!"throw" ∈ keywords := by decide
@[simp] theorem wordy_throw : wordy cs!"throw" = true := by decide
@[simp] theorem plain_throw : plain cs!"throw" = false := by decide
@[simp] theorem kw_try : cs!"try" ∈ keywords := by decide
@[simp] theorem wordy_try : wordy cs!"try" = true := by decide
@[simp] theorem plain_try : plain cs!"try" = false := by decide
@[simp] theorem kw_typeof : cs!"typeof" ∈ keywords := by decide
@[simp] theorem wordy_typeof : wordy cs!"typeof" = true := by decide
@[simp] theorem plain_typeof : plain cs!"typeof" = false := by decide
@[simp] theorem kw_var : cs!"var" ∈ keywords := by decide
@[simp] theorem wordy_var : wordy cs!"var" = true := by decide
@[simp] theorem plain_var : plain cs!"var" = false := by decide
@[simp] theorem kw_void : cs!"void" ∈ keywords := by decide
@[simp] theorem wordy_void : wordy cs!"void" = true := by decide
@[simp] theorem plain_void : plain cs!"void" = false := by decide
@[simp] theorem kw_while : cs!"while" ∈ keywords := by decide
@[simp] theorem wordy_while : wordy cs!"while" = true := by decide
@[simp] theorem plain_while : plain cs!"while" = false := by decide
@[simp] theorem kw_with : cs!"with" ∈ keywords := by decide
@[simp] theorem wordy_with : wordy cs!"with" = true := by decide
@[simp] theorem plain_with : plain cs!"with" = false := by decide
@[simp] theorem kw_yield : cs!"yield" ∈ keywords := by decide
@[simp] theorem wordy_yield : wordy cs!"yield" = true := by decide
@[simp] theorem plain_yield : plain cs!"yield" = false := by decide
@[simp] theorem kw_let : cs!"let" ∉ keywords := by decide
@[simp] theorem wordy_let : wordy cs!"let" = true := by decide
@[simp] theorem plain_let : plain cs!"let" = true := by decide
@[simp] theorem kw_of : cs!"of" ∉ keywords := by decide
@[simp] theorem wordy_of : wordy cs!"of" = true := by decide
@[simp] theorem plain_of : plain cs!"of" = true := by decide
@[simp] theorem kw_async : cs!"async" ∉ keywords := by decide
@[simp] theorem wordy_async : wordy cs!"async" = true := by decide
@[simp] theorem plain_async : plain cs!"async" = true := by decide
@[simp] theorem kw_get : cs!"get" ∉ keywords := by decide
@[simp] theorem wordy_get : wordy cs!"get" = true := by decide
@[simp] theorem plain_get : plain cs!"get" = true := by decide
@[simp] theorem kw_set : cs!"set" ∉ keywords := by decide
@[simp] theorem wordy_set : wordy cs!"set" = true := by decide
@[simp] theorem plain_set : plain cs!"set" = true := by decide
@[simp] theorem kw_target : cs!"target" ∉ keywords := by decide
@[simp] theorem wordy_target : wordy cs!"target" = true := by decide
@[simp] theorem plain_target : plain cs!"target" = true := by decide
@[simp] theorem kw_from : cs!"from" ∉ keywords := by decide
@[simp] theorem wordy_from : wordy cs!"from" = true := by decide
@[simp] theorem plain_from : plain cs!"from" = true := by decide
@[simp] theorem kw_as : cs!"as" ∉ keywords := by decide
@[simp] theorem wordy_as : wordy cs!"as" = true := by decide
@[simp] theorem plain_as : plain cs!"as" = true := by decide
@[simp] theorem kw_static : cs!"static" ∉ keywords := by decide
@[simp] theorem wordy_static : wordy cs!"static" = true := by decide
@[simp] theorem plain_static : plain cs!"static" = true := by decide
@[simp] theorem kw_eval : cs!"eval" ∉ keywords := by decide
@[simp] theorem wordy_eval : wordy cs!"eval" = true := by decide
@[simp] theorem plain_eval : plain cs!"eval" = true := by decide
@[simp] theorem kw_arguments : cs!"arguments" ∉ keywords := by decide
@[simp] theorem wordy_arguments : wordy cs!"arguments" = true := by decide
@[simp] theorem plain_arguments : plain cs!"arguments" = true := by decide
@[simp] theorem kw_constructor : cs!"constructor" ∉ keywords := by decide
@[simp] theorem wordy_constructor : wordy cs!"constructor" = true := by decide
@[simp] theorem plain_constructor : plain cs!"constructor" = true := by decide
@[simp] theorem kw_null : cs!"null" ∉ keywords := by decide
@[simp] theorem wordy_null : wordy cs!"null" = false := by decide
@[simp] theorem plain_null : plain cs!"null" = false := by decide
@[simp] theorem kw_true : cs!"true" ∉ keywords := by decide
@[simp] theorem wordy_true : wordy cs!"true" = false := by decide
@[simp] theorem plain_true : plain cs!"true" = false := by decide
@[simp] theorem kw_false : cs!"false" ∉ keywords := by decide
@[simp] theorem wordy_false : wordy cs!"false" = false := by decide
@[simp] theorem plain_false : plain cs!"false" = false := by decide
end

variable [Env]

/-- what the token for a name is -/
def nameKind (u : Str) : TokenType := (nameToken u).1

/-- the word is a keyword or identifier, one of the list -/
def oneOf (c : Content) (l : List Str) : Bool :=
  match c with
  | .name u => wordy u && decide (u ∈ l)
  | _ => false

/-- the word is a keyword, one of the list -/
def kwOf (c : Content) (l : List Str) : Bool :=
  match c with
  | .name u => decide (u ∈ keywords) && decide (u ∈ l)
  | _ => false

/-- the word is a unary operator -/
def isUnary (c : Content) (awt : Bool) : Bool :=
  match c with
  | .punct p => decide (p ∈ [Punctuator.plus, .minus, .tilde, .bang])
  | .name u => decide (u ∈ [cs!"delete", cs!"void", cs!"typeof"]) || (decide (u = cs!"await") && awt)
  | _ => false

/-- the word is `++` or `--` -/
def isUpdate (c : Content) : Bool :=
  match c with
  | .punct p => decide (p = .inc) || decide (p = .dec)
  | _ => false

/-- the precedence of a punctuator as binary operator, or 0 -/
def binPrec : Punctuator → Nat
  | .logicalOr => 1
  | .logicalAnd => 2
  | .bitOr => 3
  | .bitXor => 4
  | .bitAnd => 5
  | .equal | .nEqual | .strictEqual | .strictNEqual => 6
  | .lAngle | .rAngle | .lEqual | .gEqual => 7
  | .lShift | .rShift | .zRShift => 8
  | .plus | .minus => 9
  | .star | .slash => 10
  | .mod => 11
  | _ => 0

/-- the precedence of a word as binary operator, or 0 -/
def prec (inn : Bool) : Content → Nat
  | .punct p => binPrec p
  | .name u => if u = cs!"instanceof" then 7 else if u = cs!"in" ∧ inn = true then 7 else 0
  | _ => 0

/-- the word is an assignment operator other than `=` (or `==`) -/
def isOpAssign (c : Content) : Bool :=
  match c with
  | .punct p => decide (p ∈ assignPuncts) || decide (p = .equal)
  | _ => false

/-- the word starts a template -/
def isHead (c : Content) : Bool :=
  match c with
  | .template _ _ h _ => h
  | _ => false

/-- the word is a string -/
def isString (c : Content) : Bool :=
  match c with
  | .string _ _ => true
  | _ => false

/-- the word is a number -/
def isNumber (c : Content) : Bool :=
  match c with
  | .number _ => true
  | _ => false

/-- the word is the end of input -/
def isEof (c : Content) : Bool :=
  match c with
  | .eof => true
  | _ => false

/-- the word is a number, a string, a boolean or `null` -/
def isLit (c : Content) : Bool :=
  match c with
  | .number _ | .string _ _ => true
  | .name u => !wordy u
  | _ => false

/-- the value of the word is the string -/
def says (c : Content) (v : Str) : Bool :=
  match c with
  | .name u => decide (u ≠ cs!"null") && decide (u = v)
  | .string u _ => decide (u = v)
  | .template u _ _ _ => decide (u = v)
  | .regexp _ _ => decide ([] = v)
  | _ => false

namespace Tok
variable {w : Word} {t : Token}

theorem isUpdateOp (h : Tok w t) : t.isUpdateOp = isUpdate w.c := by
  obtain ⟨l, k, i, j, rfl⟩ := h
  cases w.c with
  | name u => rcases nameToken_cases u with ⟨-, -, -, e⟩ | ⟨-, -, -, e⟩ | ⟨-, -, e⟩ | ⟨-, -, e⟩ <;>
      simp [Content.token, Token.isUpdateOp, isUpdate, e]
  | punct p => cases p <;> rfl
  | _ => rfl

theorem isAssignOp (h : Tok w t) : t.isAssignOp = isOpAssign w.c := by
  obtain ⟨l, k, i, j, rfl⟩ := h
  cases w.c with
  | name u => rcases nameToken_cases u with ⟨-, -, -, e⟩ | ⟨-, -, -, e⟩ | ⟨-, -, e⟩ | ⟨-, -, e⟩ <;>
      simp [Content.token, Token.isAssignOp, isOpAssign, e]
  | punct p => cases p <;> rfl
  | _ => rfl

theorem isUnaryOp (h : Tok w t) (a : Bool) : t.isUnaryOp a = some (isUnary w.c a) := by
  obtain ⟨l, k, i, j, rfl⟩ := h
  cases w.c with
  | name u =>
    rcases nameToken_cases u with ⟨rfl, hw, hk, e⟩ | ⟨h, hw, hk, e⟩ | ⟨hk, hw, e⟩ | ⟨hk, hw, e⟩
    · simp [Content.token, Token.isUnaryOp, Token.isUnaryPunc, Token.isUnaryKeyword, isUnary, e]
    · rcases h with rfl | rfl <;>
      simp [Content.token, Token.isUnaryOp, Token.isUnaryPunc, Token.isUnaryKeyword, isUnary, e]
    · simp [Content.token, Token.isUnaryOp, Token.isUnaryPunc, Token.isUnaryKeyword, isUnary, e, Token.toStr?,
        Bool.or_assoc]
      simp only [Bool.beq_eq_decide_eq]
    · have h1 : u ≠ cs!"delete" := by rintro rfl; simp at hk
      have h2 : u ≠ cs!"void" := by rintro rfl; simp at hk
      have h3 : u ≠ cs!"typeof" := by rintro rfl; simp at hk
      have h4 : u ≠ cs!"await" := by rintro rfl; simp at hk
      simp [Content.token, Token.isUnaryOp, Token.isUnaryPunc, Token.isUnaryKeyword, isUnary, e, h1, h2, h3, h4]
  | punct p => cases p <;> rfl
  | _ => rfl

theorem isBinOp (h : Tok w t) : t.isBinOp = decide (0 < prec true w.c) := by
  obtain ⟨l, k, i, j, rfl⟩ := h
  cases w.c with
  | name u =>
    rcases nameToken_cases u with ⟨rfl, hw, hk, e⟩ | ⟨h, hw, hk, e⟩ | ⟨hk, hw, e⟩ | ⟨hk, hw, e⟩
    · simp [Content.token, Token.isBinOp, prec, e]
    · rcases h with rfl | rfl <;> simp [Content.token, Token.isBinOp, prec, e]
    · simp [Content.token, Token.isBinOp, prec, e, Token.matchesStr]
      by_cases h1 : u = cs!"in" <;> by_cases h2 : u = cs!"instanceof" <;> simp [h1, h2]
    · have h1 : u ≠ cs!"in" := by rintro rfl; simp at hk
      have h2 : u ≠ cs!"instanceof" := by rintro rfl; simp at hk
      simp [Content.token, Token.isBinOp, prec, e, h1, h2]
  | punct p => cases p <;> rfl
  | _ => rfl

theorem precedence (h : Tok w t) (inn : Bool) : t.precedence inn = prec inn w.c := by
  obtain ⟨l, k, i, j, rfl⟩ := h
  cases w.c with
  | name u =>
    rcases nameToken_cases u with ⟨rfl, hw, hk, e⟩ | ⟨h, hw, hk, e⟩ | ⟨hk, hw, e⟩ | ⟨hk, hw, e⟩
    · simp [Content.token, Token.precedence, prec, e]
    · rcases h with rfl | rfl <;> simp [Content.token, Token.precedence, prec, e]
    · simp [Content.token, Token.precedence, prec, e, Token.matchesStr]
    · have h1 : u ≠ cs!"in" := by rintro rfl; simp at hk
      have h2 : u ≠ cs!"instanceof" := by rintro rfl; simp at hk
      simp [Content.token, Token.precedence, prec, e, h1, h2]
  | punct p => cases p <;> rfl
  | _ => rfl

theorem isIterationKw (h : Tok w t) : t.isIterationKw = kwOf w.c [cs!"do", cs!"while", cs!"for"] := by
  obtain ⟨l, k, i, j, rfl⟩ := h
  cases w.c with
  | name u => rcases nameToken_cases u with ⟨-, hw, hk, e⟩ | ⟨-, hw, hk, e⟩ | ⟨hk, hw, e⟩ | ⟨hk, hw, e⟩ <;>
      simp [Content.token, Token.isIterationKw, kwOf, Token.matchesStr, e, hk, Bool.or_assoc, Bool.decide_or]
  | _ => rfl

theorem isHoistableDclrKw (h : Tok w t) : t.isHoistableDclrKw = oneOf w.c [cs!"async", cs!"function"] := by
  obtain ⟨l, k, i, j, rfl⟩ := h
  cases w.c with
  | name u => rcases nameToken_cases u with ⟨-, hw, hk, e⟩ | ⟨-, hw, hk, e⟩ | ⟨hk, hw, e⟩ | ⟨hk, hw, e⟩ <;>
      simp [Content.token, Token.isHoistableDclrKw, oneOf, Token.matchesStr, e, hw, Bool.decide_or]
  | _ => rfl

theorem isLexicalDclrKw (h : Tok w t) : t.isLexicalDclrKw = oneOf w.c [cs!"let", cs!"const"] := by
  obtain ⟨l, k, i, j, rfl⟩ := h
  cases w.c with
  | name u => rcases nameToken_cases u with ⟨-, hw, hk, e⟩ | ⟨-, hw, hk, e⟩ | ⟨hk, hw, e⟩ | ⟨hk, hw, e⟩ <;>
      simp [Content.token, Token.isLexicalDclrKw, oneOf, Token.matchesStr, e, hw, Bool.decide_or]
  | _ => rfl

theorem isDclrKw (h : Tok w t) : t.isDclrKw =
    (oneOf w.c [cs!"async", cs!"function"] || oneOf w.c [cs!"let", cs!"const"] || Complete.isKw w.c cs!"class") := by
  unfold Token.isDclrKw
  rw [h.isHoistableDclrKw, h.isLexicalDclrKw]
  cases oneOf w.c [cs!"async", cs!"function"] <;> cases oneOf w.c [cs!"let", cs!"const"] <;> try rfl
  simp only [Bool.or_self, Bool.false_eq_true, if_false, Bool.false_or]
  obtain ⟨l, k, i, j, rfl⟩ := h
  cases w.c with
  | name u => rcases nameToken_cases u with ⟨-, hw, hk, e⟩ | ⟨-, hw, hk, e⟩ | ⟨hk, hw, e⟩ | ⟨hk, hw, e⟩ <;>
      simp [Content.token, Complete.isKw, Token.matchesStr, e, hk]
  | _ => rfl

theorem isLiteral (h : Tok w t) : isLiteralToken t = isLit w.c := by
  obtain ⟨l, k, i, j, rfl⟩ := h
  cases w.c with
  | name u => rcases nameToken_cases u with ⟨-, hw, hk, e⟩ | ⟨-, hw, hk, e⟩ | ⟨hk, hw, e⟩ | ⟨hk, hw, e⟩ <;>
      simp [Content.token, isLiteralToken, isLit, e, hw]
  | _ => rfl

theorem matchesStr (h : Tok w t) (v : Str) : t.matchesStr v = says w.c v := by
  obtain ⟨l, k, i, j, rfl⟩ := h
  cases w.c with
  | name u =>
    rcases nameToken_cases u with ⟨rfl, -, hk, e⟩ | ⟨h, -, hk, e⟩ | ⟨hk, -, e⟩ | ⟨hk, hw, e⟩
    · simp [Content.token, Token.matchesStr, says, e]
    · rcases h with rfl | rfl <;> simp [Content.token, Token.matchesStr, says, e]
    · have : u ≠ cs!"null" := by rintro rfl; simp at hk
      simp [Content.token, Token.matchesStr, says, e, this]
    · have : u ≠ cs!"null" := by rintro rfl; simp at hw
      simp [Content.token, Token.matchesStr, says, e, this]
  | _ => simp [Content.token, Token.matchesStr, says]

theorem punctuator (h : Tok w t) : (t.tokentype = .punctuator) = (∃ p, w.c = .punct p) := by
  obtain ⟨l, k, i, j, rfl⟩ := h
  cases w.c with
  | name u => rcases nameToken_cases u with ⟨-, hw, hk, e⟩ | ⟨-, hw, hk, e⟩ | ⟨hk, hw, e⟩ | ⟨hk, hw, e⟩ <;>
      simp [Content.token, e]
  | _ => simp [Content.token]

theorem string (h : Tok w t) : (t.tokentype = .stringLiteral) = (isString w.c = true) := by
  obtain ⟨l, k, i, j, rfl⟩ := h
  cases w.c with
  | name u => rcases nameToken_cases u with ⟨-, hw, hk, e⟩ | ⟨-, hw, hk, e⟩ | ⟨hk, hw, e⟩ | ⟨hk, hw, e⟩ <;>
      simp [Content.token, isString, e]
  | _ => simp [Content.token, isString]

theorem number (h : Tok w t) : (t.tokentype = .numericLiteral) = (isNumber w.c = true) := by
  obtain ⟨l, k, i, j, rfl⟩ := h
  cases w.c with
  | name u => rcases nameToken_cases u with ⟨-, hw, hk, e⟩ | ⟨-, hw, hk, e⟩ | ⟨hk, hw, e⟩ | ⟨hk, hw, e⟩ <;>
      simp [Content.token, isNumber, e]
  | _ => simp [Content.token, isNumber]

theorem eof (h : Tok w t) : (t.tokentype = .eof) = (isEof w.c = true) := by
  obtain ⟨l, k, i, j, rfl⟩ := h
  cases w.c with
  | name u => rcases nameToken_cases u with ⟨-, hw, hk, e⟩ | ⟨-, hw, hk, e⟩ | ⟨hk, hw, e⟩ | ⟨hk, hw, e⟩ <;>
      simp [Content.token, isEof, e]
  | _ => simp [Content.token, isEof]

theorem regexp (h : Tok w t) : (t.tokentype = .regularExpression) = (∃ p f, w.c = .regexp p f) := by
  obtain ⟨l, k, i, j, rfl⟩ := h
  cases w.c with
  | name u => rcases nameToken_cases u with ⟨-, hw, hk, e⟩ | ⟨-, hw, hk, e⟩ | ⟨hk, hw, e⟩ | ⟨hk, hw, e⟩ <;>
      simp [Content.token, e]
  | _ => simp [Content.token]

theorem template (h : Tok w t) : (t.tokentype = .template) = (∃ a b d e, w.c = .template a b d e) := by
  obtain ⟨l, k, i, j, rfl⟩ := h
  cases w.c with
  | name u => rcases nameToken_cases u with ⟨-, hw, hk, e⟩ | ⟨-, hw, hk, e⟩ | ⟨hk, hw, e⟩ | ⟨hk, hw, e⟩ <;>
      simp [Content.token, e]
  | _ => simp [Content.token]

theorem templateHead (h : Tok w t) : (t.tokentype = .template ∧ t.head = some true) = (isHead w.c = true) := by
  obtain ⟨l, k, i, j, rfl⟩ := h
  cases w.c with
  | name u => rcases nameToken_cases u with ⟨-, hw, hk, e⟩ | ⟨-, hw, hk, e⟩ | ⟨hk, hw, e⟩ | ⟨hk, hw, e⟩ <;>
      simp [Content.token, isHead, e]
  | _ => simp [Content.token, isHead]

/-- the value of a token -/
theorem value (h : Tok w t) : t.value = (w.c.token 0 0 0 0).value := by
  obtain ⟨l, k, i, j, rfl⟩ := h
  cases w.c <;> rfl

end Tok

/-! ### Branches -/

variable {α : Type} {s : Parser} {Q : α → Parser → Prop}

theorem ok_then {p : Prop} [Decidable p] {m m' : PM α} (hp : p) (h : Ok m s Q) : Ok (if p then m else m') s Q := by
  rw [if_pos hp]; exact h

theorem ok_else {p : Prop} [Decidable p] {m m' : PM α} (hp : ¬ p) (h : Ok m' s Q) : Ok (if p then m else m') s Q := by
  rw [if_neg hp]; exact h

/-- Decides a test on a token: `h` says which word it is; the list has facts about the word. -/
syntax "tk" term:max (" [" Lean.Parser.Tactic.simpLemma,* "]")? : tactic
macro_rules
  | `(tactic| tk $h) => `(tactic| tk $h [])
  | `(tactic| tk $h [$ls,*]) => `(tactic| (
      simp [Tok.isP $h, Tok.matchesPunc $h, Tok.isKw $h, Tok.isId $h, Tok.isIdOrKw $h, Tok.ident $h, Tok.keyword $h,
        Tok.isUpdateOp $h, Tok.isAssignOp $h, Tok.isBinOp $h, Tok.precedence $h, Tok.isIterationKw $h,
        Tok.isHoistableDclrKw $h, Tok.isLexicalDclrKw $h, Tok.isDclrKw $h, Tok.isLiteral $h, Tok.matchesStr $h, Tok.punctuator $h,
        Tok.string $h, Tok.number $h, Tok.eof $h, Tok.regexp $h, Tok.templateHead $h, Tok.template $h,
        isP, isKw, isId, isIdOrKw, isIdent, isKeyword, isUpdate, isOpAssign, isHead, isString, isNumber, isEof, isLit, says,
        kwOf, oneOf, $ls,*]; done))

/-- Goes through an `if` whose test `tk` decides. -/
syntax "br" term:max (" [" Lean.Parser.Tactic.simpLemma,* "]")? : tactic
macro_rules
  | `(tactic| br $h) => `(tactic| br $h [])
  | `(tactic| br $h [$ls,*]) => `(tactic| repeat first
      | (with_reducible refine ok_else ?_ ?_; focus tk $h [$ls,*])
      | (with_reducible refine ok_then ?_ ?_; focus tk $h [$ls,*]))

end Giron.Complete

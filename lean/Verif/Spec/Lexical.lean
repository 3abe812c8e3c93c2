import Verif.Spec.Text
import Verif.Model.Scanner
/-
The lexical grammar giron implements, as inductive relations on text.  Nothing here mentions the scanner: the
vocabulary is texts, characters and their classes.
-/
namespace Giron.Spec
open Giron

/-- `x` is the longest run of `p`-characters at the start of `x ++ r`. -/
def Run (p : Char → Bool) (x r : Str) : Prop := (∀ c ∈ x, p c = true) ∧ ∀ c, r.head? = some c → p c = false

/-! ### Trivia -/

/-- white space or a line terminator -/
def isBlank (c : Char) : Bool := charIsWhitespace c || isLineTerminator c

/-- the text has no `*/` in it -/
def NoClose (x : Str) : Prop := ∀ a b, x ≠ a ++ '*' :: '/' :: b

/-- `Trivia w r`: the text `w`, followed by `r`, is made of white space, line terminators and comments. -/
inductive Trivia : Str → Str → Prop
  | done {r : Str} : Trivia [] r
  | blank {c : Char} {w r : Str} : isBlank c = true → Trivia w r → Trivia (c :: w) r
  /-- a comment to the end of the line -/
  | line {body w r : Str} : Run (fun c => !isLineTerminator c) body (w ++ r) → Trivia w r →
      Trivia ('/' :: '/' :: (body ++ w)) r
  | block {body w r : Str} : NoClose body → Trivia w r → Trivia ('/' :: '*' :: (body ++ '*' :: '/' :: w)) r
  /-- giron accepts a block comment that is never closed -/
  | openBlock {body : Str} : NoClose body → Trivia ('/' :: '*' :: body) []

/-- The text begins with white space, a line terminator or a comment. -/
def StartsTrivia (r : Str) : Prop :=
  (∃ c x, r = c :: x ∧ isBlank c = true) ∨ (∃ x, r = '/' :: '/' :: x) ∨ ∃ x, r = '/' :: '*' :: x

/-! ### Digits and escapes -/

/-- the value of a hexadecimal digit -/
def digit (c : Char) : Nat :=
  if 'a' ≤ c then c.toNat - 'a'.toNat + 10 else if 'A' ≤ c then c.toNat - 'A'.toNat + 10 else c.toNat - '0'.toNat

/-- the value of a sequence of digits in a radix, most significant first -/
def numeral (radix : Nat) : Str → Nat
  | [] => 0
  | c :: cs => digit c * radix ^ cs.length + numeral radix cs

/-- `\xHH` -/
inductive HexEscape : Str → Char → Prop
  | mk {a b c : Char} : isHexDigit a = true → isHexDigit b = true → c.toNat = numeral 16 [a, b] →
      HexEscape ['\\', 'x', a, b] c

/-- `\uHHHH` and `\u{H...H}`.  giron also takes `\u{}` (as U+0000) and, in builds without overflow checks, reduces
the value modulo 2^32. -/
inductive UnicodeEscape [Env] : Str → Char → Prop
  | short {ds : Str} {c : Char} : ds.length = 4 → (∀ d ∈ ds, isHexDigit d = true) → c.toNat = numeral 16 ds →
      UnicodeEscape ('\\' :: 'u' :: ds) c
  | long {ds : Str} {c : Char} : (∀ d ∈ ds, isHexDigit d = true) →
      (Env.checked = true → numeral 16 ds < 2 ^ 32) → c.toNat = numeral 16 ds % 2 ^ 32 →
      UnicodeEscape ('\\' :: 'u' :: '{' :: (ds ++ ['}'])) c

/-! ### Names -/

/-- `IdTail x r v`: after a first character, `x` is the rest of a name followed by `r`, and spells `v`.  An escape is
written with *two* backslashes (giron swallows one before it looks for the escape). -/
inductive IdTail [Env] : Str → Str → Str → Prop
  | done {r : Str} : (∀ c, r.head? = some c → isIdentifierContinue c = false) → IdTail [] r []
  | char {c : Char} {x r v : Str} : isIdentifierContinue c = true → c ≠ '\\' → IdTail x r v →
      IdTail (c :: x) r (c :: v)
  | escape {e x r v : Str} {c : Char} : UnicodeEscape e c → IdTail x r v → IdTail ('\\' :: (e ++ x)) r (c :: v)

/-- The words that are keywords. -/
def keywords : List Str :=
  [cs!"await", cs!"break", cs!"case", cs!"catch", cs!"class", cs!"const", cs!"continue", cs!"debugger",
   cs!"default", cs!"delete", cs!"do", cs!"else", cs!"enum", cs!"export", cs!"extends", cs!"finally", cs!"for",
   cs!"function", cs!"if", cs!"import", cs!"in", cs!"instanceof", cs!"new", cs!"return", cs!"super",
   cs!"switch", cs!"this", cs!"throw", cs!"try", cs!"typeof", cs!"var", cs!"void", cs!"while", cs!"with",
   cs!"yield"]

/-- The kind and value of the token for a name. -/
def nameToken (v : Str) : TokenType × Value :=
  if v = cs!"null" then (.nullLiteral, .null)
  else if v = cs!"true" ∨ v = cs!"false" then (.booleanLiteral, .str v)
  else if v ∈ keywords then (.keyword, .str v)
  else (.identifier, .str v)

/-! ### Numbers -/

/-- An exponent part and the power of ten it stands for; `none` if there is no exponent. -/
inductive Exponent : Str → Str → Int → Prop
  | none {r : Str} : r.head? ≠ some 'e' → r.head? ≠ some 'E' → Exponent [] r 0
  | plain {e : Char} {ds r : Str} : e = 'e' ∨ e = 'E' → ds ≠ [] → Run isDecimalDigit ds r →
      Exponent (e :: ds) r (numeral 10 ds)
  | plus {e : Char} {ds r : Str} : e = 'e' ∨ e = 'E' → ds ≠ [] → Run isDecimalDigit ds r →
      Exponent (e :: '+' :: ds) r (numeral 10 ds)
  | minus {e : Char} {ds r : Str} : e = 'e' ∨ e = 'E' → ds ≠ [] → Run isDecimalDigit ds r →
      Exponent (e :: '-' :: ds) r (-(numeral 10 ds))

/-- `Number x r v`: the literal `x`, followed by `r`, denotes `v` (a natural number times a power of ten). -/
inductive Number : Str → Str → Num → Prop
  /-- `0b`, `0o`, `0x`; all hexadecimal digits that follow belong to the literal -/
  | radix {c : Char} {radix : Nat} {ds r : Str} :
      (c = 'b' ∨ c = 'B') ∧ radix = 2 ∨ (c = 'o' ∨ c = 'O') ∧ radix = 8 ∨ (c = 'x' ∨ c = 'X') ∧ radix = 16 →
      ds ≠ [] → Run isHexDigit ds r → (∀ d ∈ ds, digit d < radix) → numeral radix ds < 2 ^ 63 →
      Number ('0' :: c :: ds) r ⟨numeral radix ds, 0⟩
  /-- a literal that begins with `0` and is neither followed by a point nor at the end of input is octal … -/
  | octal {ds r : Str} : Run isDecimalDigit ds r → ds ++ r ≠ [] → (ds = [] → ∀ c, r.head? = some c →
        c ≠ '.' ∧ c ≠ 'b' ∧ c ≠ 'B' ∧ c ≠ 'o' ∧ c ≠ 'O' ∧ c ≠ 'x' ∧ c ≠ 'X') →
      (∀ d ∈ ds, digit d < 8) → numeral 8 ds < 2 ^ 63 → Number ('0' :: ds) r ⟨numeral 8 ds, 0⟩
  /-- … unless it has an 8 or a 9, when it is decimal; no fraction or exponent is read -/
  | octalLike {ds r : Str} : Run isDecimalDigit ds r → (∃ d ∈ ds, 8 ≤ digit d) → numeral 10 ds < 2 ^ 63 →
      Number ('0' :: ds) r ⟨numeral 10 ds, 0⟩
  /-- a decimal integer, with an exponent or not -/
  | integer {ds ex r : Str} {k : Int} : ds ≠ [] → (ds.head? = some '0' → ds ++ ex ++ r = ['0']) →
      Run isDecimalDigit ds (ex ++ r) → (ex ++ r).head? ≠ some '.' → Exponent ex r k →
      Number (ds ++ ex) r ⟨numeral 10 ds, k⟩
  /-- a decimal with a point; the digits before or after it may be missing, not both -/
  | fraction {ip fp ex r : Str} {k : Int} : ip ++ fp ≠ [] → (ip.head? = some '0' → ip = ['0']) →
      (∀ c ∈ ip, isDecimalDigit c = true) → Run isDecimalDigit fp (ex ++ r) → Exponent ex r k →
      Number (ip ++ '.' :: (fp ++ ex)) r ⟨numeral 10 (ip ++ fp), k - fp.length⟩

/-! ### Strings -/

/-- a backslash followed by the first stands for the second -/
def singleEscapes : List (Char × Char) :=
  [('\'', '\''), ('"', '"'), ('\\', '\\'), ('b', '\u0008'), ('f', '\u000c'), ('n', '\n'), ('r', '\r'), ('t', '\t'),
   ('v', '\u000b')]

/-- `LineBreak b r`: the text `b`, followed by `r`, is one line break. -/
inductive LineBreak : Str → Str → Prop
  | crlf {r : Str} : LineBreak ['\r', '\n'] r
  | single {c : Char} {r : Str} : isLineTerminator c = true → (c = '\r' → r.head? ≠ some '\n') → LineBreak [c] r

/-- `StringItem x r c o`: in a string literal, `x` followed by `r` stands for the character `c`; `o` tells whether an
octal escape was used.  Deviations from ECMAScript: a backslash before any other character stands for itself; an octal
escape takes every octal digit that follows; after a line continuation the next character belongs to the string even
if it is the quote. -/
inductive StringItem [Env] : Str → Str → Char → Bool → Prop
  | char {c : Char} {r : Str} : c ≠ '\\' → isLineTerminator c = false → StringItem [c] r c false
  | escape {c v : Char} {r : Str} : (c, v) ∈ singleEscapes → StringItem ['\\', c] r v false
  | hex {x r : Str} {c : Char} : HexEscape x c → StringItem x r c false
  | unicode {x r : Str} {c : Char} : UnicodeEscape x c → StringItem x r c false
  | octal {ds r : Str} {c : Char} : ds ≠ [] → Run isOctalDigit ds r → numeral 8 ds < 2 ^ 63 →
      c.toNat = numeral 8 ds % 2 ^ 32 → StringItem ('\\' :: ds) r c true
  | continuation {b x r : Str} {c : Char} {o : Bool} : LineBreak b (x ++ r) → StringItem x r c o →
      StringItem ('\\' :: (b ++ x)) r c o
  | backslash {r : Str} : (∀ c, r.head? = some c → (∀ v, (c, v) ∉ singleEscapes) ∧ isLineTerminator c = false ∧
      c ≠ 'x' ∧ c ≠ 'u' ∧ isOctalDigit c = false) → StringItem ['\\'] r '\\' false

/-- `StringBody q x r v o`: between quotes `q`, the text `x` followed by `r` spells `v`. -/
inductive StringBody [Env] (q : Char) : Str → Str → Str → Bool → Prop
  | done {r : Str} : StringBody q [] r [] false
  | item {x y r v : Str} {c : Char} {o p : Bool} : x.head? ≠ some q → StringItem x (y ++ r) c o →
      StringBody q y r v p → StringBody q (x ++ y) r (c :: v) (o || p)

/-! ### Templates -/

/-- `TemplateItem x r c`: in a template, `x` followed by `r` stands for the character `c`.  Deviations from ECMAScript:
a line continuation stands for U+0000; CR LF gives two line feeds; a backslash at the end of input stands for
itself. -/
inductive TemplateItem [Env] : Str → Str → Char → Prop
  | char {c : Char} {r : Str} : c ≠ '\\' → isLineTerminator c = false → TemplateItem [c] r c
  | newline {c : Char} {r : Str} : isLineTerminator c = true → TemplateItem [c] r '\n'
  | escape {c v : Char} {r : Str} : c ∈ cs!"bfvnrt" → (c, v) ∈ singleEscapes → TemplateItem ['\\', c] r v
  | hex {x r : Str} {c : Char} : HexEscape x c → TemplateItem x r c
  | unicode {x r : Str} {c : Char} : UnicodeEscape x c → TemplateItem x r c
  | continuation {b r : Str} : LineBreak b r → TemplateItem ('\\' :: b) r '\x00'
  | other {c : Char} {r : Str} : c ∉ cs!"bfvnrtxu" → isLineTerminator c = false → TemplateItem ['\\', c] r c
  | backslash : TemplateItem ['\\'] [] '\\'

/-- the text begins with a backtick or `${` -/
def EndsChunk (r : Str) : Prop := (∃ y, r = '`' :: y) ∨ ∃ y, r = '$' :: '{' :: y

/-- `TemplateBody x r v`: the template characters `x`, followed by `r`, spell `v`. -/
inductive TemplateBody [Env] : Str → Str → Str → Prop
  | done {r : Str} : TemplateBody [] r []
  | item {x y r v : Str} {c : Char} : ¬ EndsChunk (x ++ y ++ r) → TemplateItem x (y ++ r) c → TemplateBody y r v →
      TemplateBody (x ++ y) r (c :: v)

/-! ### Regular expressions -/

/-- `RegExpBody x r`: the text `x` followed by `r` is the body of a regular expression.  A class runs to the next `]`,
escaped or not. -/
inductive RegExpBody : Str → Str → Prop
  | done {r : Str} : RegExpBody [] r
  | char {c : Char} {x r : Str} : c ≠ '/' → c ≠ '\\' → c ≠ '[' → RegExpBody x r → RegExpBody (c :: x) r
  | escape {c : Char} {x r : Str} : RegExpBody x r → RegExpBody ('\\' :: c :: x) r
  | cls {g x r : Str} : Run (fun c => c != ']') g (x ++ r) → RegExpBody x r → RegExpBody ('[' :: (g ++ x)) r

/-! ### Punctuators -/

/-- The punctuators the scanner can produce.  (`>>=`, `?.` and `??` are in giron's table but are never scanned.) -/
def punctuators : List Str :=
  [cs!"{", cs!"}", cs!"(", cs!")", cs!"[", cs!"]", cs!".", cs!"...", cs!";", cs!",", cs!"<", cs!">", cs!"<=", cs!">=",
   cs!"==", cs!"!=", cs!"===", cs!"!==", cs!"+", cs!"-", cs!"*", cs!"%", cs!"**", cs!"++", cs!"--", cs!"<<",
   cs!">>", cs!">>>", cs!"&", cs!"|", cs!"^", cs!"!", cs!"~", cs!"&&", cs!"||", cs!"?", cs!":", cs!"=", cs!"+=",
   cs!"-=", cs!"*=", cs!"%=", cs!"**=", cs!"<<=", cs!">>>=", cs!"&=", cs!"|=", cs!"^=", cs!"=>", cs!"/",
   cs!"/="]

/-- `Punct x r p`: `x` is the longest punctuator at the start of `x ++ r`, and it is `p`.  A binary operator character
that could be doubled or followed by `=` must not be the last character of the input. -/
def Punct (x r : Str) (p : Punctuator) : Prop :=
  x ∈ punctuators ∧ p.toStr = x ∧ (∀ y ∈ punctuators, y <+: x ++ r → y.length ≤ x.length) ∧
    (r = [] → x ∉ [cs!"+", cs!"-", cs!"&", cs!"|", cs!"%", cs!"^"])

/-! ### Tokens -/

/-- What a token says, without its position. -/
inductive Content
  | eof
  | name (v : Str)
  | number (n : Num)
  | string (v : Str) (octal : Bool)
  /-- `head`: opened by a backtick; `tail`: closed by one -/
  | template (raw cooked : Str) (head tail : Bool)
  | regexp (pattern flags : Str)
  | punct (p : Punctuator)

/-- A text of template characters between an opening and a closing: a backtick or `}` before, a backtick or `${`
after. -/
inductive TemplateEnds (resume : Bool) : Char → Str → Bool → Bool → Prop
  | whole : TemplateEnds resume '`' cs!"`" true true
  | first : TemplateEnds resume '`' cs!"${" true false
  | middle : resume = true → TemplateEnds resume '}' cs!"${" false false
  | last : resume = true → TemplateEnds resume '}' cs!"`" false true

/-- `Lexeme goal resume x r c`: at the start of `x ++ r` the token is `x` and says `c`.  `goal` tells whether a `/`
divides or begins a regular expression; `resume` whether a `}` goes on with a template. -/
inductive Lexeme [Env] (goal : LexGoal) (resume : Bool) : Str → Str → Content → Prop
  | eof : Lexeme goal resume [] [] .eof
  | name {c : Char} {x r v : Str} : isIdentifierStart c = true → IdTail x r v →
      Lexeme goal resume (c :: x) r (.name (c :: v))
  | number {x r : Str} {n : Num} : Number x r n → Lexeme goal resume x r (.number n)
  | string {q : Char} {x r v : Str} {o : Bool} : q = '\'' ∨ q = '"' → StringBody q x (q :: r) v o →
      Lexeme goal resume (q :: (x ++ [q])) r (.string v o)
  | template {b : Char} {x e r v : Str} {head tail : Bool} : TemplateEnds resume b e head tail →
      TemplateBody x (e ++ r) v → Lexeme goal resume (b :: (x ++ e)) r (.template x v head tail)
  | regexp {x f r v : Str} : goal = .regExp → x.head? ≠ some '*' → RegExpBody x ('/' :: (f ++ r)) → IdTail f r v →
      Lexeme goal resume ('/' :: (x ++ '/' :: f)) r (.regexp x v)
  | punct {x r : Str} {p : Punctuator} : Punct x r p → (x = cs!"." → ∀ c, r.head? = some c → isDecimalDigit c = false) →
      (x = cs!"}" → resume = false) → (x.head? = some '/' → goal = .div) → Lexeme goal resume x r (.punct p)

/-- The token that says `c` at a position. -/
def Content.token (line col start stop : Nat) : Content → Token
  | .eof => ⟨.eof, .null, none, none, none, none, none, none, line, col, start, stop⟩
  | .name v => ⟨(nameToken v).1, (nameToken v).2, none, none, none, none, none, none, line, col, start, stop⟩
  | .number n => ⟨.numericLiteral, .num n, none, none, none, none, none, none, line, col, start, stop⟩
  | .string v o => ⟨.stringLiteral, .str v, none, none, some o, none, none, none, line, col, start, stop⟩
  | .template raw cooked head tail =>
    ⟨.template, .str raw, none, none, some false, some cooked, some head, some tail, line, col, start, stop⟩
  | .regexp p f => ⟨.regularExpression, .str [], some p, some f, none, none, none, none, line, col, start, stop⟩
  | .punct p => ⟨.punctuator, .punc p, none, none, none, none, none, none, line, col, start, stop⟩

/-- The braces open after a token: what opened them, innermost first. -/
def Content.braces : Content → List Brace → List Brace
  | .punct .lBrace, b => .lBrace :: b
  | .punct .rBrace, b => b.tail
  | .template _ _ true true, b => b
  | .template _ _ true false, b => .template :: b
  | .template _ _ false true, b => b.tail
  | .template _ _ false false, b => .template :: b.tail
  | _, b => b

end Giron.Spec

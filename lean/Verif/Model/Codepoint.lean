import Verif.Model.Basic
/-
giron/src/codepoint/codepoint.rs
-/
namespace Giron
variable [Env]

/-- codepoint.rs:18-26 `is_whitespace` of the trait `CodePoint`.  Never called: `cp.is_whitespace()` on a `char`
(scanner.rs:97) resolves to the inherent method of `char`, `charIsWhitespace` below. -/
def isWhitespace (c : Char) : Bool :=
  c == '\u0009' || c == '\u000B' || c == '\u000C' || c == '\u0020' || c == '\u00A0' || c == '\uFEFF' ||
  c == '\u1680' || c == '\u2000' || c == '\u2001' || c == '\u2002' || c == '\u2003' || c == '\u2004' ||
  c == '\u2005' || c == '\u2006' || c == '\u2007' || c == '\u2008' || c == '\u2009' || c == '\u200A' ||
  c == '\u202F' || c == '\u205F' || c == '\u3000'

/-- `char::is_whitespace` of the Rust standard library (Unicode `White_Space`), the method that
scanner.rs:97 calls: an inherent method takes precedence over the trait method of the same name. -/
def charIsWhitespace (c : Char) : Bool :=
  c == ' ' || (9 ≤ c.toNat && c.toNat ≤ 13) || c == '\u0085' || c == '\u00A0' || c == '\u1680' ||
  (0x2000 ≤ c.toNat && c.toNat ≤ 0x200A) || c == '\u2028' || c == '\u2029' || c == '\u202F' ||
  c == '\u205F' || c == '\u3000'

/-- codepoint.rs:28-33 `is_line_terminator` -/
def isLineTerminator (c : Char) : Bool :=
  c == '\n' || c == '\r' || c == '\u2028' || c == '\u2029'

/-- Rust range pattern `lo..=hi`. -/
def inRange (lo hi c : Char) : Bool := lo.toNat ≤ c.toNat && c.toNat ≤ hi.toNat

/-- `ucd`'s `is_id_start`.  Simplification: on ASCII the Unicode table is exactly the letters, so it is
decided here and only non-ASCII characters are left to `Env`. -/
def ucdIdStart (c : Char) : Bool :=
  if c.toNat < 128 then inRange 'A' 'Z' c || inRange 'a' 'z' c else Env.idStart c

/-- `ucd`'s `is_id_continue`.  On ASCII: letters, digits, `_`. -/
def ucdIdContinue (c : Char) : Bool :=
  if c.toNat < 128 then inRange 'A' 'Z' c || inRange 'a' 'z' c || inRange '0' '9' c || c == '_'
  else Env.idContinue c

/-- codepoint.rs:35-41 `is_identifier_start` -/
def isIdentifierStart (c : Char) : Bool :=
  c == '$' || c == '_' || inRange 'A' 'Z' c || inRange 'a' 'z' c || ucdIdStart c

/-- codepoint.rs:43-48 `is_identifier_continue` (`'\u{005C}'` is the backslash) -/
def isIdentifierContinue (c : Char) : Bool :=
  c == '$' || c == '_' || inRange 'A' 'Z' c || inRange 'a' 'z' c || inRange '0' '9' c || c == '\\' ||
  ucdIdContinue c

omit [Env]

/-- codepoint.rs:50-55 `is_decimal_digit` -/
def isDecimalDigit (c : Char) : Bool := inRange '0' '9' c

/-- codepoint.rs:64-69 `is_octal_digit` -/
def isOctalDigit (c : Char) : Bool := inRange '0' '7' c

/-- codepoint.rs:71-76 `is_hex_digit` -/
def isHexDigit (c : Char) : Bool := inRange '0' '9' c || inRange 'a' 'f' c || inRange 'A' 'F' c

/-- codepoint.rs:78-83 `is_single_escape_char` -/
def isSingleEscapeChar (c : Char) : Bool :=
  c == '\'' || c == '"' || c == '\\' || c == 'b' || c == 'f' || c == 'n' || c == 'r' || c == 't' || c == 'v'

/-- codepoint.rs:85-95 `unescape` -/
def unescape (c : Char) : Char :=
  if c == 'b' then '\x08' else if c == 'f' then '\x0C' else if c == 'n' then '\n'
  else if c == 'r' then '\r' else if c == 't' then '\t' else if c == 'v' then '\x0B' else c

/-- codepoint.rs:97-102 `is_single_char_punctuator` -/
def isSingleCharPunctuator (c : Char) : Bool :=
  c == '{' || c == '(' || c == '[' || c == ';' || c == ',' || c == ']' || c == ':' || c == '?' ||
  c == '~' || c == ')'

/-- `char::to_digit(16)` of the Rust standard library. -/
def toDigit16 (c : Char) : Option Nat :=
  if inRange '0' '9' c then some (c.toNat - 48)
  else if inRange 'a' 'f' c then some (c.toNat - 87)
  else if inRange 'A' 'F' c then some (c.toNat - 55)
  else none

/-- `char::from_u32` of the Rust standard library. -/
def charFromU32 (n : Nat) : Option Char :=
  if h : n.isValidChar then some (Char.ofNatAux n h) else none

end Giron

import Verif.Model.Token
/-
giron/src/scanner/scanner.rs.

The reader is modelled by the list of characters not yet returned by `Reader::next` (`rest`); `Reader.lean`
and `Proofs/Reader.lean` justify this.  Loops take a budget equal to the number of remaining characters
plus one; running out is `Fail.fuel`, proved impossible.
-/
namespace Giron
open M

/-- scanner.rs:12-15 `enum LexGoal` -/
inductive LexGoal | div | regExp
deriving DecidableEq, Repr

/-- scanner.rs:18-21 `enum Brace` -/
inductive Brace | template | lBrace
deriving DecidableEq, Repr

/-- scanner.rs:23-31 `struct ScannerState` -/
structure ScannerState where
  start : Nat
  current : Nat
  line : Nat
  col : Nat
  newline : Bool
  rawString : Str
  curly : List Brace
deriving DecidableEq, Repr

/-- scanner.rs:33-45 `struct Scanner`.  `curly` has its top at the head; `rest` is the reader. -/
structure Scanner where
  start : Nat
  current : Nat
  line : Nat
  col : Nat
  newline : Bool
  rest : Str
  recordRaw : Bool
  rawString : Str
  curly : List Brace
  unscanned : Option Token
  state : Option ScannerState
deriving Repr

/-- Scanner methods. -/
abbrev SM := M Scanner

namespace Scanner
variable [Env]

/-- scanner.rs:51-65 `new` -/
def new (source : Str) : Scanner :=
  { start := 0, current := 0, line := 1, col := 1, newline := false, rest := source,
    recordRaw := false, rawString := [], curly := [], unscanned := none, state := none }

/-! ### Utility (scanner.rs:906-1074) -/

/-- scanner.rs:941-943 `peek` -/
def peek : SM (Option Char) := fun s => .ok (s.rest.head?, s)

/-- scanner.rs:945-947 `peek2` -/
def peek2 : SM (Option Char × Option Char) := fun s => .ok ((s.rest[0]?, s.rest[1]?), s)

/-- scanner.rs:949-968: the state after `consume` -/
def afterConsume (s : Scanner) : Scanner :=
  match s.rest with
  | [] => { s with current := s.current + 1, col := s.col + 1 }
  | c :: rest =>
    let s1 := { s with rest, current := s.current + 1, col := s.col + 1,
                       rawString := if s.recordRaw then s.rawString ++ [c] else s.rawString }
    if c = '\r' ∧ rest.head? = some '\n' then s1
    else if isLineTerminator c then { s1 with line := s1.line + 1, col := 1, newline := true }
    else s1

/-- scanner.rs:949-968 `consume` -/
def consume : SM (Option Char) := fun s => .ok (s.rest.head?, afterConsume s)

/-- scanner.rs:1067-1073 `error` -/
def error {α} (t : ErrorType) : SM α := fun s => .error (.err ⟨s.line, s.col, t⟩)

/-- `self.consume().unwrap()` -/
def consumeUnwrap : SM Char := do
  let c ← consume
  unwrap .scanUnwrap c

/-- `self.consume().ok_or(Error { line: self.line, col: self.col, errortype })` -/
def consumeOr (t : ErrorType) : SM Char := do
  match ← consume with
  | some c => pure c
  | none => error t

/-- scanner.rs:970-973 `start_new_token` -/
def startNewToken : SM Unit := modify fun s => { s with col := 1, start := s.current }

/-- scanner.rs:975-977 `start_recording` -/
def startRecording : SM Unit := modify fun s => { s with recordRaw := true }

/-- scanner.rs:979-982 `stop_recording` -/
def stopRecording : SM Str := fun s => .ok (s.rawString, { s with recordRaw := false, rawString := [] })

/-- scanner.rs:984-1009 `token`; `end: self.current - 1` panics or wraps when `current = 0` -/
def token (tokentype : TokenType) (value : Value) (pattern : Option Str) (flags : Option (List Char))
    (octal : Option Bool) (cooked : Option Str) (head tail : Option Bool) : SM Token := fun s =>
  if s.current = 0 ∧ Env.checked then .error (.panic .tokenEndUnderflow)
  else .ok ({ tokentype, value, pattern, flags, octal, cooked, head, tail, lineNum := s.line, col := s.col,
              start := s.start, «end» := if s.current = 0 then Env.usizeMax else s.current - 1 }, s)

/-- scanner.rs:1011-1013 `token_simple` -/
def tokenSimple (tokentype : TokenType) (value : Value) : SM Token :=
  token tokentype value none none none none none none

/-- scanner.rs:1015-1020 `expect` -/
def expect (expected : Char) : SM Unit := do
  let c ← consume
  if c = some expected then pure () else error .invalidOrUnexpectedToken

/-- scanner.rs:1022-1027 `matches` -/
def «matches» (expected : Char) : SM Bool := do
  let c ← peek
  pure (decide (c = some expected))

/-- scanner.rs:910-923 `scan_until_with` with a loop budget.  The Rust pushes the characters returned by
`read` to a `String`; here `read` may return any item and the items are collected in order. -/
def scanUntilF {α} (pred : Char → Bool) (read : SM α) : Nat → SM (List α)
  | 0 => fail .fuel
  | n + 1 => do
    match ← peek with
    | none => pure []
    | some cp =>
      if pred cp then pure []
      else do
        let x ← read
        let xs ← scanUntilF pred read n
        pure (x :: xs)

/-- scanner.rs:910-923 `scan_until_with` -/
def scanUntil {α} (pred : Char → Bool) (read : SM α) : SM (List α) := fun s =>
  scanUntilF pred read (s.rest.length + 1) s

/-- scanner.rs:925-939 `scan2_until_with` with a loop budget -/
def scan2UntilF (pred : Option Char → Option Char → Bool) (read : SM Char) : Nat → SM Str
  | 0 => fail .fuel
  | n + 1 => do
    match ← peek2 with
    | (none, _) => pure []
    | (some c1, c2) =>
      if pred (some c1) c2 then pure []
      else do
        let x ← read
        let xs ← scan2UntilF pred read n
        pure (x :: xs)

/-- scanner.rs:925-939 `scan2_until_with` -/
def scan2Until (pred : Option Char → Option Char → Bool) (read : SM Char) : SM Str := fun s =>
  scan2UntilF pred read (s.rest.length + 1) s

/-- scanner.rs:1029-1048 `save_state` -/
def saveState : SM Unit := modify fun s =>
  { s with state := some { start := s.start, current := s.current, line := s.line, col := s.col,
                           newline := s.newline, rawString := s.rawString, curly := s.curly } }

/-- scanner.rs:1050-1065 `restore_state`: the reader is *not* rewound, the token is pushed back instead. -/
def restoreState (t : Token) : SM Unit := fun s =>
  match s.state with
  | some st => .ok ((), { s with state := none, start := st.start, current := st.current, line := st.line,
                                 col := st.col, newline := st.newline, rawString := st.rawString,
                                 curly := st.curly, unscanned := some t })
  | none => .error (.panic .restoreUnsaved)

/-! ### Comments and white space (scanner.rs:94-144) -/

/-- scanner.rs:117-125: loop of `scan_singleline_comment` -/
def singleLineLoop : Nat → SM Unit
  | 0 => fail .fuel
  | n + 1 => do
    match ← peek with
    | none => pure ()
    | some cp => if isLineTerminator cp then pure () else do let _ ← consume; singleLineLoop n

/-- scanner.rs:114-126 `scan_singleline_comment` -/
def scanSinglelineComment : SM Unit := do
  let _ ← consume
  let _ ← consume
  fun s => singleLineLoop (s.rest.length + 1) s

/-- scanner.rs:131-143: loop of `scan_multiline_comment`; end of input ends the comment silently -/
def multiLineLoop : Nat → SM Unit
  | 0 => fail .fuel
  | n + 1 => do
    match ← peek2 with
    | (none, _) => pure ()
    | (some c1, c2) =>
      if c1 = '*' ∧ c2 = some '/' then do let _ ← consume; let _ ← consume; pure ()
      else do let _ ← consume; multiLineLoop n

/-- scanner.rs:128-144 `scan_multiline_comment` -/
def scanMultilineComment : SM Unit := do
  let _ ← consume
  let _ ← consume
  fun s => multiLineLoop (s.rest.length + 1) s

/-- scanner.rs:94-112 `scan_comments` with a loop budget -/
def scanCommentsF : Nat → SM Unit
  | 0 => fail .fuel
  | n + 1 => do
    match ← peek2 with
    | (none, _) => pure ()
    | (some c1, c2) =>
      if charIsWhitespace c1 then do let _ ← consume; scanCommentsF n
      else if c1 = '\r' ∧ c2 = some '\n' then do let _ ← consume; let _ ← consume; scanCommentsF n
      else if isLineTerminator c1 then do let _ ← consume; scanCommentsF n
      else if c1 = '/' ∧ c2 = some '/' then do scanSinglelineComment; scanCommentsF n
      else if c1 = '/' ∧ c2 = some '*' then do scanMultilineComment; scanCommentsF n
      else pure ()

/-- scanner.rs:94-112 `scan_comments` -/
def scanComments : SM Unit := fun s => scanCommentsF (s.rest.length + 1) s

/-! ### Escapes -/

/-- scanner.rs:213: one step of `fold(0, |value, cp| value * 16 + cp.to_digit(16).unwrap())` on `u32`:
overflow panics when checked, wraps modulo 2^32 otherwise. -/
def foldHexStep (value : Nat) (cp : Char) : SM Nat := do
  let d ← unwrap .toDigitUnwrap (toDigit16 cp)
  let v := value * 16 + d
  if v < 4294967296 then pure v
  else if Env.checked then panic .escOverflow
  else pure (v % 4294967296)

/-- scanner.rs:213: the fold -/
def foldHex : Nat → Str → SM Nat
  | value, [] => pure value
  | value, c :: cs => do
    let v ← foldHexStep value c
    foldHex v cs

/-- scanner.rs:223-231 and 537-543: `for _ in 0..n { match self.consume() { hex digit => accumulate } }` -/
def hexDigits (t : ErrorType) : Nat → Nat → SM Nat
  | 0, value => pure value
  | n + 1, value => do
    match ← consume with
    | some cp =>
      if isHexDigit cp then do
        let d ← unwrap .toDigitUnwrap (toDigit16 cp)
        hexDigits t n (value * 16 + d)
      else error t
    | none => error t

/-- `char::from_u32(value).ok_or(Error { .. })` -/
def charOr (t : ErrorType) (v : Nat) : SM Char :=
  match charFromU32 v with
  | some c => pure c
  | none => error t

/-- scanner.rs:196-236 `scan_unicode_esc_seq` -/
def scanUnicodeEscSeq : SM Char := do
  expect '\\'
  expect 'u'
  if ← «matches» '{' then do
    let _ ← consume
    let ds ← scanUntil (fun cp => !isHexDigit cp) (consumeOr .unexpectedEOS)
    let value ← foldHex 0 ds
    expect '}'
    charOr .invalidUnicodeEscapeSequence value
  else do
    let value ← hexDigits .invalidUnicodeEscapeSequence 4 0
    charOr .invalidOrUnexpectedToken value

/-! ### Identifiers (scanner.rs:150-275) -/

/-- scanner.rs:179-191 `scan_identifier_start` -/
def scanIdentifierStart : SM Char := do
  let cp ← (do
    match ← peek with
    | some '\\' => scanUnicodeEscSeq
    | some _ => consumeUnwrap
    | none => error .unexpectedEOS)
  if isIdentifierStart cp then pure cp else error .invalidOrUnexpectedToken

/-- scanner.rs:154-162 and 620-627: the `read` closure of identifiers and regular expression flags -/
def readIdPart : SM Char := do
  let cp ← consumeUnwrap
  if cp = '\\' then scanUnicodeEscSeq else pure cp

/-- Number of bytes of a string (`str::len`). -/
def byteLen (s : Str) : Nat := (s.map Char.utf8Size).sum

/-- scanner.rs:239-275 `is_keyword` -/
def isKeyword (v : Str) : Bool :=
  match byteLen v with
  | 2 => v == cs!"do" || v == cs!"if" || v == cs!"in"
  | 3 => v == cs!"for" || v == cs!"new" || v == cs!"try" || v == cs!"var"
  | 4 => v == cs!"case" || v == cs!"else" || v == cs!"this" || v == cs!"void" || v == cs!"with" || v == cs!"enum"
  | 5 => v == cs!"await" || v == cs!"break" || v == cs!"catch" || v == cs!"class" || v == cs!"const" ||
         v == cs!"super" || v == cs!"throw" || v == cs!"while" || v == cs!"yield"
  | 6 => v == cs!"delete" || v == cs!"export" || v == cs!"import" || v == cs!"return" || v == cs!"switch" ||
         v == cs!"typeof"
  | 7 => v == cs!"default" || v == cs!"extends" || v == cs!"finally"
  | 8 => v == cs!"continue" || v == cs!"debugger" || v == cs!"function"
  | 10 => v == cs!"instanceof"
  | _ => false

/-- scanner.rs:166-176: token for a scanned identifier name -/
def identifierToken (value : Str) : SM Token :=
  if value = cs!"null" then tokenSimple .nullLiteral .null
  else if value = cs!"true" ∨ value = cs!"false" then tokenSimple .booleanLiteral (.str value)
  else if isKeyword value then tokenSimple .keyword (.str value)
  else tokenSimple .identifier (.str value)

/-- scanner.rs:150-177 `scan_identifier` -/
def scanIdentifier : SM Token := do
  let c ← scanIdentifierStart
  let part ← scanUntil (fun cp => cp != '\\' && !isIdentifierContinue cp) readIdPart
  identifierToken (c :: part)

/-! ### Numeric literals (scanner.rs:281-405) -/

/-- Value of a digit string in a radix (digits above the radix rejected). -/
def digitsVal (radix : Nat) : Nat → Str → Option Nat
  | acc, [] => some acc
  | acc, c :: cs =>
    match toDigit16 c with
    | some d => if d < radix then digitsVal radix (acc * radix + d) cs else none
    | none => none

/-- `i64::from_str_radix` on a string of digit characters (never signed here): empty, a digit outside the
radix, and values above `i64::MAX` are errors. -/
def parseI64 (radix : Nat) (s : Str) : Option Nat :=
  if s = [] then none
  else match digitsVal radix 0 s with
    | some v => if v < 9223372036854775808 then some v else none
    | none => none

/-- Decimal value of a string of decimal digits. -/
def decVal (s : Str) : Nat := s.foldl (fun acc c => acc * 10 + (c.toNat - 48)) 0

/-- The digits after a decimal point, and what follows them. -/
def splitPoint : Str → Str × Str
  | '.' :: r => (r.takeWhile isDecimalDigit, r.dropWhile isDecimalDigit)
  | r => ([], r)

/-- The sign of an exponent (`true` for `-`), and what follows it. -/
def splitSign : Str → Bool × Str
  | '+' :: r => (false, r)
  | '-' :: r => (true, r)
  | r => (false, r)

/-- `str::parse::<f64>()` of the Rust standard library, restricted to the unsigned spellings the scanner
builds: `Digit* [. Digit*] [(e|E) [+|-] Digit+]` with at least one mantissa digit.  The result is the exact
decimal value; rounding is `Num.toF64` (Model/Double.lean). -/
def parseF64 (s : Str) : Option Num :=
  let ip := s.takeWhile isDecimalDigit
  let r1 := s.dropWhile isDecimalDigit
  let (fp, r2) := splitPoint r1
  if ip ++ fp = [] then none
  else
    let m := decVal (ip ++ fp)
    match r2 with
    | [] => some ⟨m, -(fp.length : Int)⟩
    | c :: r3 =>
      if c = 'e' ∨ c = 'E' then
        let (neg, ds) := splitSign r3
        if ds ≠ [] ∧ ds.all isDecimalDigit then
          some ⟨m, (if neg then -(decVal ds : Int) else (decVal ds : Int)) - (fp.length : Int)⟩
        else none
      else none

/-- `.map_err(|_| Error { .. InvalidOrUnexpectedToken })` -/
def numOr (r : Option Num) : SM Num :=
  match r with
  | some n => pure n
  | none => error .invalidOrUnexpectedToken

/-- scanner.rs:361-383 `scan_exponent` -/
def scanExponent : SM Str := do
  match ← peek with
  | some c =>
    if c = 'e' ∨ c = 'E' then do
      let e ← consumeUnwrap
      let sign ← (do
        match ← peek with
        | some c2 => if c2 = '+' ∨ c2 = '-' then do let c3 ← consumeUnwrap; pure [c3] else pure []
        | none => pure [])
      let exponent ← scanUntil (fun cp => !isDecimalDigit cp) (consumeOr .invalidOrUnexpectedToken)
      pure (e :: (sign ++ exponent))
    else pure []
  | none => pure []

/-- scanner.rs:338-359 `scan_fractional_part` -/
def scanFractionalPart (value : Str) : SM Num := do
  expect '.'
  let fractional ← scanUntil (fun cp => !isDecimalDigit cp) (consumeOr .invalidOrUnexpectedToken)
  let ex ← scanExponent
  numOr (parseF64 (value ++ ['.'] ++ fractional ++ ex))

/-- scanner.rs:385-405 `scan_radix_literal` -/
def scanRadixLiteral (radix : Nat) : SM Num := do
  expect '0'
  let _ ← consume
  let value ← scanUntil (fun cp => !isHexDigit cp) (consumeOr .invalidOrUnexpectedToken)
  numOr ((parseI64 radix value).map fun v => ⟨v, 0⟩)

/-- scanner.rs:281-336 `scan_numeric_literal`, the value -/
def scanNumericValue : SM Num := do
  let (p1, p2) ← peek2
  if p1 = some '0' ∧ (p2 = some 'b' ∨ p2 = some 'B') then scanRadixLiteral 2
  else if p1 = some '0' ∧ (p2 = some 'o' ∨ p2 = some 'O') then scanRadixLiteral 8
  else if p1 = some '0' ∧ (p2 = some 'x' ∨ p2 = some 'X') then scanRadixLiteral 16
  else if p1 = some '0' ∧ p2 ≠ none ∧ p2 ≠ some '.' then do
    let val ← scanUntil (fun cp => !isDecimalDigit cp) (consumeOr .unexpectedEOS)
    numOr (((parseI64 8 val).or (parseI64 10 val)).map fun v => ⟨v, 0⟩)
  else if p1.any isDecimalDigit then do
    let val ← scanUntil (fun cp => !isDecimalDigit cp) (consumeOr .unexpectedEOS)
    if ← «matches» '.' then scanFractionalPart val
    else do
      let ex ← scanExponent
      numOr (parseF64 (val ++ ex))
  else if p1 = some '.' then scanFractionalPart []
  else error .invalidOrUnexpectedToken

/-- scanner.rs:281-336 `scan_numeric_literal` -/
def scanNumericLiteral : SM Token := do
  let v ← scanNumericValue
  tokenSimple .numericLiteral (.num v)

/-! ### String literals (scanner.rs:411-549) -/

/-- scanner.rs:532-549 `scan_hex_esc_seq` -/
def scanHexEscSeq : SM Char := do
  expect '\\'
  expect 'x'
  let value ← hexDigits .invalidOrUnexpectedToken 2 0
  charOr .invalidOrUnexpectedToken value

/-- scanner.rs:506-530 `scan_octal_esc_seq`; `i as u32` keeps the value modulo 2^32 -/
def scanOctalEscSeq : SM Char := do
  let _ ← consume
  let value ← scanUntil (fun cp => !isOctalDigit cp) (consumeOr .unexpectedEOS)
  match parseI64 8 value with
  | some i => charOr .invalidOrUnexpectedToken (i % 4294967296)
  | none => error .invalidOrUnexpectedToken

/-- scanner.rs:438-504 `scan_string_literal_cp` with a loop budget: a line continuation goes round the loop -/
def scanStringCpF : Nat → SM (Char × Bool)
  | 0 => fail .fuel
  | n + 1 => do
    match ← peek2 with
    | (some '\\', some cp) =>
      if isSingleEscapeChar cp then do
        let _ ← consume
        let esc ← consumeOr .unexpectedEOS
        pure (unescape esc, false)
      else if isLineTerminator cp then do
        let _ ← consume
        let (q1, q2) ← peek2
        when (q1 = some '\r' ∧ q2 = some '\n') (do let _ ← consume; pure ())
        let _ ← consume
        scanStringCpF n
      else if cp = 'x' then do
        let c ← scanHexEscSeq
        pure (c, false)
      else if cp = 'u' then do
        let c ← scanUnicodeEscSeq
        pure (c, false)
      else if isOctalDigit cp then do
        let c ← scanOctalEscSeq
        pure (c, true)
      else do
        let c ← consumeOr .unexpectedEOS
        pure (c, false)
    | (some cp, _) =>
      if isLineTerminator cp then error .invalidOrUnexpectedToken
      else do
        let c ← consumeOr .unexpectedEOS
        pure (c, false)
    | (none, _) => error .invalidOrUnexpectedToken

/-- scanner.rs:438-504 `scan_string_literal_cp` -/
def scanStringCp : SM (Char × Bool) := fun s => scanStringCpF (s.rest.length + 1) s

/-- scanner.rs:411-436 `scan_string_literal` -/
def scanStringLiteral : SM Token := do
  let p ← peek
  if p = some '\'' ∨ p = some '"' then do
    let quote ← consumeUnwrap
    let items ← scanUntil (fun cp => cp == quote) scanStringCp
    expect quote
    token .stringLiteral (.str (items.map Prod.fst)) none none (some (items.any Prod.snd)) none none none
  else error .invalidOrUnexpectedToken

/-! ### Regular expression literals (scanner.rs:555-630) -/

/-- scanner.rs:577-611: loop of `scan_regexp_body` with a budget.  (A class `[...` reads up to, not including,
the `]`, which the next round takes as an ordinary character.) -/
def regexpBodyF : Nat → SM Str
  | 0 => fail .fuel
  | n + 1 => do
    match ← peek with
    | none => pure []
    | some c =>
      if c = '[' then do
        let group ← scanUntil (fun cp => cp == ']') (consumeOr .unexpectedEOS)
        let more ← regexpBodyF n
        pure (group ++ more)
      else if c = '\\' then do
        let a ← consumeOr .unexpectedEOS
        let b ← consumeOr .unexpectedEOS
        let more ← regexpBodyF n
        pure (a :: b :: more)
      else if c = '/' then pure []
      else do
        let a ← consumeOr .unexpectedEOS
        let more ← regexpBodyF n
        pure (a :: more)

/-- scanner.rs:571-615 `scan_regexp_body` -/
def scanRegexpBody : SM Str := do
  expect '/'
  let p ← peek
  if p = some '*' then error .invalidOrUnexpectedToken
  else do
    let value ← (fun s => regexpBodyF (s.rest.length + 1) s)
    expect '/'
    pure value

/-- scanner.rs:617-630 `scan_regexp_flags` -/
def scanRegexpFlags : SM (List Char) :=
  scanUntil (fun cp => cp != '\\' && !isIdentifierContinue cp) readIdPart

/-- scanner.rs:555-569 `scan_regexp_literal` -/
def scanRegexpLiteral : SM Token := do
  let pattern ← scanRegexpBody
  let flags ← scanRegexpFlags
  token .regularExpression (.str []) (some pattern) (some flags) none none none none

/-! ### Templates (scanner.rs:636-757) -/

/-- scanner.rs:706-757 `scan_template_char` -/
def scanTemplateChar : SM Char := do
  match ← peek2 with
  | (some '\\', some cp) =>
    if isLineTerminator cp then do
      let _ ← consume
      let (q1, q2) ← peek2
      if q1 = some '\r' ∧ q2 = some '\n' then do
        let _ ← consume
        let _ ← consume
        pure '\x00'
      else do
        let _ ← consume
        pure '\x00'
    else if cp = 'b' ∨ cp = 'f' ∨ cp = 'v' ∨ cp = 'n' ∨ cp = 'r' ∨ cp = 't' then do
      let _ ← consume
      let c ← consumeOr .unexpectedEOS
      pure (unescape c)
    else if cp = 'x' then scanHexEscSeq
    else if cp = 'u' then scanUnicodeEscSeq
    else do
      let _ ← consume
      consumeOr .unexpectedEOS
  | (some cp, _) =>
    if isLineTerminator cp then do
      let _ ← consume
      pure '\n'
    else consumeOr .unexpectedEOS
  | (none, _) => error .invalidOrUnexpectedToken

/-- scanner.rs:642-645, 677-680: where a template chunk stops -/
def templateStop (c1 c2 : Option Char) : Bool :=
  decide (c1 = some '`') || (decide (c1 = some '$') && decide (c2 = some '{'))

/-- scanner.rs:636-669 `scan_template` (`opening = '`'`, `head = true`) and
scanner.rs:671-704 `scan_template_substitution_tail` (`opening = '}'`, `head = false`): the two Rust bodies
differ only in these two places. -/
def scanTemplateChunk (opening : Char) (head : Bool) : SM Token := do
  expect opening
  startRecording
  let cooked ← scan2Until templateStop scanTemplateChar
  let value ← stopRecording
  let (p1, p2) ← peek2
  let tail ← (
    if p1 = some '$' ∧ p2 = some '{' then do
      let _ ← consume
      let _ ← consume
      modify fun s => { s with curly := .template :: s.curly }
      pure false
    else if p1 = some '`' then do
      let _ ← consume
      pure true
    else panic .unterminatedTemplate)
  token .template (.str value) none none (some false) (some cooked) (some head) (some tail)

/-- scanner.rs:636-669 `scan_template` -/
def scanTemplate : SM Token := scanTemplateChunk '`' true

/-- scanner.rs:671-704 `scan_template_substitution_tail` -/
def scanTemplateSubstitutionTail : SM Token := scanTemplateChunk '}' false

/-! ### Punctuators (scanner.rs:763-904) -/

/-- scanner.rs:891-893 `punc0`; `Punctuator::from(value)` -/
def punc0 (value : Str) : SM Token := do
  let p ← unwrap .invalidPunctuator (Punctuator.ofStr value)
  tokenSimple .punctuator (.punc p)

/-- scanner.rs:895-898 `punc1` -/
def punc1 (value : Str) : SM Token := do
  let _ ← consume
  punc0 value

/-- scanner.rs:900-904 `punc2` -/
def punc2 (value : Str) : SM Token := do
  let _ ← consume
  let _ ← consume
  punc0 value

/-- scanner.rs:763-881 `scan_punctuator` -/
def scanPunctuator : SM Token := do
  match ← peek2 with
  | (none, _) => error .invalidOrUnexpectedToken
  | (some c, d) =>
    if c = '{' then do
      modify fun s => { s with curly := .lBrace :: s.curly }
      punc1 cs!"{"
    else if c = '}' then do
      modify fun s => { s with curly := s.curly.tail }
      punc1 cs!"}"
    else if isSingleCharPunctuator c then punc1 [c]
    else if c = '?' then do
      let _ ← consume
      let (q1, q2) ← peek2
      if q1 = some '.' ∧ q2 ≠ none then
        if q2.any isDecimalDigit then punc0 cs!"?" else punc1 cs!"?."
      else if q1 = some '?' then punc1 cs!"??"
      else punc0 cs!"?"
    else if c = '+' ∧ d ≠ none then
      if d = some '=' then punc2 cs!"+="
      else if d = some '+' then punc2 cs!"++"
      else punc1 cs!"+"
    else if c = '-' ∧ d ≠ none then
      if d = some '=' then punc2 cs!"-="
      else if d = some '-' then punc2 cs!"--"
      else punc1 cs!"-"
    else if c = '&' ∧ d ≠ none then
      if d = some '=' then punc2 cs!"&="
      else if d = some '&' then punc2 cs!"&&"
      else punc1 cs!"&"
    else if c = '|' ∧ d ≠ none then
      if d = some '=' then punc2 cs!"|="
      else if d = some '|' then punc2 cs!"||"
      else punc1 cs!"|"
    else if c = '%' ∧ d ≠ none then
      if d = some '=' then punc2 cs!"%=" else punc1 cs!"%"
    else if c = '^' ∧ d ≠ none then
      if d = some '=' then punc2 cs!"^=" else punc1 cs!"^"
    else if c = '.' then do
      let _ ← consume
      let (q1, q2) ← peek2
      if q1 = some '.' ∧ q2 = some '.' then punc2 cs!"..." else punc0 cs!"."
    else if c = '<' then do
      let _ ← consume
      let (q1, q2) ← peek2
      if q1 = some '<' ∧ q2 = some '=' then punc2 cs!"<<="
      else if q1 = some '<' then punc1 cs!"<<"
      else if q1 = some '=' then punc1 cs!"<="
      else punc0 cs!"<"
    else if c = '!' then do
      let _ ← consume
      let (q1, q2) ← peek2
      if q1 = some '=' ∧ q2 = some '=' then punc2 cs!"!=="
      else if q1 = some '=' then punc1 cs!"!="
      else punc0 cs!"!"
    else if c = '*' then do
      let _ ← consume
      let (q1, q2) ← peek2
      if q1 = some '*' ∧ q2 = some '=' then punc2 cs!"**="
      else if q1 = some '*' then punc1 cs!"**"
      else if q1 = some '=' then punc1 cs!"*="
      else punc0 cs!"*"
    else if c = '=' then do
      let _ ← consume
      let (q1, q2) ← peek2
      if q1 = some '=' ∧ q2 = some '=' then punc2 cs!"==="
      else if q1 = some '=' then punc1 cs!"=="
      else if q1 = some '>' then punc1 cs!"=>"
      else punc0 cs!"="
    else if c = '>' then do
      let _ ← consume
      let (q1, q2) ← peek2
      if q1 = some '=' then punc1 cs!">="
      else if q1 = some '>' ∧ q2 = some '>' then do
        let _ ← consume
        let (w1, w2) ← peek2
        if w1 = some '>' ∧ w2 = some '=' then punc2 cs!">>>=" else punc1 cs!">>>"
      else if q1 = some '>' then punc1 cs!">>"
      else punc0 cs!">"
    else error .invalidOrUnexpectedToken

/-- scanner.rs:883-889 `scan_div_punctuator` -/
def scanDivPunctuator : SM Token := do
  let (p1, p2) ← peek2
  if p1 = some '/' ∧ p2 = some '=' then punc2 cs!"/="
  else if p1 = some '/' then punc1 cs!"/"
  else error .invalidOrUnexpectedToken

/-! ### `next` (scanner.rs:67-92) -/

/-- scanner.rs:77-91: the dispatch of `next` on the first characters of the token -/
def scanToken (goal : LexGoal) : SM Token := fun s =>
  match s.rest with
  | [] => tokenSimple .eof .null s
  | c :: rest =>
    if isIdentifierStart c then scanIdentifier s
    else if c = '"' ∨ c = '\'' then scanStringLiteral s
    else if c = '.' ∧ rest.head?.any isDecimalDigit then scanNumericLiteral s
    else if isDecimalDigit c then scanNumericLiteral s
    else if c = '`' then scanTemplate s
    else if c = '}' ∧ s.curly.head? = some .template then
      scanTemplateSubstitutionTail { s with curly := s.curly.tail }
    else if c = '/' ∧ goal = .div then scanDivPunctuator s
    else if c = '/' ∧ goal = .regExp then scanRegexpLiteral s
    else scanPunctuator s

/-- scanner.rs:73-91: `next` when no token has been pushed back -/
def scanFresh (goal : LexGoal) : SM Token := do
  modify fun s => { s with newline := false }
  scanComments
  startNewToken
  scanToken goal

/-- scanner.rs:67-92 `next` -/
def next (goal : LexGoal) : SM Token := fun s =>
  match s.unscanned with
  | some t => .ok (t, { s with unscanned := none })
  | none => scanFresh goal s

end Scanner
end Giron

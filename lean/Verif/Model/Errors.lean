import Verif.Model.Basic
/-
The texts of errors: giron/src/errors/errors.rs, `derive(Debug)` and `impl Display`.

`derive(Debug)` of a struct is `Name { field: value, field: value }`, of a unit variant its name, of a tuple variant
`Name(value)`; `usize` is decimal; a `str` is quoted, with `\0`, `\t`, `\r`, `\n`, `\\`, `\"` escaped and every other
character either as it is or as `\u{hex}` (core/src/fmt/mod.rs, `char::escape_debug_ext`).  Which characters stay as they
are depends on the Unicode tables of the standard library: `Env.printable`.
-/
namespace Giron

/-- errors.rs:97-126 `derive(Debug)`: the names of the variants. -/
def ErrorType.name : ErrorType → Str
  | .unexpectedToken _ => cs!"UnexpectedToken"
  | .unexpectedReserved => cs!"UnexpectedReserved"
  | .illegalReturn => cs!"IllegalReturn"
  | .missingInitializer => cs!"MissingInitializer"
  | .invalidLhsInFor => cs!"InvalidLhsInFor"
  | .multipleDefaultsInSwitch => cs!"MultipleDefaultsInSwitch"
  | .noIterationStatement => cs!"NoIterationStatement"
  | .illegalBreak => cs!"IllegalBreak"
  | .strictWith => cs!"StrictWith"
  | .strictFunction => cs!"StrictFunction"
  | .newlineAfterThrow => cs!"NewlineAfterThrow"
  | .generatorInSingleStatementContext => cs!"GeneratorInSingleStatementContext"
  | .missingFunctionName => cs!"MissingFunctionName"
  | .invalidLhsInAssignment => cs!"InvalidLhsInAssignment"
  | .unexpectedTokenUnaryExponentiation => cs!"UnexpectedTokenUnaryExponentiation"
  | .invalidLhsInPostfixOp => cs!"InvalidLhsInPostfixOp"
  | .invalidLhsInPrefixOp => cs!"InvalidLhsInPrefixOp"
  | .paramAfterRest => cs!"ParamAfterRest"
  | .invalidDestructuringTarget => cs!"InvalidDestructuringTarget"
  | .unexpectedTemplateString => cs!"UnexpectedTemplateString"
  | .yieldInParameter => cs!"YieldInParameter"
  | .awaitExpressionFormalParameter => cs!"AwaitExpressionFormalParameter"
  | .unexpectedEOS => cs!"UnexpectedEOS"
  | .invalidOrUnexpectedToken => cs!"InvalidOrUnexpectedToken"
  | .invalidUnicodeEscapeSequence => cs!"InvalidUnicodeEscapeSequence"
  | .invalidRestBindingPattern => cs!"InvalidRestBindingPattern"
  | .unexpectedStrictReserved => cs!"UnexpectedStrictReserved"

/-- errors.rs:128-167 `impl Display for Error`: the text of `to_string()`. -/
def Error.display (e : Error) : Str :=
  match e.errortype with
  | .unexpectedToken s => cs!"Unexpected token " ++ s
  | .unexpectedReserved => cs!"Unexpected reserved word"
  | .illegalReturn => cs!"Illegal return statement"
  | .missingInitializer => cs!"Missing initializer in destructuring declaration"
  | .invalidLhsInFor => cs!"Invalid left-hand side in for-loop"
  | .multipleDefaultsInSwitch => cs!"More than one default clause in switch statement"
  | .noIterationStatement => cs!"Illegal continue statement: no surrounding iteration statement"
  | .illegalBreak => cs!"Illegal break statement"
  | .strictWith => cs!"Strict mode code may not include a with statement"
  | .strictFunction => cs!"In strict mode code, functions can only be declared at top level or inside a block."
  | .newlineAfterThrow => cs!"Illegal newline after throw"
  | .generatorInSingleStatementContext => cs!"Generators can only be declared at the top level or inside a block."
  | .missingFunctionName => cs!"Function statements require a function name"
  | .invalidLhsInAssignment => cs!"Invalid left-hand side in assignment"
  | .unexpectedTokenUnaryExponentiation =>
    cs!"Unary operator used immediately before exponentiation expression. Parenthesis must be used to disambiguate operator precedence"
  | .invalidLhsInPostfixOp => cs!"Invalid left-hand side expression in postfix operation"
  | .invalidLhsInPrefixOp => cs!"Invalid left-hand side expression in prefix operation"
  | .paramAfterRest => cs!"Rest parameter must be last formal parameter"
  | .invalidDestructuringTarget => cs!"Invalid destructuring assignment target"
  | .unexpectedTemplateString => cs!"Unexpected template string"
  | .yieldInParameter => cs!"Yield expression not allowed in formal parameter"
  | .awaitExpressionFormalParameter => cs!"Illegal await-expression in formal parameters of async function"
  | .unexpectedEOS => cs!"Unexpected end of input"
  | .invalidOrUnexpectedToken => cs!"Invalid or unexpected token"
  | .invalidUnicodeEscapeSequence => cs!"Invalid Unicode escape sequence"
  | .invalidRestBindingPattern => cs!"`...` must be followed by an identifier in declaration contexts"
  | .unexpectedStrictReserved => cs!"Unexpected strict mode reserved word"

variable [Env]

/-- core `char::escape_debug_ext` as used for `str` -/
def escapeDebug (c : Char) : Str :=
  if c = '\x00' then cs!"\\0"
  else if c = '\t' then cs!"\\t"
  else if c = '\r' then cs!"\\r"
  else if c = '\n' then cs!"\\n"
  else if c = '\\' then cs!"\\\\"
  else if c = '"' then cs!"\\\""
  else if Env.printable c then [c]
  else cs!"\\u{" ++ Nat.toDigits 16 c.toNat ++ cs!"}"

/-- core `impl Debug for str` -/
def strDebug (s : Str) : Str := cs!"\"" ++ s.flatMap escapeDebug ++ cs!"\""

/-- errors.rs:97 `derive(Debug)` on `ErrorType` -/
def ErrorType.debug : ErrorType → Str
  | .unexpectedToken s => cs!"UnexpectedToken(" ++ strDebug s ++ cs!")"
  | k => k.name

/-- errors.rs:90 `derive(Debug)` on `Error` -/
def Error.debug (e : Error) : Str :=
  cs!"Error { line: " ++ Nat.toDigits 10 e.line ++ cs!", col: " ++ Nat.toDigits 10 e.col ++
    cs!", errortype: " ++ e.errortype.debug ++ cs!" }"

end Giron

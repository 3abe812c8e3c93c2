# Formal model of giron-rs: design

`/repo/giron` is a hand written ECMAScript scanner and recursive descent parser producing ESTree; `/repo/giron-wasm`
turns the tree into JSON. The model is an executable Lean 4 program under `lean/Verif/Model`, function by function
the same as the Rust (every definition cites file and lines). The theorems in `lean/Verif/Thm` are about the two
public functions `parse_script` and `parse_module`, the tokens the scanner returns, the reader, and the JSON.

## 1. Layout

| directory | content |
|---|---|
| `Verif/Model` | the program: `Codepoint Punctuator Token Reader Scanner Estree EstreeFns Syntax Json Parser/*` |
| `Verif/Spec` | what the theorems are stated with, independent of the model's helpers: paths through trees (`Tree`, `Grammar`), lexical grammar on plain text (`Text`, `Lexical`, `Scan`), JSON schema (`Json`), positions erased (`Bare`) or moved (`Moved`), the grammar of programs (`Words`, `Syntax`, `Program`) |
| `Verif/Proofs` | invariants and the walks over every function |
| `Verif/Thm` | the property theorems `CNN_*`, each with concrete witnesses beside it |

## 2. How the code is modelled

* **Text.** A source is `List Char`: Rust's `Chars` iterator yields Unicode scalar values, which are Lean's `Char`.
* **Reader.** `Model/Reader.lean` has the `VecDeque` and the iterator; C28 proves it refines "the list of remaining
  characters". The scanner works on that list.
* **Scanner.** A record with every field of `Scanner`; every method is a function in a state + failure monad.
  `Err(..)` and panics are distinct failure values, and each panic carries its site.
* **Parser.** The same monad over the parser state (scanner, context flags, parameters, parameter stack, marker
  stack, current token, lookahead). Mutual recursion is open: each Rust function is a definition taking a record
  `r : Rec` of nine recursive entry points, and `run n` ties the knot `n` deep. Running out of depth is a separate
  failure, `Fail.fuel`; loops have their own budget. C01 proves neither ever occurs in `parseScript`/`parseModule`
  (depth linear in the length), so the results are those of the unbounded program; `C01_more_depth_changes_nothing` and
  `C01_more_rounds…` say the latter: any larger depth, and any larger number of rounds of any loop, gives the same answer.
* **`save_state`/`restore_state`.** Modelled as they are: the scanner's record is restored, the reader is not rewound.
* **AST.** `Node` and all helper types of `estree.rs` as a mutual inductive family, spans included.
* **Integers.** `usize` is `Nat`. The subtractions that can underflow (`current - 1` in `Scanner::token`,
  `len - 1` in `array_to_pattern`) and the `u32` accumulation that can overflow (`\u{...}`) are explicit, and
  whether overflow checks are on is a parameter. Radix literals go through `i64::from_str_radix`: from
  2^63 on they are lexical errors, in the model too.
* **Floats.** An f64 literal is the exact decimal `mant * 10^exp` it is parsed from; giron never computes with it, so rounding is
  left to the end: `Num.toF64` (`Model/Double`) rounds to the nearest double, ties to even, as `str::parse` and `as f64` do, and
  `F64.display` and `F64.json` write the shortest digits, as `f64::to_string` and `serde_json` (crate `ryu`) do. In the parser the
  printing of numbers for `raw` and for messages is a parameter (`Env.showNum`); C55 says what follows if it is `F64.display`.
* **JSON text.** `Model/JsonText` is `serde_json::to_string` (compact form), on the JSON value of `Model/Json`. These library
  functions are not in the repository; they are modelled from what they are documented to do. Which of two equally near
  shortest decimals is written is a parameter (`tie`).
* **Unicode tables.** `is_id_start` and `is_id_continue` of crate `ucd`, and which characters `Debug` prints as they are, are parameters (class `Env`); no theorem constrains
  them unless its statement says so.

Not modelled: memory exhaustion and native stack overflow, the algorithms (as opposed to the results) of the number conversions
of the standard library and `serde_json`, wasm-bindgen glue, the `ucd` tables, test code.

**Check of the model against the project's own tests** (evidence that the model is faithful, not part of any proof). The tests
of the repository demand that `parse_module` accepts 361 snippets and three libraries. The model, run by Lean's interpreter on
these files (`parseModule` with the environment of `Thm/Witness`), accepts all of them: `giron/tests/snippets/*.txt`,
`source/react.js`, `source/react-dom.js` (976 kB) and `source/angular.js` (1.1 MB).

## 3. Trusted base

* The kernel of Lean 4.33.0.
* Axioms: every theorem depends on at most `propext`, `Quot.sound`, `Classical.choice`. No axiom is added; no compiled
  evaluation (`decide +kernel`, used for concrete witnesses only, is checked by the kernel).
* The reading of the Rust source into the model (section 2), and the reading of the statements in `Spec`.

## 4. Per property: what is modelled and how it is proved

| id | proof |
|----|-------|
| C01 | every function of scanner and parser either consumes input or descends; measure = remaining characters + pending token; one walk over all functions (`Proofs/ScanSafe*`, `Proofs/Parse/*`); that the bounds of the model are no bounds: a second walk (`Proofs/Deep/*`) |
| C02 | panics are values; the same walk shows each site outside the list is unreachable; every listed site has a witness source |
| C03 | same walk: success means current token is end of input and nothing is left |
| C04–C14, C16–C18, C35, C40, C42 | one inductive predicate `WF` on trees in a context, established by the walk over all parser functions; each property a corollary stated with paths from the root (`Spec/Tree`) |
| C15 | precedence climbing invariant (`Proofs/Parse/Climb`), stated on every binary node of the result |
| C19–C27, C37–C39 | lemmas per scanner function on the remaining characters, against the lexical grammar of `Spec/Lexical` |
| C28 | refinement, induction over operation lists |
| C29 | line monotonicity in the walk |
| C30 | whole parse: final context equals the initial one; per construct: every function restores the context it found (`Proofs/Frame`) |
| C31, C33 | relational walk over every scanner and parser function: two runs on related states give related outcomes (`Proofs/Shift`: `Scan Sim Names Primary Stmt` for moved positions, `Zero` when nothing moves, `Strict` for module against strict script, `Directive` for the 'use strict' directive) |
| C32, C41 | `Proofs/Complete`: for each grammar rule, induction over derivations: the parser's function on a state whose remaining words derive from the rule returns the rule's tree and leaves the rest |
| C43 | `Proofs/Spell`: a relation `Passes` between states that collects the words read, and a walk over every parser function showing that the words read belong to the language `Spell.node` of the tree returned; marks among the words (semicolon inserted here, next word on the same line, on a new line, not `else`) carry what the parser knew of line breaks when it decided; the conversions of expressions to patterns preserve spellings |
| C44 | `Proofs/Layout`: relation between a run on one text and a family of runs on texts made of the same words (current tokens equal but for their places, lines counted where the code compares them from different places), a rule for every parser function; the words read on the left are collected once for all runs on the right; words that can be read in one way only make the reading unique |
| C45 | `Proofs/Pos`: for any invariant of the state and property of spans that agree (class `World`), every parser function keeps the invariant and returns trees whose spans have the property; two instances: places in the source, places of words |
| C46 | the same walk carries a property of errors; `Proofs/Pos/Scan`: where and with which kind of error each scanner function stops |
| C47 | `Spec/Prints`: the words of a JSON value, from its members by name; `Proofs/Prints`: structural induction on the tree, that its JSON has the spellings of the tree; then C43 |
| C48 | `Proofs/Spell/Inside`: for every kind of part, its words are among those of the part it stands in; induction on the path from the root; then C43, whose marks give the line breaks |
| C49 | `Model/Errors`: `Display` and derived `Debug`; `Proofs/Errors`: decimal and hexadecimal numerals and the escapes of characters are read back uniquely, then the whole text |
| C50 | `Spec/Reasons` (a table of reasons by kind of error); `Proofs/Why`: one proof for each parser method that every error it raises has its reason among the words read so far, with the invariant that the code is strict only for a reason |
| C51 | `Spec/Answer`; the two-run simulation of C44 (`Proofs/Layout`) extended by two clauses for failing runs: the same failure but for positions if the words read are the same (`err`), and some failure if the words up to the error are the same (`dead`), the last of them being the one that is called unexpected; `Proofs/Layout/Barrier`: a word followed by a blank is read the same whatever comes behind |
| C52 | `Spec/Eased` (relation between trees, generated from the node types); `Proofs/Ease/*`: the relation `Up m m'` between a method run in strict mode and the same method run in any mode (success on the left is success on the right, with related results and the same state but for the mode), closed under all combinators and proved of every parser method; the places that look at the mode (`strictReservedCheck`, `idAtt`, `with`, labelled functions) and those that look at `assign_target_type` are the only ones that need an argument |
| C53 | the two-run simulation of C44 and C51 with one choice of words for all runs on the right (`Proofs/Layout/Prefix`): induction on the statements of the loops of `parse_directive_prologues`, `parse_script` and `parse_module`; the state after the first statements is described both by the words read (simulation) and by what they spell (C43), `Proofs/Layout/Barrier` turns the words into text |
| C54 | from C43: every word of the tree is a word of the source, so it is enough that every tree has at most twelve JSON values per word (`Proofs/Size`): induction on the tree with a small surplus for expressions, which may become statements without a further word, and a small debt for lists of properties and declarations, paid by the comma or brace; the well-formedness of the tree (C01 ff.) excludes expression statements inside expression statements |
| C55 | rounding on exact rationals (`Model/Double`); `Spec/Double` says what a nearest double is, without rounding; that the rounding finds one: the doubles around a number are the integers after scaling (`Proofs/Double`); uniqueness; that the digits written denote the same double: the search for them checks it (`Proofs/Digits`), and the reader of `Spec/JsonText` reads them back |
| C56 | a printer (`Model/JsonText`) and an independent reader of JSON (`Spec/JsonText`); the reader applied to the printed text gives the value back: induction on the value, for every text that may follow (`Proofs/JsonText`) |
| C57 | from C43: a tree and its words; weights are given to words and to JSON objects such that each word weighs as much as the object it becomes, and one walk over all trees (`Proofs/Atoms`) shows that the sums agree, for all such weights; the claims are four choices of weights |
| C58 | relational: two runs of every method of the scanner and of the parser, in two environments, are followed step by step (`Build.Ag`); the text that is left is always part of the text, so the tables are only asked about its characters; the first run stops with an overflow or both are equal |
| C59 | an amortised count: each method is given a number of positions it needs and a number it leaves (`Marks.At`), along the words read so far; the methods for `new` and postfix `++` contradict the assumption that there is no such word; each cause has a witness source |
| C60 | the walk of C50 again, now for panics (`Cause.Al`: one instance per method); conversions and the scanner are shown not to raise these panics (`Nop`, `Nx`), the unwraps of operators and names not to fail; each cause has a witness source |
| C61 | the walk of C60 carries the scanner's only such panic too (`Owed`, `Tl`), and what the scanner remembers: no substitution is open if no backquote has been read (`Mind`); the scanner fails on a chunk only if the chunk runs to the end (`next_runs`); the first token by soundness and completeness of the scanner (C37) |
| C34 | direct characterisation of `consume_semicolon`, together with C25 for what "on a later line" means |
| C36 | induction over trees against a table of types and members |

The grammar of C41 (`Spec/Syntax.lean`, `Spec/Program.lean`) is ECMAScript's, restricted to what the code does. Left out:
`async` as a variable and `{get}`, `{set}`, `{async}` (the code reads on for a method), async function declarations and class
members, `new.target` chains, `for (var x of ..)`, labelled break checks, `export .. from`, which the code rejects; each
exclusion is marked at the rule. Async function expressions, `async x => ..`, async methods, accessors and generator methods of
object literals are in it as the code reads them (no computed keys; a generator method only last in its object).

## 5. What the proofs found (deviations of the code from ECMAScript / ESTree)

Refuted statements are theorems (`C09_refuted`, `C15_refuted`, `C17_refuted`, `C40_refuted`, `C42_refuted`,
`C36_estree_names_refuted`, `C05_not_reset_by_functions`); the panic sites are witnesses of C02. In short:

*Panics on bad input.* Lexical error in the very first token (`'`); unterminated template; `async + 1`; `class 5 {}`;
`var {[x]} = 1`; `[class A{}] = 1`; `([]) => 1`; `import "x"`; `class A extends new B {}`; an overlong `\u{..}`; the empty
source (the last few only when overflow is checked).

*Accepted but wrong.* A string that spells `use strict` only through escapes is taken as the directive; `break`/`continue` flags survive function boundaries, labels are unchecked; `var eval` and `{eval} = x` in strict
code; `({a: b.c} = 1) => x`; strict reserved words as shorthand properties and imports (`'use strict'; var {public} = a`); `a*b%c` groups to the right; `({if})`; `();`; `({get x: 1})` becomes a getter; unterminated `/*` comment;
`({a = b} = x)` loses the default; `` `x${a++ `b` `` (a template that goes on with a backtick); `({*a(){} b})` without comma; `({async a: 1})`; `var {'a'} = x`, `var {5} = x`; `(a)=>{} + 1`; setters with any number of parameters;
`async⏎return⏎a` and `async⏎throw⏎a` take `a` as the operand, `async⏎a⏎=> a` is an arrow, because after `async` the line of the last token is forgotten; class `async` methods need a line break after `async` (the test is inverted).

*Rejected but valid.* `?.` and `??`; `for (var x of y)`; `export .. from`, `export let`, `export async function`; `a.null`; `x++ / 2`;
`yield;` and `{ return }` on one line; `new.target.x`; a switch without cases; regular expression right after `${`; `([a]) = 1`,
`([a] = 1) => x`; array rest in assignments; unicode escapes in identifiers; `async function` on one line; `({*a(){}, b})`; `class A {'a'() {}}`; after `async`, `get` or `set` the scanner's line and brace
counts are set back though the token read ahead is not read again: `` `a${ {get} }b` `` and `async⏎a⏎b` are rejected.

*Wrong trees.* `return` with a template or string that spans lines loses its operand (`` return `a⏎b` ``); `({a = b}) => 1` has `b` as a BindingIdentifier; for-in/of lose `var`/`let`/`const`; Function expressions never have `generator: true`; boolean literals cannot be told from the strings "true"/"false";
`static` in classes is never read; binding keys before `:` are Literals; export specifiers are swapped; a default import is an `ImportSpecifier`;
`new new a()()` groups differently; template cooked values after line continuations and CRLF; `\a` keeps its backslash in strings.

*Wrong positions.* The column of every position is one more than the length of a word, not a column; a span ends behind
the word after the node; a binary expression that is a right operand's parent may start behind its left operand (`a + b * c`);
after `async`, `get`, `set` spans may end before they start.

*Errors.* At the end of the source the error says `Unexpected token null`; a regular expression is called by the empty string;
the column is one more than the length of the word, as for positions;
an error is raised only after the word behind the offending one was read, so a lexical error there is reported instead (`a ) '`);
`class 'public' {}` is an error about a reserved word though it is a string; UnexpectedTokenUnaryExponentiation never occurs (`-a ** b` is an unexpected token `**`).

`[...a] = b` is rejected as if a parameter followed the rest element, because the last index is taken to be the length, and
InvalidRestBindingPattern never occurs; `a => {} == b` is an error about the left side of an assignment, `==` being listed among the
assignment operators; `(a + b,)` is an error about a destructuring target; `function 5(){}` panics as a module and is an error as a script.

*Strict mode.* `var eval`, `function f(arguments){}`, `catch (eval)`, `delete a`, octal literals and escapes and `({eval} = b)` are accepted.

*JSON.* Types that are not ESTree's: AsyncArrowFunctionExpression, AsyncFunctionExpression, ComputedMemberExpression,
StaticMemberExpression, RegexLiteral, Regex, TemplateElementValue, Span, Marker, BindingIdentifier; the `span` of object
properties is not skipped; regular expression flags are an array of one-character strings. A number literal too large for a
double, such as `1e400`, has the value `null` and the raw text `inf` (C55).

## 6. Tests against wrong programs

`seeded/LOG.jsonl`: one line per mutant of the model (edited in a scratch copy), with the theorems that fail to build; 128 mutants.
Each makes a proof fail; `tightened` names what was added where none did at first (n30). `failed` lists the declarations that
fail to build, often lemmas the property theorem rests on rather than that theorem itself.

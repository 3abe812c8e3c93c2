{"id": "C01", "title": "Parsing terminates on every source", "statement": "For every source string, parse_script and parse_module stop, with a recursion depth and a number of rounds of every loop that are linear in the length of the source: they return a tree, return an error or panic, and never loop or recurse for ever.", "quantifier": "every source string (any length, any characters), both entry points", "why_tests_cant": "The parser is ~90 mutually recursive functions and several open-ended loops, some of which re-enter without consuming; only an argument about every input rules out divergence.", "anchors": ["giron/src/lib.rs: parse_script, parse_module", "giron/src/parser/parser.rs: parse_until_eof, parse_until_punc, precedence_climbing", "giron/src/scanner/scanner.rs: next, scan_comments, scan_string_literal_cp"]}
{"id": "C02", "title": "Panics happen only at the known sites", "statement": "If parse_script or parse_module panics, the panic is one of a fixed, listed set of sites (lexical error in the very first token, unterminated template, `async` followed by a punctuator, a non-string token where a strict-mode identifier is expected, a computed key in a shorthand binding, a class used as a pattern target, an empty array as arrow parameter, import with a bare string specifier, arithmetic overflow in builds that check it, span-stack underflow). Every other unwrap/expect/unreachable!/panic! in the crate is unreachable from the API. Each listed site is really reachable (witness).", "quantifier": "every source string, both entry points, overflow checks on or off", "why_tests_cant": "There are dozens of unwraps; a test can show one fires, none can show that one never fires.", "anchors": ["giron/src/parser/parser.rs: all unwrap/unreachable!/unimplemented! sites", "giron/src/scanner/scanner.rs: all unwrap/unreachable! sites", "giron/src/estree/estree.rs: to_id, to_node, expr_span"]}
{"id": "C03", "title": "Success means the whole source was consumed", "statement": "If parse_script or parse_module returns Ok, every character of the source has been read and the last token was end of input: no trailing text is ever silently ignored.", "quantifier": "every source string, both entry points", "why_tests_cant": "A parser that stops early on some input passes any test that does not contain that input.", "anchors": ["giron/src/parser/parser.rs: parse_until_eof, parse_script, parse_module"]}
{"id": "C04", "title": "return only inside function bodies", "statement": "In every tree returned, every ReturnStatement lies inside the body of a function, arrow function or method.", "quantifier": "every source string accepted", "why_tests_cant": "Quantifies over all nestings of statements, functions, classes and expressions.", "anchors": ["giron/src/parser/parser.rs: parse_return_stmt, with_params, parse_function_body"]}
{"id": "C05", "title": "break and continue have an enclosing loop or switch", "statement": "In every tree returned, every ContinueStatement lies inside an iteration statement and every BreakStatement without label lies inside an iteration or switch statement. (ECMAScript also wants the loop to be in the same function; the code does not reset the flag at function boundaries.)", "quantifier": "every source string accepted", "why_tests_cant": "All nestings.", "anchors": ["giron/src/parser/parser.rs: parse_continue_stmt, parse_break_stmt, in_iteration, in_switch"]}
{"id": "C06", "title": "with never appears in strict code", "statement": "In every tree returned by parse_module there is no WithStatement anywhere; in every tree there is no WithStatement inside a class body, nor inside a script or function body whose directive prologue contains \"use strict\".", "quantifier": "every source string accepted", "why_tests_cant": "All nestings and all ways strictness is entered and left.", "anchors": ["giron/src/parser/parser.rs: parse_with_stmt, parse_directive_prologues, parse_class_tail, parse_function_body_block"]}
{"id": "C07", "title": "Assignment targets are valid", "statement": "In every tree returned, the left side of every AssignmentExpression is an identifier, a member expression, or an object/array pattern (patterns only for plain =); every target nested in such a pattern is again an identifier, member expression or pattern.", "quantifier": "every source string accepted", "why_tests_cant": "Cover-grammar reinterpretation of arbitrary expression trees as patterns.", "anchors": ["giron/src/parser/parser.rs: parse_assignment_expr", "giron/src/estree/estree.rs: assign_target_type, to_assignment_pattern"]}
{"id": "C08", "title": "Update operands are valid", "statement": "In every tree returned, the operand of every ++/-- is an identifier or a member expression (possibly parenthesised).", "quantifier": "every source string accepted", "why_tests_cant": "All expressions.", "anchors": ["giron/src/parser/parser.rs: parse_update_expr", "giron/src/estree/estree.rs: assign_target_type"]}
{"id": "C09", "title": "Strict code never assigns to eval or arguments", "statement": "In strict code, eval and arguments are never the target of =, op=, ++, -- nor bound by a declaration or parameter list.", "quantifier": "every source string accepted", "why_tests_cant": "All expressions and patterns in all strict contexts.", "anchors": ["giron/src/estree/estree.rs: assign_target_type, to_strict_binding", "giron/src/parser/parser.rs: parse_binding_id"]}
{"id": "C10", "title": "Rest elements come last", "statement": "In every tree returned, a rest element in an array pattern, object pattern or parameter list is the last element of its list.", "quantifier": "every source string accepted", "why_tests_cant": "All patterns, from declarations, parameters, arrow parameters and assignments.", "anchors": ["giron/src/parser/parser.rs: parse_until_punc_or_rest, parse_obj_binding_pat, parse_arr_binding_pat, parse_formal_params", "giron/src/estree/estree.rs: array_to_pattern, object_to_pattern"]}
{"id": "C11", "title": "At most one default per switch", "statement": "In every tree returned, every SwitchStatement has at most one case without test, and at least one case.", "quantifier": "every source string accepted", "why_tests_cant": "All case lists.", "anchors": ["giron/src/parser/parser.rs: parse_switch_stmt"]}
{"id": "C12", "title": "try has catch or finally", "statement": "In every tree returned, every TryStatement has a handler or a finalizer, and both of these (when present) are block-bodied.", "quantifier": "every source string accepted", "why_tests_cant": "All programs.", "anchors": ["giron/src/parser/parser.rs: parse_try_stmt"]}
{"id": "C13", "title": "Destructuring declarations are initialised", "statement": "In every tree returned, a variable declarator whose target is a pattern has an initialiser, except as the single declarator heading a for-in/for-of statement.", "quantifier": "every source string accepted", "why_tests_cant": "All programs.", "anchors": ["giron/src/parser/parser.rs: parse_variable_dclr, parse_lexical_dclr, parse_for_stmt"]}
{"id": "C14", "title": "Template literals are well formed", "statement": "In every tree returned, every TemplateLiteral has exactly one more quasi than expressions; exactly its last quasi is marked tail.", "quantifier": "every source string accepted", "why_tests_cant": "All templates with arbitrarily nested templates in substitutions.", "anchors": ["giron/src/parser/parser.rs: parse_template_literal", "giron/src/scanner/scanner.rs: scan_template, scan_template_substitution_tail"]}
{"id": "C15", "title": "Operator precedence and associativity", "statement": "In every tree returned, the operator of a BinaryExpression binds: its left operand, if an unparenthesised BinaryExpression, has an operator of precedence >= its own, its right operand one of precedence strictly greater; ** groups to the right and its left operand is never a unary expression.", "quantifier": "every source string accepted", "why_tests_cant": "Infinitely many operator sequences.", "anchors": ["giron/src/parser/parser.rs: precedence_climbing, parse_exponentiation_expr", "giron/src/parser/syntax.rs: precedence"]}
{"id": "C16", "title": "import and export only at the top level of modules", "statement": "In every tree returned, import and export declarations are direct children of a module Program; parse_script never returns one.", "quantifier": "every source string accepted", "why_tests_cant": "All programs.", "anchors": ["giron/src/parser/parser.rs: parse_module_item, parse_stmt_list_item"]}
{"id": "C17", "title": "Keywords are never used as names", "statement": "In every tree returned, no Identifier node that stands for a reference or a binding is named by a reserved keyword, except yield and await where they are permitted.", "quantifier": "every source string accepted", "why_tests_cant": "All programs.", "anchors": ["giron/src/parser/parser.rs: parse_id_reference, parse_binding_id", "giron/src/scanner/scanner.rs: is_keyword"]}
{"id": "C18", "title": "Every slot holds a node of the right syntactic category", "statement": "In every tree returned, statement positions hold statements/declarations only, expression positions hold expressions only, pattern positions patterns only.", "quantifier": "every source string accepted", "why_tests_cant": "All programs.", "anchors": ["giron/src/parser/parser.rs: all", "giron/src/estree/estree.rs: Node"]}
{"id": "C19", "title": "Punctuators are scanned by maximal munch", "statement": "Whenever the scanner returns a punctuator token, its spelling is exactly the consumed text, and no longer supported punctuator spelling is a prefix of the remaining input.", "quantifier": "every scanner state and remaining input", "why_tests_cant": "Every continuation of the input.", "anchors": ["giron/src/scanner/scanner.rs: scan_punctuator, scan_div_punctuator", "giron/src/token/punctuators.rs: from, to_str"]}
{"id": "C20", "title": "Identifier and keyword tokenisation", "statement": "From an identifier-start character the scanner consumes exactly the maximal run of identifier characters (absent backslashes) and classifies it as null, boolean, keyword or identifier according to its exact spelling.", "quantifier": "every input", "why_tests_cant": "Every spelling and continuation.", "anchors": ["giron/src/scanner/scanner.rs: scan_identifier, is_keyword"]}
{"id": "C21", "title": "String literals decode to their value", "statement": "For every string value there is a source spelling (quotes, backslash and line terminators escaped) that scans to exactly that value whatever follows; every accepted literal is delimited by the same unescaped quote.", "quantifier": "every string value, both quote characters, every continuation", "why_tests_cant": "All strings.", "anchors": ["giron/src/scanner/scanner.rs: scan_string_literal, scan_string_literal_cp"]}
{"id": "C22", "title": "Numeric literals denote their mathematical value", "statement": "Every decimal, hex, octal, binary and legacy-octal literal scans to its exact mathematical value (before rounding to f64; radix literals below 2^63), consuming exactly the literal.", "quantifier": "every literal, every continuation that ends it", "why_tests_cant": "All digit strings.", "anchors": ["giron/src/scanner/scanner.rs: scan_numeric_literal, scan_radix_literal, scan_fractional_part, scan_exponent"]}
{"id": "C23", "title": "White space and comments are trivia", "statement": "Skipping trivia from position p stops exactly at the first position that is not white space, a line terminator or a comment; prefixing any text with a complete trivia run does not change the next token apart from positions.", "quantifier": "every trivia run and continuation", "why_tests_cant": "All interleavings of white space and comments.", "anchors": ["giron/src/scanner/scanner.rs: scan_comments, scan_singleline_comment, scan_multiline_comment"]}
{"id": "C24", "title": "Token offsets delimit the token text", "statement": "Each token scanned from the source has start = number of characters before its first character and end = offset of its last character; successive tokens never overlap and only trivia lies between them.", "quantifier": "every source, every sequence of scans", "why_tests_cant": "All sources.", "anchors": ["giron/src/scanner/scanner.rs: consume, start_new_token, token"]}
{"id": "C25", "title": "Line numbers count line terminators", "statement": "After any sequence of scans the scanner's line is 1 + the number of line terminators (CRLF counted once) in the text consumed so far.", "quantifier": "every source, every sequence of scans", "why_tests_cant": "All sources, mixing CR, LF, CRLF, LS, PS.", "anchors": ["giron/src/scanner/scanner.rs: consume"]}
{"id": "C26", "title": "Template raw text", "statement": "The raw value of a template token is exactly the source text between its delimiters; if that text has no backslash, CR, LS or PS then the cooked value equals the raw value.", "quantifier": "every template chunk", "why_tests_cant": "All contents.", "anchors": ["giron/src/scanner/scanner.rs: scan_template, scan_template_char, start_recording, stop_recording"]}
{"id": "C27", "title": "Regular expression literals keep their text", "statement": "A regular expression token's pattern followed by '/' and its flags is exactly the consumed text after the opening slash (flags without backslash); the pattern never contains an unescaped slash outside a class.", "quantifier": "every regular expression literal", "why_tests_cant": "All contents.", "anchors": ["giron/src/scanner/scanner.rs: scan_regexp_literal, scan_regexp_body, scan_regexp_flags"]}
{"id": "C28", "title": "Reader lookahead is transparent", "statement": "For every source and every interleaving of lookahead and next calls on the reader, next returns the source characters in order, and lookahead(n) returns the n-th not yet returned character without affecting any later result.", "quantifier": "every source and every sequence of operations", "why_tests_cant": "All operation sequences.", "anchors": ["giron/src/scanner/reader.rs: lookahead, next"]}
{"id": "C29", "title": "Errors carry a line of the source", "statement": "If parsing fails, the error's line is between 1 and the number of lines of the source.", "quantifier": "every source rejected", "why_tests_cant": "All failing inputs.", "anchors": ["giron/src/scanner/scanner.rs: error", "giron/src/parser/parser.rs: error, error_current, unexpected"]}
{"id": "C30", "title": "The context does not leak", "statement": "Parsing any function, class, arrow, loop, switch or block leaves the parsing context (strict, allow in, in function, in iteration, in switch, await/yield/return parameters) exactly as it was before, whenever the parse goes on.", "quantifier": "every parser state, every construct", "why_tests_cant": "All nestings; a leak shows only for particular sequences.", "anchors": ["giron/src/parser/parser.rs: with_params, save_params, restore_params, with_*"]}
{"id": "C31", "title": "Modules are strict scripts", "statement": "A source accepted by parse_module without import/export items is exactly what parse_script accepts when started in strict mode, with the same statements, and conversely; a script that begins with the directive 'use strict' is parsed in strict mode throughout. Hence such a source is accepted as a script iff it is accepted as a module without imports and exports, and with the same statements.", "quantifier": "every non-empty source", "why_tests_cant": "All sources; a construct that treats modules differently from strict code shows only on particular programs.", "anchors": ["giron/src/parser/parser.rs: parse_module, parse_script, parse_directive_prologues"]}
{"id": "C32", "title": "Printing then parsing is the identity", "statement": "For a grammar of expressions (variables, numbers, strings, arrays, member access, calls, unary and binary operators, conditionals, assignments) the fully parenthesised text of every list of expressions, as a script of expression statements, is accepted by parse_script and gives back exactly those trees, positions aside (parentheses are kept as one-element sequences). More generally every script or module of the grammar of C41 whose words are names, natural numbers, strings and punctuators is parsed back from the text obtained by writing its words one after the other.", "quantifier": "every list of expression trees; every derivation of the grammar", "why_tests_cant": "All trees of any depth.", "anchors": ["giron/src/parser/parser.rs: parse_expression and below, parse_script, parse_module", "giron/src/scanner/scanner.rs: next"]}
{"id": "C33", "title": "Leading trivia only moves the result", "statement": "Let w be white space, line terminators and complete comments. Parsing w followed by a non-empty source gives exactly the outcome of parsing the source, as a script or as a module - the same tree, the same error or the same panic - with every position moved by the length of w and by the number of line breaks in it, and nothing else changed.", "quantifier": "every source, every prefix of white space, line terminators and comments", "why_tests_cant": "All sources; a state left over from the prefix would show only on particular programs.", "anchors": ["giron/src/scanner/scanner.rs: scan_comments, next", "giron/src/parser/parser.rs: new, parse_script, parse_module"]}
{"id": "C34", "title": "Automatic semicolon insertion rule", "statement": "A statement terminator is accepted exactly when the current token is ';' (which is consumed), '}' , end of input, or begins on a later line than the previous token's; otherwise an error is raised and nothing is inserted.", "quantifier": "every parser state", "why_tests_cant": "All token pairs.", "anchors": ["giron/src/parser/parser.rs: consume_semicolon, has_line_terminator"]}
{"id": "C35", "title": "Declared names are plain identifiers in function and class positions", "statement": "In every tree returned, function names, class names, labels, catch parameters, import/export specifiers are Identifier nodes or binding patterns as ESTree demands.", "quantifier": "every source accepted", "why_tests_cant": "All programs.", "anchors": ["giron/src/parser/parser.rs: parse_binding_id, parse_function_dclr", "giron/src/estree/estree.rs: to_id"]}
{"id": "C36", "title": "JSON rendering is well typed", "statement": "In the JSON produced for a tree (by the Serialize impls and by giron-wasm) every object starts with the member \"type\", and has exactly the members of that type, in order, each with the right kind of value (a table of all types and members); no member name repeats. The names are ESTree's except for a listed few (StaticMemberExpression, ...).", "quantifier": "every tree", "why_tests_cant": "All trees.", "anchors": ["giron/src/estree/estree.rs: Serialize derives", "giron-wasm/src/lib.rs"]}
{"id": "C37", "title": "Template braces match", "statement": "The scanner resumes a template at a '}' exactly when that '}' closes the matching '${'; ordinary braces nested inside never end a substitution.", "quantifier": "every scanner history without backtracking", "why_tests_cant": "All nestings.", "anchors": ["giron/src/scanner/scanner.rs: curly_stack, next, scan_punctuator"]}
{"id": "C38", "title": "Keyword table", "statement": "A spelling is a keyword for the scanner if and only if it is one of the 35 reserved words; the check by length loses none.", "quantifier": "every string", "why_tests_cant": "All strings.", "anchors": ["giron/src/scanner/scanner.rs: is_keyword"]}
{"id": "C39", "title": "Punctuator spelling is a bijection", "statement": "Punctuator::from and to_str are mutually inverse on the supported spellings and from panics on every other string.", "quantifier": "every string", "why_tests_cant": "All strings.", "anchors": ["giron/src/token/punctuators.rs: from, to_str, to_string"]}
{"id": "C40", "title": "Arrow parameters are bindings", "statement": "In every tree returned, the parameters of every arrow function are identifiers, patterns or defaults of these, however the parenthesised text was first read as an expression.", "quantifier": "every source accepted", "why_tests_cant": "Cover grammar over all expressions.", "anchors": ["giron/src/parser/parser.rs: seq_to_arrow_params, arguments_to_params", "giron/src/estree/estree.rs: to_binding, to_binding_pattern"]}
{"id": "C41", "title": "Every program of the grammar is parsed to its tree", "statement": "Let the words of a source be a script (module) of the ECMAScript grammar as restricted in Spec/Syntax.lean and Spec/Program.lean - names, literals, templates, arrays, objects with methods and accessors, functions, generators, async function expressions, methods and arrows, classes, member and call chains, operators by precedence, patterns, arrows, all statements with semicolon insertion, imports and exports; left out are async as a variable and the places where the code deviates, each marked in the grammar - and let no two neighbouring words be ones the scanner mistakes (regular expressions after ++, } and the like). Then parse_script (parse_module) accepts it and returns exactly the tree the grammar gives it, positions aside. Hence that grammar is unambiguous, and sources made of the same words, whatever the layout, get the same tree.", "quantifier": "every source, every derivation of the grammar", "why_tests_cant": "All programs of any size; a missed case shows only on the programs that use it.", "anchors": ["giron/src/parser/parser.rs: parse_script, parse_module and everything below", "giron/src/scanner/scanner.rs: next"]}
{"id": "C42", "title": "Words reserved in strict code are never names there", "statement": "In every tree returned, in strict code (a module, a class, code under a 'use strict' directive) none of implements, interface, package, private, protected, public is a reference, a label or a declared name.", "quantifier": "every source accepted", "why_tests_cant": "All programs and all the positions names can appear in.", "anchors": ["giron/src/parser/parser.rs: parse_id_reference, parse_binding_id, parse_labelled_stmt", "giron/src/estree/estree.rs: to_binding", "giron/src/parser/syntax.rs: is_strict_reserved_kw"]}
{"id": "C43", "title": "The tree spells the source", "statement": "If a source is accepted, its words (white space and comments aside) are exactly the words that the returned tree prints to, in order, up to what a tree leaves open: optional semicolons and trailing commas, the parentheses of a single arrow parameter, the keyword of a for-in/of declaration. The flags agree: computed, method, shorthand, generator, async, static. Line breaks agree too: where the tree needs a semicolon and there is none, the next word is `}`, the end or on a new line, and the operand of return, throw, break, continue and postfix operators is on their line. So no part of the source is dropped, invented or moved, and a tree without statements comes only from a source without words.", "quantifier": "every source accepted, script or module", "why_tests_cant": "The claim is about every program and every node kind in every position; tests compare a few trees.", "anchors": ["giron/src/parser/parser.rs: all parse_* methods, advance, peek", "giron/src/estree/estree.rs: to_binding_pattern, to_assignment_pattern"]}
{"id": "C44", "title": "Layout does not matter", "statement": "The tree is a function of the words of the source: if a source is accepted, every source made of the same words - with other white space and comments between them, line breaks where there were line breaks, numbers and strings spelled otherwise - is accepted too and gets the same tree, positions aside; and if no word is a regular expression, a template or begins with a slash, two sources made of the same words are both accepted with the same tree or both rejected. (After async, get and set the code also looks at how many line breaks there are.)", "quantifier": "every source, every other source made of the same words, script or module", "why_tests_cant": "It compares all pairs of layouts of all programs.", "anchors": ["giron/src/scanner/scanner.rs: next, scan_comments", "giron/src/parser/parser.rs: advance, peek, has_line_terminator, all parse_* methods"]}
{"id": "C45", "title": "Positions lie in the source", "statement": "Every position in a returned tree - the start and the end of the span of every node, property, specifier name and spread - has a line that the source has and an index within the source. If no word of the source is async, get or set, every span starts where some word starts, ends where the same or a later word ends, with the lines of these words, so no span ends before it starts. (Columns are one more than the length of the word, wherever it stands; spans of nested nodes do not nest; a span ends with the word after the node; after async, get or set a span may end before it starts: shown by counterexamples.)", "quantifier": "every source accepted, script or module; every part of the tree", "why_tests_cant": "Spans are taken at hundreds of places from a stack of markers and from the scanner state; a marker left over or taken at the wrong time shows only on particular programs.", "anchors": ["giron/src/parser/parser.rs: start_span, end_span, peek_span, parse_stmt_list_item, parse_object_lit_expr", "giron/src/scanner/scanner.rs: consume, start_new_token, save_state, restore_state"]}
{"id": "C46", "title": "Errors are about words of the source", "statement": "If a source is rejected with an error that calls a word unexpected, that word is one of the words of the source (the end of the source counts as a word, called null). If no word of the source is async, get or set, every error is at a word of the source - on the line that word ends on, with the column that every position of that word has - and if it calls a word unexpected it is that very word; or else, behind a number of words, comes a text that does not begin with a word at all, and the error is of a lexical kind and is where reading that text stopped.", "quantifier": "every source rejected, script or module", "why_tests_cant": "Errors are raised at over a hundred places from the current token, from spans taken earlier or from the scanner; a wrong place shows only on particular programs.", "anchors": ["giron/src/parser/parser.rs: error, error_current, unexpected, unexpected_current", "giron/src/scanner/scanner.rs: error, next"]}
{"id": "C47", "title": "The JSON has all the words of the source", "statement": "If JavaScript gets a tree for a source, then the source's words (white space and comments aside) are exactly the words of that JSON tree, read by the names of its members as ESTree: the left operand before the operator before the right operand, and so on, up to what ESTree leaves open. So no member is dropped, swapped or given another name on the way to JavaScript.", "quantifier": "every source accepted, script or module", "why_tests_cant": "Serialisation is by attributes on sixty types; a renamed, skipped or swapped field shows only on programs with that node.", "anchors": ["giron/src/estree/estree.rs: serde attributes", "giron-wasm/src/lib.rs: parseScript, parseModule"]}
{"id": "C48", "title": "Every part of the tree is a part of the source; line breaks and semicolons", "statement": "Every node of a returned tree, at any depth, was read from words that follow one another in the source and that are the words of that node. A statement that needs a semicolon has one behind its other words, or the next word is `}` or on a new line, or there is none. The operand of return, throw, break and continue begins on the line of that word; a postfix ++ or -- is on the line of its operand's last word; an if without else is not followed by else. (Line breaks are as giron counts them: after async, get or set it may have lost count, and then return and its operand may be on two lines: shown by example.)", "quantifier": "every source accepted, script or module; every part of the tree", "why_tests_cant": "It is about every node in every position, and about all layouts.", "anchors": ["giron/src/parser/parser.rs: consume_semicolon, has_line_terminator, parse_return_stmt, parse_throw_stmt, parse_break_stmt, parse_continue_stmt, parse_update_expr, parse_if_stmt"]}
{"id": "C49", "title": "The text of an error tells which error it is", "statement": "Two errors with the same message (Display) are of the same kind and about the same token; the message is `Unexpected token ` followed by a text exactly for an error about a token with that text. Two errors with the same Debug text are equal: line, column, kind and token can be read back from it, whatever characters the token has. giron-wasm gives JavaScript a string exactly when there is an error, that error's Debug text, and a tree exactly when there is a tree; equal strings from two calls mean equal errors.", "quantifier": "every pair of errors, every source, script or module, every Unicode table of printable characters", "why_tests_cant": "A clash or an ambiguous escape can be in any of infinitely many token texts.", "anchors": ["giron/src/errors/errors.rs: Error, ErrorType, impl Display", "giron-wasm/src/lib.rs: parseScript, parseModule"]}
{"id": "C50", "title": "Every error has a reason in the source", "statement": "If a source is rejected with an error, the words it begins with (white space and comments aside) are a reason for that kind of error: IllegalReturn only at the word return; NoIterationStatement and IllegalBreak only just after continue and break; NewlineAfterThrow only after throw and a line break; StrictWith, StrictFunction and UnexpectedStrictReserved only at with, at a function after a colon, or at a reserved word, and only if it is a module or the word class or a string saying use strict came before; MissingInitializer only after the closing bracket of a pattern, not before =, with var, let or const before; MultipleDefaultsInSwitch only at default with an earlier default and switch; InvalidLhsInFor at in after for; InvalidLhsInPostfixOp at ++ or -- on the same line; InvalidLhsInAssignment just after an assignment operator (or ==, which giron counts among them) or at the in of a for; ParamAfterRest only with ... before, and just after = or ) or at the in of a for; InvalidDestructuringTarget just after ); and so on. UnexpectedTokenUnaryExponentiation and InvalidRestBindingPattern never occur.", "quantifier": "every source, script or module, and every error it is rejected with", "why_tests_cant": "A wrong or swapped kind of error can hide behind any context in which the error is raised.", "anchors": ["giron/src/parser/parser.rs: every self.error / error_current call", "giron/src/errors/errors.rs: ErrorType"]}
{"id": "C51", "title": "The first error depends only on the words read, and nothing behind can repair it", "statement": "If a source is rejected with an error other than a lexical one, it begins with words such that every source that begins with them is rejected with an error of the same kind. If the error is about an unexpected word, that word is the last of words such that every source that begins with them is rejected; in particular, whatever text replaces what follows that word (after a blank), the source is still rejected. Two sources made of the same words get the same answer but for positions: tree, kind of error or panic (for words that can be read in one way only).", "quantifier": "every source, script or module, every error, and every other source that begins with the same words", "why_tests_cant": "The error must not depend on layout, spelling or on anything behind it: pairs of sources of any length.", "anchors": ["giron/src/parser/parser.rs: error, error_current, unexpected_current, advance", "giron/src/scanner/scanner.rs: next"]}
{"id": "C52", "title": "Strict mode only rejects", "statement": "Strict mode never changes what a program means to giron, it only rejects programs: a source accepted in strict mode (as a module without import and export, or as a script started strict) is accepted as an ordinary script, with the same tree (same kinds of node, names, values, operators, flags, spans) and the same JSON statements. Only the assign_target_type of an expression, which the JSON does not show, may be strict on one side and simple on the other.", "quantifier": "all sources, all trees", "why_tests_cant": "The claim relates two parses of the same source in different modes, for every source and for every depth at which the mode is looked at; tests compare the two entry points on a few sources.", "anchors": ["giron/src/parser/parser.rs: parse_script, parse_module, parse_id_reference, parse_with_stmt, parse_labelled_stmt", "giron/src/estree/estree.rs: assign_target_type"]}
{"id": "C53", "title": "What follows does not change the statements before", "statement": "If a script or a module is accepted, its first statements are determined by their own words and the one word after them: whatever text replaces what comes behind that word (after a blank), giron either rejects the result or returns a program that begins with the same statements, positions aside. (If the word after is async, get or set nothing is claimed.)", "quantifier": "every accepted source, every way to split its statements in two with a statement in the second part, and every text put in the place of what is behind the first word of the second part", "why_tests_cant": "The texts that may follow are infinitely many, and so are the programs that may come before; a parser with unlimited lookahead or backtracking would pass any number of examples.", "anchors": ["giron/src/parser/parser.rs: parse_script", "giron/src/parser/parser.rs: parse_module", "giron/src/parser/parser.rs: parse_directive_prologues", "giron/src/parser/parser.rs: consume_semicolon"]}
{"id": "C54", "title": "The tree is not much bigger than the source", "statement": "If a source of n characters is accepted, the JSON of the tree that is returned has at most 12 n + 4 values (objects, arrays, strings, numbers, booleans, nulls): no source makes the tree grow out of proportion.", "quantifier": "every accepted source, script or module", "why_tests_cant": "A bound on the growth is about all sizes and depths: nested patterns, parentheses, templates and arrow functions are read twice or converted, and an example never shows that nothing is doubled at every level.", "anchors": ["giron/src/estree/estree.rs: Node", "giron/src/parser/parser.rs: parse_script", "giron/src/parser/parser.rs: parse_module", "giron-wasm/src/lib.rs: parseScript"]}
{"id": "C55", "title": "A number reaches JavaScript as the nearest double", "statement": "A number literal of the source is given to JavaScript as the IEEE double nearest to the number that is written (ties to even), exactly as a JavaScript engine would read it; only a number beyond the largest double arrives as null, because JSON has no infinity. The raw text shown for it denotes the same double. Lines, columns and offsets below 2^53 arrive unchanged.", "quantifier": "every number literal: any number of digits, any exponent", "why_tests_cant": "Halfway cases and subnormal numbers are a thin set among infinitely many spellings; sampling does not meet them.", "anchors": ["giron/src/scanner/scanner.rs: scan_numeric_literal, scan_radix_literal", "giron/src/token/value.rs: Value, From<&Value> for String", "giron/src/estree/estree.rs: Literal"]}
{"id": "C56", "title": "The output is a JSON text that denotes the tree", "statement": "For every accepted source, what giron-wasm hands to JSON.parse is a well-formed JSON text, and reading it gives back exactly the tree: the same objects with the same members in the same order, no member lost to a repeated name, the same strings whatever characters they hold, the same numbers.", "quantifier": "every source, script or module, every string content and number in it", "why_tests_cant": "Escapes, nesting and separators must be right for every tree and every character; a test shows a few.", "anchors": ["giron-wasm/src/lib.rs: parseScript, parseModule", "giron/src/estree/estree.rs: derive(Serialize)", "giron/src/token/value.rs: derive(Serialize)"]}
{"id": "C57", "title": "Nothing is lost and nothing is invented", "statement": "For every accepted source: every regular expression and every part of a template is in the tree exactly as often as in the source; every number and every string of the source is in the tree as a literal (or, where a declared pattern has it in place of a shorthand name, as a name); every literal in the tree stands in the source at least as often; every name in the tree is written in the source.", "quantifier": "every accepted source, script or module", "why_tests_cant": "The parser converts expressions to patterns and parameters, re-reads parentheses as arrow parameters and backs up; that no conversion anywhere drops or doubles a part is a statement about all trees.", "anchors": ["giron/src/parser/parser.rs: parse_script, parse_module", "giron/src/estree/estree.rs: Node", "giron/src/token/token.rs: Token", "giron-wasm/src/lib.rs: parseScript, parseModule"]}
{"id": "C58", "title": "The result does not depend on the build", "statement": "For every source: a build with arithmetic overflow checks (debug) either panics with an arithmetic overflow (value of a \\u{...} escape, end offset of the empty token, last index of an empty array), or the build without the checks (release) gives exactly the same result: the same tree, the same error at the same place, the same panic. Of the Unicode identifier tables only the entries for the non-ASCII characters that occur in the source matter; a source of ASCII characters is parsed the same with every table.", "quantifier": "every source text, script and module, every pair of builds (Unicode tables, overflow checks, width of usize)", "why_tests_cant": "The tests run in one build with one version of the Unicode tables; that a release build agrees with the debug build the tests ran in, and that a new Unicode version changes nothing for existing text, is a statement about all sources and pairs of builds.", "anchors": ["giron/src/scanner/scanner.rs: scan_unicode_esc_seq, token, scan_identifier", "giron/src/codepoint/codepoint.rs: is_identifier_start, is_identifier_continue", "giron/src/estree/estree.rs: array_to_pattern", "giron/src/lib.rs: parse_script, parse_module"]}
{"id": "C59", "title": "An empty stack of positions has a cause", "statement": "If parsing panics because the stack of source positions is found empty, then the words the source begins with end in `new`, or in `++` or `--` without a line break before it. So a source in which the letters `new`, `++` and `--` do not occur (and no backslash) is never rejected in this way, however deeply expressions, functions, classes, templates and patterns are nested in it.", "quantifier": "every source text, script and module", "why_tests_cant": "The stack is shared by the whole parser, and several methods leave a position on it or take one too many; whether it runs empty depends on everything that was parsed before. A test shows that one source does not run into it, not that no source without these words does.", "anchors": ["giron/src/parser/parser.rs: start_span, end_span, peek_span, parse_update_expr, parse_call_expr_tail, parse_new_expr, precedence_climbing, parse_conditional_expr", "giron/src/lib.rs: parse_script, parse_module"]}
{"id": "C60", "title": "Panics have their cause in the words read", "statement": "If parsing panics because a token has no text, because a punctuator is looked up that does not exist, at an import, or at the pattern arm that is called unreachable, then the words the source begins with show why: respectively, in code that is strict for a reason (a module, a `class`, a string `use strict`), the end, a number or `null` has been reached; `async` is followed, on its line, by a punctuator other than `;`, `.`, `[`; `import` is followed by a string; a `]` is followed by something other than `:` and `=`. So a script in which none of these letters occur is never rejected in these ways.", "quantifier": "every source text, script and module", "why_tests_cant": "Each panic site is reached from many methods (names are read in some thirty of them), so that one of them is reached only on the words named is a statement about every source; tests show only that the known sources panic.", "anchors": ["giron/src/parser/parser.rs: parse_id_reference, parse_binding_id, parse_async_primary_expr, parse_import_dclr, value_to_key, parse_unary_expr, parse_exponentiation_expr", "giron/src/parser/syntax.rs: is_strict_reserved_kw, is_unary_op", "giron/src/lib.rs: parse_script, parse_module"]}
{"id": "C61", "title": "What giron cannot read without a panic", "statement": "If parsing panics at the first token, the source does not begin (white space and comments aside) with a word of JavaScript; and if it does not begin with one, parsing panics (where arithmetic is not checked), as a script and as a module: at the first token, or, if the source begins with a template that does not end, at this template. If parsing panics at a template that does not end, then there is a backquote in the source, and after some words there is a backquote, or the brace that ends a substitution, after which there are only template characters up to the end of the source. With C02, C59 and C60: a script in which there is no backslash, backquote or `]`, none of `new`, `++`, `--`, `async`, `import`, `class` and `use strict`, and which begins with a word, panics (where arithmetic is not checked) only where the span of an expression that has none is asked for.", "quantifier": "every source text, script and module", "why_tests_cant": "The scanner is asked for a token in hundreds of places and in states that depend on everything read before; that it fails on a template only where there is one without an end must hold of every source.", "anchors": ["giron/src/parser/scanner.rs: next, scan_template, scan_template_substitution_tail", "giron/src/parser/parser.rs: Parser::new, advance", "giron/src/lib.rs: parse_script, parse_module"]}

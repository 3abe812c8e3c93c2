import Verif.Model.Json
import Verif.Spec.Grammar
/-
Specification of the JSON output: a table of the object types with their members, in order, and what each member
holds.  Only the JSON type of the model is used here, not the functions that produce it.
-/
namespace Giron.Spec

/-- What a member of an object holds. -/
inductive Kind
  /-- a string -/
  | str
  /-- one of these strings -/
  | word (l : List Str)
  /-- a boolean -/
  | bool
  /-- this boolean -/
  | flag (b : Bool)
  /-- a natural number -/
  | num
  /-- a string, a number or `null` -/
  | scalar
  /-- an array of strings -/
  | strs
  /-- an object of one of these types -/
  | one (types : List Str)
  /-- an object of one of these types, or `null` -/
  | opt (types : List Str)
  /-- an array of objects of these types -/
  | many (types : List Str)
  /-- an array of objects of these types and `null`s -/
  | holes (types : List Str)

/-- The value is an object whose first member is `"type"`, with one of these names. -/
def HasType (types : List Str) (j : Json) : Prop :=
  ∃ name rest, name ∈ types ∧ j = .obj ((cs!"type", .str name) :: rest)

/-- The value is as described. -/
def Kind.Ok : Kind → Json → Prop
  | .str, j => ∃ s, j = .str s
  | .word l, j => ∃ s ∈ l, j = .str s
  | .bool, j => ∃ b, j = .bool b
  | .flag b, j => j = .bool b
  | .num, j => ∃ n, j = .nat n
  | .scalar, j => (∃ s, j = .str s) ∨ (∃ x, j = .num x) ∨ j = .null
  | .strs, j => ∃ l, j = .arr l ∧ ∀ x ∈ l, ∃ s, x = .str s
  | .one ts, j => HasType ts j
  | .opt ts, j => HasType ts j ∨ j = .null
  | .many ts, j => ∃ l, j = .arr l ∧ ∀ x ∈ l, HasType ts x
  | .holes ts, j => ∃ l, j = .arr l ∧ ∀ x ∈ l, HasType ts x ∨ x = .null

/-- `j` occurs in `k`, at any depth. -/
inductive Within : Json → Json → Prop
  | refl {j : Json} : Within j j
  | arr {j k : Json} {l : List Json} (h : Within j k) (hk : k ∈ l) : Within j (.arr l)
  | obj {j k : Json} {key : Str} {l : List (Str × Json)} (h : Within j k) (hk : (key, k) ∈ l) : Within j (.obj l)

/-! ### The object types that can stand in each place -/

/-- expressions -/
def exprTypes : List Str :=
  [cs!"ArrayExpression", cs!"ArrowFunctionExpression", cs!"AssignmentExpression", cs!"AsyncArrowFunctionExpression",
   cs!"BinaryExpression", cs!"CallExpression", cs!"ClassDeclaration", cs!"ComputedMemberExpression",
   cs!"ConditionalExpression", cs!"Identifier", cs!"FunctionExpression", cs!"Literal", cs!"NewExpression",
   cs!"ObjectExpression", cs!"RegexLiteral", cs!"SequenceExpression", cs!"StaticMemberExpression",
   cs!"TaggedTemplateExpression", cs!"ThisExpression", cs!"UnaryExpression", cs!"UpdateExpression",
   cs!"YieldExpression", cs!"TemplateLiteral", cs!"MetaProperty"]
/-- expressions and `super` -/
def superTypes : List Str := cs!"Super" :: exprTypes
/-- statements that can be the body of another statement -/
def subTypes : List Str :=
  [cs!"BlockStatement", cs!"EmptyStatement", cs!"ExpressionStatement", cs!"IfStatement", cs!"DoWhileStatement",
   cs!"WhileStatement", cs!"ForStatement", cs!"ForInStatement", cs!"ForOfStatement", cs!"ContinueStatement",
   cs!"BreakStatement", cs!"ReturnStatement", cs!"WithStatement", cs!"SwitchStatement", cs!"ThrowStatement",
   cs!"TryStatement", cs!"DebuggerStatement", cs!"LabeledStatement", cs!"VariableDeclaration"]
/-- declarations -/
def declTypes : List Str := [cs!"VariableDeclaration", cs!"FunctionDeclaration", cs!"ClassDeclaration"]
/-- items of a statement list -/
def stmtTypes : List Str := subTypes ++ declTypes
/-- imports and exports -/
def portTypes : List Str :=
  [cs!"ImportDeclaration", cs!"ExportAllDeclaration", cs!"ExportDefaultDeclaration", cs!"ExportNamedDeclaration"]
/-- names, member expressions, parenthesised ones -/
def targetTypes : List Str :=
  [cs!"Identifier", cs!"ComputedMemberExpression", cs!"StaticMemberExpression", cs!"SequenceExpression",
   cs!"ArrayPattern", cs!"ObjectPattern"]
/-- ... with a default value -/
def elemTypes : List Str := cs!"AssignmentPattern" :: targetTypes
/-- ... or a rest element -/
def patternTypes : List Str := cs!"RestElement" :: cs!"BindingIdentifier" :: elemTypes
/-- function parameters -/
def paramTypes : List Str :=
  [cs!"AssignmentPattern", cs!"BindingIdentifier", cs!"ArrayPattern", cs!"ObjectPattern", cs!"RestElement"]

/-- the members of a function -/
def fnMembers (id : Kind) (body : List Str) (gen expr async : Kind) : List (Str × Kind) :=
  [(cs!"id", id), (cs!"params", .many paramTypes), (cs!"body", .one body), (cs!"generator", gen),
   (cs!"expression", expr), (cs!"async", async)]

/-- the members of a property -/
def propMembers (value : Kind) (kind : Kind) : List (Str × Kind) :=
  [(cs!"key", .one exprTypes), (cs!"computed", .bool), (cs!"value", value), (cs!"kind", kind),
   (cs!"method", .bool), (cs!"shorthand", .bool)]

/-- The objects of the output: the `"type"` and the members that follow it. -/
def schema : List (Str × List (Str × Kind)) :=
  [(cs!"Program", [(cs!"body", .many (stmtTypes ++ portTypes)), (cs!"sourceType", .word [cs!"script", cs!"module"])]),
   -- statements
   (cs!"BlockStatement", [(cs!"body", .many stmtTypes)]),
   (cs!"BreakStatement", [(cs!"label", .opt [cs!"Identifier"])]),
   (cs!"ContinueStatement", [(cs!"label", .opt [cs!"Identifier"])]),
   (cs!"DebuggerStatement", []),
   (cs!"DoWhileStatement", [(cs!"body", .one subTypes), (cs!"test", .one exprTypes)]),
   (cs!"EmptyStatement", []),
   (cs!"ExpressionStatement", [(cs!"expression", .one exprTypes)]),
   (cs!"ForStatement", [(cs!"init", .opt (exprTypes ++ declTypes)), (cs!"test", .opt exprTypes),
     (cs!"update", .opt exprTypes), (cs!"body", .one subTypes)]),
   (cs!"ForInStatement", [(cs!"left", .one targetTypes), (cs!"right", .one exprTypes), (cs!"body", .one subTypes),
     (cs!"each", .flag false)]),
   (cs!"ForOfStatement", [(cs!"left", .one targetTypes), (cs!"right", .one exprTypes), (cs!"body", .one subTypes)]),
   (cs!"IfStatement", [(cs!"test", .one exprTypes), (cs!"consequent", .one subTypes), (cs!"alternate", .opt subTypes)]),
   (cs!"LabeledStatement", [(cs!"label", .one [cs!"Identifier"]), (cs!"body", .one (subTypes ++ [cs!"FunctionDeclaration"]))]),
   (cs!"ReturnStatement", [(cs!"argument", .opt exprTypes)]),
   (cs!"SwitchStatement", [(cs!"discriminant", .one exprTypes), (cs!"cases", .many [cs!"SwitchCase"])]),
   (cs!"SwitchCase", [(cs!"test", .opt exprTypes), (cs!"consequent", .many stmtTypes)]),
   (cs!"ThrowStatement", [(cs!"argument", .one exprTypes)]),
   (cs!"TryStatement", [(cs!"block", .one [cs!"BlockStatement"]), (cs!"handler", .opt [cs!"CatchClause"]),
     (cs!"finalizer", .opt [cs!"BlockStatement"])]),
   (cs!"CatchClause", [(cs!"param", .opt targetTypes), (cs!"body", .one [cs!"BlockStatement"])]),
   (cs!"WhileStatement", [(cs!"test", .one exprTypes), (cs!"body", .one subTypes)]),
   (cs!"WithStatement", [(cs!"object", .one exprTypes), (cs!"body", .one subTypes)]),
   -- declarations
   (cs!"VariableDeclaration", [(cs!"declarations", .many [cs!"VariableDeclarator"]), (cs!"kind", .word varKinds)]),
   (cs!"VariableDeclarator", [(cs!"id", .one targetTypes), (cs!"init", .opt exprTypes)]),
   (cs!"FunctionDeclaration", fnMembers (.opt [cs!"Identifier"]) [cs!"BlockStatement"] .bool (.flag false) .bool),
   (cs!"ClassDeclaration", [(cs!"id", .opt [cs!"Identifier"]), (cs!"superClass", .opt exprTypes),
     (cs!"body", .one [cs!"ClassBody"])]),
   (cs!"ClassBody", [(cs!"body", .many [cs!"MethodDefinition"])]),
   (cs!"MethodDefinition", [(cs!"key", .one exprTypes), (cs!"computed", .bool),
     (cs!"value", .one [cs!"FunctionExpression"]), (cs!"kind", .word methodKinds), (cs!"static", .flag false)]),
   -- imports and exports
   (cs!"ImportDeclaration", [(cs!"specifiers", .many [cs!"ImportDefaultSpecifier", cs!"ImportNamespaceSpecifier",
     cs!"ImportSpecifier"]), (cs!"source", .one [cs!"Literal"])]),
   (cs!"ImportDefaultSpecifier", [(cs!"local", .one [cs!"Identifier"])]),
   (cs!"ImportNamespaceSpecifier", [(cs!"local", .one [cs!"Identifier"])]),
   (cs!"ImportSpecifier", [(cs!"local", .one [cs!"Identifier"]), (cs!"imported", .one [cs!"Identifier"])]),
   (cs!"ExportAllDeclaration", [(cs!"source", .one [cs!"Literal"])]),
   (cs!"ExportDefaultDeclaration", [(cs!"declaration", .one (exprTypes ++ declTypes))]),
   (cs!"ExportNamedDeclaration", [(cs!"declaration", .opt declTypes), (cs!"specifiers", .many [cs!"ExportSpecifier"]),
     (cs!"source", .opt [cs!"Literal"])]),
   (cs!"ExportSpecifier", [(cs!"exported", .one [cs!"Identifier"]), (cs!"local", .one [cs!"Identifier"])]),
   -- expressions
   (cs!"ArrayExpression", [(cs!"elements", .holes (cs!"SpreadElement" :: exprTypes))]),
   (cs!"ArrowFunctionExpression", fnMembers (.opt []) (cs!"BlockStatement" :: exprTypes) (.flag false) .bool (.flag false)),
   (cs!"AsyncArrowFunctionExpression", fnMembers (.opt []) (cs!"BlockStatement" :: exprTypes) (.flag false) .bool (.flag true)),
   (cs!"FunctionExpression", fnMembers (.opt [cs!"Identifier"]) [cs!"BlockStatement"] .bool (.flag false) .bool),
   (cs!"AsyncFunctionExpression", fnMembers (.opt []) [cs!"BlockStatement"] .bool (.flag false) .bool),
   (cs!"AssignmentExpression", [(cs!"operator", .word assignOps), (cs!"left", .one targetTypes), (cs!"right", .one exprTypes)]),
   (cs!"BinaryExpression", [(cs!"operator", .word (binOps.map Prod.fst)), (cs!"left", .one exprTypes),
     (cs!"right", .one exprTypes)]),
   (cs!"CallExpression", [(cs!"callee", .one superTypes), (cs!"arguments", .many (cs!"SpreadElement" :: exprTypes))]),
   (cs!"ComputedMemberExpression", [(cs!"computed", .flag true), (cs!"object", .one superTypes),
     (cs!"property", .one exprTypes)]),
   (cs!"ConditionalExpression", [(cs!"test", .one exprTypes), (cs!"consequent", .one exprTypes),
     (cs!"alternate", .one exprTypes)]),
   (cs!"Identifier", [(cs!"name", .str)]),
   (cs!"Literal", [(cs!"value", .scalar), (cs!"raw", .str)]),
   (cs!"NewExpression", [(cs!"callee", .one exprTypes), (cs!"arguments", .many (cs!"SpreadElement" :: exprTypes))]),
   (cs!"ObjectExpression", [(cs!"properties", .many [cs!"Property", cs!"SpreadElement"])]),
   (cs!"RegexLiteral", [(cs!"value", .str), (cs!"raw", .str), (cs!"regex", .one [cs!"Regex"])]),
   (cs!"Regex", [(cs!"pattern", .str), (cs!"flags", .strs)]),
   (cs!"SequenceExpression", [(cs!"expressions", .many exprTypes)]),
   (cs!"StaticMemberExpression", [(cs!"computed", .flag false), (cs!"object", .one superTypes),
     (cs!"property", .one [cs!"Identifier"])]),
   (cs!"TaggedTemplateExpression", [(cs!"tag", .one exprTypes), (cs!"quasi", .one [cs!"TemplateLiteral"])]),
   (cs!"TemplateLiteral", [(cs!"quasis", .many [cs!"TemplateElement"]), (cs!"expressions", .many exprTypes)]),
   (cs!"TemplateElement", [(cs!"value", .one [cs!"TemplateElementValue"]), (cs!"tail", .bool)]),
   (cs!"TemplateElementValue", [(cs!"cooked", .str), (cs!"raw", .str)]),
   (cs!"ThisExpression", []),
   (cs!"Super", []),
   (cs!"MetaProperty", [(cs!"meta", .one [cs!"Identifier"]), (cs!"property", .one [cs!"Identifier"])]),
   (cs!"UnaryExpression", [(cs!"operator", .word unaryOps), (cs!"argument", .one exprTypes), (cs!"prefix", .flag true)]),
   (cs!"UpdateExpression", [(cs!"operator", .word updateOps), (cs!"argument", .one exprTypes), (cs!"prefix", .bool)]),
   (cs!"YieldExpression", [(cs!"argument", .opt exprTypes), (cs!"delegate", .bool)]),
   (cs!"SpreadElement", [(cs!"argument", .one exprTypes)]),
   -- object literals carry positions
   (cs!"SpreadElement", [(cs!"argument", .one exprTypes), (cs!"span", .one [cs!"Span"])]),
   (cs!"Property", propMembers (.opt (cs!"AsyncFunctionExpression" :: exprTypes)) (.word propKinds) ++
     [(cs!"span", .one [cs!"Span"])]),
   (cs!"Span", [(cs!"start", .one [cs!"Marker"]), (cs!"end", .one [cs!"Marker"])]),
   (cs!"Marker", [(cs!"line", .num), (cs!"col", .num), (cs!"idx", .num)]),
   -- patterns
   (cs!"ArrayPattern", [(cs!"elements", .holes patternTypes)]),
   (cs!"ObjectPattern", [(cs!"properties", .many [cs!"Property", cs!"RestElement"])]),
   (cs!"Property", propMembers (.opt elemTypes) .str),
   (cs!"AssignmentPattern", [(cs!"left", .one targetTypes), (cs!"right", .one exprTypes)]),
   (cs!"RestElement", [(cs!"argument", .one targetTypes)]),
   (cs!"BindingIdentifier", [(cs!"name", .str)])]

/-- The members are those listed, in order, each holding what it should. -/
def MembersOk : List (Str × Kind) → List (Str × Json) → Prop
  | [], [] => True
  | (key, kind) :: row, (key', j) :: rest => key = key' ∧ kind.Ok j ∧ MembersOk row rest
  | _, _ => False

/-- An object with the members of its type, in order, each holding what it should. -/
def ObjectOk (members : List (Str × Json)) : Prop :=
  ∃ name row rest, (name, row) ∈ schema ∧ members = (cs!"type", .str name) :: rest ∧ MembersOk row rest

end Giron.Spec

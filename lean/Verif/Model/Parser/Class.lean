import Verif.Model.Parser.Patterns
/-
giron/src/parser/parser.rs: property names, methods and classes.
-/
namespace Giron
namespace Parser
variable [Env]
open M

/-- parser.rs:3539-3545 `parse_computed_property_name` -/
def parseComputedPropertyName (r : Rec) : PM PropertyKey := do
  let _ ← consume .lBracket
  let name ← withIn true r.assignmentExpr
  let _ ← consume .rBracket
  pure (.expression name)

/-- parser.rs:3508-3537 `parse_property_name`; a string or number is *not* consumed (3521-3530) -/
def parsePropertyName (r : Rec) : PM (PropertyKey × Bool) := do
  let t ← cur
  if t.isIdOrKw then do
    startSpan
    let name ← parseIdName .div
    let span ← endSpan
    pure (.identifier ⟨name, span⟩, false)
  else if t.tokentype = .stringLiteral ∨ t.tokentype = .numericLiteral then do
    startSpan
    let span ← endSpan
    pure (.literal ⟨t.value, t.value.toString, span⟩, false)
  else if t.isP .lBracket then do
    let key ← parseComputedPropertyName r
    pure (key, true)
  else unexpectedCurrent

/-- parser.rs:1814-1830: the kind of a plain class method -/
def methodKind : PropertyKey → Str
  | .identifier id => if id.name = cs!"constructor" then cs!"constructor" else cs!"method"
  | .literal l => if l.raw = cs!"constructor" then cs!"constructor" else cs!"method"
  | .expression _ => cs!"method"

/-- parser.rs:1655-1684: `get` in a class -/
def classGetter (r : Rec) (isStatic : Bool) : PM MethodDefinition := do
  let _ ← advance .regExp
  let (key, computed) ← parsePropertyName r
  let _ ← consume .lParen
  let _ ← consume .rParen
  let body ← withYieldAwait false false (parseFunctionBody r)
  pure (.mk key.asNode computed (some (.mk none [] body false false false)) cs!"get" isStatic)

/-- parser.rs:1685-1720: `set` in a class -/
def classSetter (r : Rec) (isStatic : Bool) : PM MethodDefinition := do
  let _ ← advance .regExp
  let (key, computed) ← parsePropertyName r
  let (params, body) ← parseParamsAndBody r false false
  pure (.mk key.asNode computed (some (.mk none params body false false false)) cs!"set" isStatic)

/-- parser.rs:1721-1772: `async` in a class -/
def classAsync (r : Rec) (isStatic : Bool) : PM MethodDefinition := do
  let _ ← advance .regExp
  let s ← get
  let generator ← (
    if s.current.tokentype = .punctuator ∧ s.hasLineTerminator = false ∧ s.current.matchesPunc .star then do
      let _ ← advance .regExp
      pure true
    else pure false)
  let s ← get
  if generator = false ∧ s.hasLineTerminator = false then unexpectedCurrent
  else do
    let (key, computed) ← parsePropertyName r
    let (params, body) ← parseParamsAndBody r generator true
    pure (.mk key.asNode computed (some (.mk none params body generator false true)) cs!"method" isStatic)

/-- parser.rs:1773-1808: a generator method in a class -/
def classGenerator (r : Rec) (isStatic : Bool) : PM MethodDefinition := do
  let _ ← advance .regExp
  let (key, computed) ← parsePropertyName r
  let (params, body) ← parseParamsAndBody r true false
  pure (.mk key.asNode computed (some (.mk none params body true false false)) cs!"method" isStatic)

/-- parser.rs:1809-1860: a plain method in a class -/
def classMethod (r : Rec) (isStatic : Bool) : PM MethodDefinition := do
  let (key, computed) ← parsePropertyName r
  let (params, body) ← parseParamsAndBody r false false
  pure (.mk key.asNode computed (some (.mk none params body false false false)) (methodKind key) isStatic)

/-- parser.rs:1644-1863: one round of `parse_class_body` -/
def classItem (r : Rec) : PM (Option MethodDefinition) := do
  let t ← cur
  if t.isP .semicolon then do
    let _ ← advance .regExp
    pure none
  else do
    let isStatic ← (
      if t.isKw cs!"static" then do
        let _ ← advance .regExp
        pure true
      else pure false)
    let t ← cur
    let m ← (
      if t.isId cs!"get" then classGetter r isStatic
      else if t.isId cs!"set" then classSetter r isStatic
      else if t.isId cs!"async" then classAsync r isStatic
      else if t.isP .star then classGenerator r isStatic
      else classMethod r isStatic)
    pure (some m)

/-- parser.rs:1634-1872 `parse_class_body` -/
def parseClassBody (r : Rec) : PM (List MethodDefinition) := do
  let items ← untilPunc .rBrace (classItem r)
  pure (items.filterMap id)

/-- parser.rs:1605-1632 `parse_class_tail` -/
def parseClassTail (r : Rec) (id : Option Node) : PM Node := do
  let t ← cur
  let superClass ← (
    if t.isKw cs!"extends" then do
      let _ ← advance .regExp
      let e ← r.leftHandSideExpr
      pure (some e)
    else pure none)
  let _ ← consume .lBrace
  let body ← parseClassBody r
  let _ ← consume .rBrace
  let span ← endSpan
  pure (.classDeclaration id superClass body span)

/-- `Binding::BindingIdentifier(..) => Node::BindingIdentifier { name, span }` after `parse_binding_id`
(parser.rs:1592-1597, 3133-3139, 1519-1524); `parse_binding_id` returns no other binding. -/
def bindingIdNode : Binding → PM Node
  | .bindingIdentifier name span => pure (.bindingIdentifier name span)
  | _ => panic (.unreachableArm 1596)

/-- parser.rs:1585-1603 `parse_class_dclr` -/
def parseClassDclr (r : Rec) : PM Node := do
  let s0 ← get
  modify fun s => { s with ctx := { s.ctx with strict := true } }
  startSpan
  let _ ← consumeKw cs!"class"
  let b ← parseBindingId
  let id ← bindingIdNode b
  let res ← parseClassTail r (some id)
  modify fun s => { s with ctx := { s.ctx with strict := s0.ctx.strict } }
  pure res

/-- parser.rs:3114-3148 `parse_class_expr` (which returns a `ClassDeclaration` node) -/
def parseClassExpr (r : Rec) : PM Node := do
  let s0 ← get
  modify fun s => { s with ctx := { s.ctx with strict := true } }
  startSpan
  let _ ← consumeKw cs!"class"
  let s ← get
  let id ← (
    if s.current.isIdOrKw then do
      let b ← parseBindingId
      let n ← bindingIdNode b
      pure (some n)
    else if s.params.hasDefault then pure none
    else unexpectedCurrent)
  let res ← parseClassTail r id
  modify fun s => { s with ctx := { s.ctx with strict := s0.ctx.strict } }
  pure res

end Parser
end Giron

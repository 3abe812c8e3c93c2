import Verif.Model.Parser.Names
/-
giron/src/parser/parser.rs: binding patterns and formal parameters.
-/
namespace Giron
namespace Parser
variable [Env]
open M

/-- parser.rs:2932-2967 `value_to_key` -/
def valueToKey (v : ValueOrExpr) (literal : Bool) (span : Span) : PM PropertyKey :=
  match v with
  | .expr e => if literal then pure (.expression e) else panic (.unreachableArm 2965)
  | .value value =>
    if literal then pure (.literal ⟨value, value.toString, span⟩)
    else do
      let s ← get
      if Scanner.isKeyword value.toString then
        if (!s.params.hasYield && value.toString == cs!"yield") || (!s.params.hasAwait && value.toString == cs!"await")
        then pure (.identifier ⟨value.toString, span⟩)
        else unexpectedCurrent
      else pure (.identifier ⟨value.toString, span⟩)

/-- parser.rs:2814-2829: the property name of `parse_obj_binding_pat` -/
def objPatName (r : Rec) : PM ValueOrExpr := do
  let t ← cur
  if t.isIdOrKw ∨ t.tokentype = .stringLiteral ∨ t.tokentype = .numericLiteral then do
    let t ← advance .regExp
    pure (.value t.value)
  else if t.isP .lBracket then do
    let _ ← consume .lBracket
    let expr ← withIn true r.assignmentExpr
    let _ ← consume .rBracket
    pure (.expr expr)
  else unexpectedCurrent

/-- parser.rs:2834-2837: the name of a shorthand property with a default -/
def shorthandName (v : ValueOrExpr) : PM Str :=
  match v with
  | .value (.str s) => pure s
  | _ => unexpectedCurrent

/-- parser.rs:2873-2896: a binding as the value of a property -/
def bindingToPropertyValue (line col : Nat) : Binding → PM PropertyValue
  | .bindingIdentifier name span => pure (.bindingIdentifier name span)
  | .arrayPattern elements _ => pure (.bindingPattern (.arrayPattern elements))
  | .objectPattern properties _ => pure (.bindingPattern (.objectPattern properties))
  | .expression _ => fail (.err ⟨line, col, .invalidDestructuringTarget⟩)

/-- parser.rs:2855-2896: what follows `:` in an object binding pattern -/
def objPatValue (r : Rec) : PM PropertyValue := do
  let t0 ← cur
  let pattern ← r.bindingIdOrPat
  let t ← cur
  if t.isP .assign then do
    let _ ← advance .regExp
    let right ← withIn true r.assignmentExpr
    pure (.assignmentPattern pattern right)
  else bindingToPropertyValue t0.lineNum t0.col pattern

/-- parser.rs:2803-2923: one round of `parse_obj_binding_pat` -/
def objPatItem (r : Rec) : PM ObjectPatternProperty := do
  let t ← cur
  if t.isP .ellipsis then do
    let _ ← advance .regExp
    let argument ← r.bindingIdOrPat
    pure (.restElement argument)
  else do
    startSpan
    let value ← objPatName r
    let span ← endSpan
    let t ← cur
    let property ← (
      if t.isP .assign then do
        let _ ← advance .regExp
        let name ← shorthandName value
        let key ← valueToKey value false span
        let right ← withIn true r.assignmentExpr
        pure (ObjectPatternProperty.property key false
          (some (.assignmentPattern (.bindingIdentifier name span) right)) cs!"init" false true)
      else if t.isP .colon then do
        let _ ← advance .regExp
        let key ← valueToKey value true span
        let computed := match key with | .expression _ => true | _ => false
        let v ← objPatValue r
        pure (.property key computed (some v) cs!"init" false false)
      else do
        let key ← valueToKey value false span
        pure (.property key false none cs!"init" false true))
    commaUnless .rBrace
    pure property

/-- parser.rs:2782-2930 `parse_obj_binding_pat` -/
def parseObjBindingPat (r : Rec) : PM Binding := do
  startSpan
  let _ ← consume .lBrace
  let properties ← untilPuncOrRest .rBrace (objPatItem r)
  let _ ← consume .rBrace
  let span ← endSpan
  pure (.objectPattern properties span)

/-- parser.rs:3024-3041: a binding as an element of an array pattern -/
def bindingToElement (line col : Nat) : Binding → PM ArrayPatternElement
  | .bindingIdentifier name _ => pure (.bindingIdentifier name)
  | .arrayPattern elements _ => pure (.arrayPattern elements)
  | .objectPattern properties _ => pure (.objectPattern properties)
  | .expression _ => fail (.err ⟨line, col, .invalidDestructuringTarget⟩)

/-- parser.rs:3000-3046: one round of `parse_arr_binding_pat` -/
def arrPatItem (r : Rec) : PM (Option ArrayPatternElement) := do
  let t0 ← cur
  if t0.isP .comma then do
    let _ ← advance .regExp
    pure none
  else if t0.isP .ellipsis then do
    let _ ← advance .regExp
    let argument ← r.bindingIdOrPat
    pure (some (.restElement argument))
  else do
    let pattern ← r.bindingIdOrPat
    let t ← cur
    let element ← (
      if t.isP .assign then do
        let _ ← advance .regExp
        let right ← withIn true r.assignmentExpr
        pure (ArrayPatternElement.assignmentPattern pattern right)
      else bindingToElement t0.lineNum t0.col pattern)
    commaUnless .rBracket
    pure (some element)

/-- parser.rs:2969-3053 `parse_arr_binding_pat` -/
def parseArrBindingPat (r : Rec) : PM Binding := do
  startSpan
  let _ ← consume .lBracket
  let elements ← untilPuncOrRest .rBracket (arrPatItem r)
  let _ ← consume .rBracket
  let span ← endSpan
  pure (.arrayPattern elements span)

/-- parser.rs:2772-2780 `parse_binding_id_or_pat` -/
def parseBindingIdOrPat (r : Rec) : PM Binding := do
  let t ← cur
  if t.isIdOrKw then parseBindingId
  else if t.isP .lBrace then parseObjBindingPat r
  else if t.isP .lBracket then parseArrBindingPat r
  else unexpectedCurrent

/-- parser.rs:3239-3256: a binding as a parameter -/
def bindingToParam (line col : Nat) : Binding → PM FunctionParameter
  | .bindingIdentifier name _ => pure (.bindingIdentifier name)
  | .arrayPattern elements _ => pure (.arrayPattern elements)
  | .objectPattern properties _ => pure (.objectPattern properties)
  | .expression _ => fail (.err ⟨line, col, .invalidDestructuringTarget⟩)

/-- parser.rs:3220-3262: one round of `parse_formal_params` -/
def formalParam (r : Rec) : PM FunctionParameter := do
  let t0 ← cur
  if t0.isP .ellipsis then do
    let _ ← advance .regExp
    let argument ← r.bindingIdOrPat
    pure (.restElement argument)
  else do
    let left ← r.bindingIdOrPat
    let t ← cur
    let param ← (
      if t.isP .assign then do
        let _ ← advance .regExp
        let right ← withIn true r.assignmentExpr
        pure (FunctionParameter.assignmentPattern left right)
      else bindingToParam t0.lineNum t0.col left)
    commaUnless .rParen
    pure param

/-- parser.rs:3194-3267 `parse_formal_params` -/
def parseFormalParams (r : Rec) : PM (List FunctionParameter) := do
  let _ ← consume .lParen
  let parameters ← untilPuncOrRest .rParen (formalParam r)
  let _ ← consume .rParen
  pure parameters

/-- parser.rs:3194-3267 followed by 1559-1565: `(params, body)` of a method, parsed with the given parameters -/
def parseParamsAndBody (r : Rec) (generator async : Bool) : PM (List FunctionParameter × Node) := do
  let params ← withYieldAwait generator async (parseFormalParams r)
  let body ← withYieldAwait generator async (parseFunctionBody r)
  pure (params, body)

end Parser
end Giron

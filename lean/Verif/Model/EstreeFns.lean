import Verif.Model.Estree
/-
giron/src/estree/estree.rs: the methods.  They do not touch the parser, so they return `Except Fail`.
-/
namespace Giron

/-- estree.rs:1400-1406 `Node::error` -/
def nodeError {α} (t : ErrorType) (m : Marker) : Except Fail α := .error (.err ⟨m.line, m.col, t⟩)

/-- estree.rs:109-126 `Binding::to_node` -/
def Binding.toNode : Binding → Except Fail Node
  | .bindingIdentifier name span => .ok (.bindingIdentifier name span)
  | .arrayPattern elements span => .ok (.arrayPattern elements .simple span)
  | .objectPattern properties span => .ok (.objectPattern properties .simple span)
  | .expression _ => .error (.panic .toNode)

/-- estree.rs:128-135 `Binding::to_id` -/
def Binding.toId : Binding → Except Fail Identifier
  | .bindingIdentifier name span => .ok ⟨name, span⟩
  | _ => .error (.panic .toId)

/-- estree.rs:200-215 `PropertyKey::as_node` -/
def PropertyKey.asNode : PropertyKey → Node
  | .identifier id => .identifier id.name .invalid id.span
  | .literal l => .literal l.value l.raw .invalid l.span
  | .expression n => n

/-- estree.rs:328-338 `ArgumentListElement::as_node` -/
def ArgumentListElement.asNode : ArgumentListElement → Node
  | .expression n => n
  | .spreadElement a sp => .spreadElement a sp

namespace Node

/-- estree.rs:917-958 `expr_span`; `none` is the `panic!()` arm -/
def exprSpan? : Node → Option Span
  | .arrayExpression _ _ sp | .arrayPattern _ _ sp | .arrayAssignmentPattern _ _ sp => some sp
  | .arrowFunctionExpression _ _ _ _ _ _ _ sp => some sp
  | .assignmentExpression _ _ _ _ sp => some sp
  | .assignmentPattern _ _ sp => some sp
  | .assignmentRestElement _ sp => some sp
  | .asyncArrowFunctionExpression _ _ _ _ _ _ _ sp => some sp
  | .asyncFunctionExpression _ _ _ _ _ _ _ sp => some sp
  | .awaitExpression _ sp => some sp
  | .binaryExpression _ _ _ _ sp => some sp
  | .bindingIdentifier _ sp => some sp
  | .logicalExpression _ _ _ sp => some sp
  | .callExpression _ _ _ sp => some sp
  | .classExpression _ _ _ _ sp => some sp
  | .computedMemberExpression _ _ _ _ sp => some sp
  | .conditionalExpression _ _ _ sp => some sp
  | .identifier _ _ sp => some sp
  | .functionExpression _ _ _ _ _ _ _ sp => some sp
  | .literal _ _ _ sp => some sp
  | .newExpression _ _ _ sp => some sp
  | .objectExpression _ _ sp => some sp
  | .objectPattern _ _ sp => some sp
  | .regexLiteral _ _ _ _ sp => some sp
  | .sequenceExpression _ _ sp => some sp
  | .staticMemberExpression _ _ _ _ sp => some sp
  | .taggedTemplateExpression _ _ _ sp => some sp
  | .thisExpression _ sp => some sp
  | .unaryExpression _ _ _ _ sp => some sp
  | .updateExpression _ _ _ _ sp => some sp
  | .yieldExpression _ _ _ sp => some sp
  | .arrowParameterPlaceHolder _ _ sp => some sp
  | .restElement _ sp => some sp
  | .spreadElement _ sp => some sp
  | .super _ sp => some sp
  | .templateLiteral _ _ _ sp => some sp
  | .metaProperty _ _ _ sp => some sp
  | _ => none

/-- estree.rs:917-958 `expr_span` -/
def exprSpan (n : Node) : Except Fail Span :=
  match n.exprSpan? with
  | some sp => .ok sp
  | none => .error (.panic .exprSpan)

/-- estree.rs:960-1043 `assign_target_type` -/
def assignTargetType : Node → ATT
  | .arrayExpression _ att _ => att
  | .arrayPattern _ att _ => att
  | .arrowFunctionExpression _ _ _ _ _ _ att _ => att
  | .assignmentExpression _ _ _ att _ => att
  | .asyncArrowFunctionExpression _ _ _ _ _ _ att _ => att
  | .asyncFunctionExpression _ _ _ _ _ _ att _ => att
  | .binaryExpression _ _ _ att _ => att
  | .callExpression _ _ att _ => att
  | .classExpression _ _ _ att _ => att
  | .computedMemberExpression _ _ _ att _ => att
  | .arrayAssignmentPattern _ _ _ => .simple
  | .identifier _ att _ => att
  | .functionExpression _ _ _ _ _ _ att _ => att
  | .literal _ _ att _ => att
  | .newExpression _ _ att _ => att
  | .objectExpression _ att _ => att
  | .objectPattern _ att _ => att
  | .regexLiteral _ _ _ att _ => att
  | .sequenceExpression _ att _ => att
  | .staticMemberExpression _ _ _ att _ => att
  | .thisExpression att _ => att
  | .unaryExpression _ _ _ att _ => att
  | .updateExpression _ _ _ att _ => att
  | .yieldExpression _ _ att _ => att
  | .super att _ => att
  | .templateLiteral _ _ att _ => att
  | .metaProperty _ _ att _ => att
  | _ => .invalid

end Node

/-- estree.rs:1061-1075 `to_strict_binding`, applied to the result of `to_binding_pattern` -/
def asStrictBinding (r : Except Fail Node) (marker : Marker) : Except Fail Binding := do
  match ← r with
  | .bindingIdentifier name span => pure (.bindingIdentifier name span)
  | .arrayPattern elements _ span => pure (.arrayPattern elements span)
  | .objectPattern properties _ span => pure (.objectPattern properties span)
  | _ => nodeError .invalidOrUnexpectedToken marker

/-- estree.rs:1289-1321 `to_array_pattern_element`, applied to the result of `to_binding_pattern` -/
def asArrayPatternElement (r : Except Fail Node) (isLast : Bool) : Except Fail ArrayPatternElement := do
  let element ← r
  match element with
  | .assignmentPattern left right _ => pure (.assignmentPattern left right)
  | .bindingIdentifier name _ => pure (.bindingIdentifier name)
  | .objectPattern properties _ _ => pure (.objectPattern properties)
  | .arrayPattern elements _ _ => pure (.arrayPattern elements)
  | .restElement argument span =>
    if isLast then pure (.restElement argument) else nodeError .paramAfterRest span.start
  | element => do
    let sp ← element.exprSpan
    nodeError .invalidOrUnexpectedToken sp.start

/-- estree.rs:1345-1373: the `match expr.to_binding_pattern()?` of `object_to_pattern` -/
def asPropertyValue (r : Except Fail Node) (span : Span) : Except Fail (Option PropertyValue) := do
  match ← r with
  | .assignmentPattern left right _ => pure (some (.assignmentPattern left right))
  | .bindingIdentifier name span => pure (some (.bindingIdentifier name span))
  | .objectPattern properties _ _ => pure (some (.bindingPattern (.objectPattern properties)))
  | .arrayPattern elements _ _ => pure (some (.bindingPattern (.arrayPattern elements)))
  | _ => nodeError .invalidOrUnexpectedToken span.start

variable [Env]

mutual

/-- estree.rs:1237-1261 `to_binding_pattern` -/
def toBindingPattern : Node → Except Fail Node
  | .identifier name _ span => .ok (.bindingIdentifier name span)
  | .arrayExpression elements _ span =>
    -- 1263-1287 `array_to_pattern`; 1265: `elements.len() - 1` underflows on the empty list
    if elements.isEmpty && Env.checked then .error (.panic .arrayLenUnderflow)
    else do
      let pat ← arrayToPatternElems elements 0 (elements.length - 1)
      pure (.arrayPattern pat .simple span)
  | .objectExpression properties _ span => do
    -- 1323-1398 `object_to_pattern` (the empty list gives the empty pattern)
    let pat ← objectToPatternProps properties 0 (properties.length - 1)
    pure (.objectPattern pat .simple span)
  | .assignmentExpression operator left right att span =>
    if operator = cs!"=" then do
      let left ← asStrictBinding (toBindingPattern left) span.start
      pure (.assignmentPattern left right span)
    else pure (.assignmentExpression operator left right att span)
  | .spreadElement argument span => do
    let argument ← asStrictBinding (toBindingPattern argument) span.start
    pure (.restElement argument span)
  | n => .ok n
termination_by structural n => n

/-- estree.rs:1266-1281: the loop of `array_to_pattern` from index `i` -/
def arrayToPatternElems : List (Option ArrayExpressionElement) → Nat → Nat →
    Except Fail (List (Option ArrayPatternElement))
  | [], _, _ => pure []
  | e :: rest, i, lastIdx => do
    let p ← arrayToPatternElem e i lastIdx
    let ps ← arrayToPatternElems rest (i + 1) lastIdx
    pure (p :: ps)
termination_by structural l => l

/-- estree.rs:1267-1280: body of that loop -/
def arrayToPatternElem : Option ArrayExpressionElement → Nat → Nat → Except Fail (Option ArrayPatternElement)
  | none, _, _ => pure none
  | some e, i, lastIdx => do
    let p ← arrayToPatternSome e i lastIdx
    pure (some p)
termination_by structural e => e

/-- estree.rs:1268-1279: the two `Some` arms -/
def arrayToPatternSome : ArrayExpressionElement → Nat → Nat → Except Fail ArrayPatternElement
  | .expression expr, i, lastIdx => asArrayPatternElement (toBindingPattern expr) (i == lastIdx)
  | .spreadElement argument span, i, lastIdx =>
    if i ≠ lastIdx then nodeError .paramAfterRest span.start
    else do
      let b ← asStrictBinding (toBindingPattern argument) span.start
      pure (.restElement b)
termination_by structural e => e

/-- estree.rs:1333-1391: the loop of `object_to_pattern` from index `i` -/
def objectToPatternProps : List ObjectExpressionProperty → Nat → Nat →
    Except Fail (List ObjectPatternProperty)
  | [], _, _ => pure []
  | p :: rest, i, lastIdx => do
    let q ← objectToPatternProp p i lastIdx
    let qs ← objectToPatternProps rest (i + 1) lastIdx
    pure (q :: qs)
termination_by structural l => l

/-- estree.rs:1334-1390: body of that loop -/
def objectToPatternProp : ObjectExpressionProperty → Nat → Nat → Except Fail ObjectPatternProperty
  | .property key computed value kind method shorthand span, _, _ => do
    let value ← objectToPatternValue value span
    pure (.property key computed value kind method shorthand)
  | .spreadElement argument span, i, lastIdx =>
    if i = lastIdx then do
      let b ← asStrictBinding (toBindingPattern argument) span.start
      pure (.restElement b)
    else nodeError .invalidOrUnexpectedToken span.start
termination_by structural p => p

/-- estree.rs:1344-1376: the value of a property -/
def objectToPatternValue : Option PropertyValue → Span → Except Fail (Option PropertyValue)
  | none, _ => pure none
  | some v, span => objectToPatternSome v span
termination_by structural v => v

/-- estree.rs:1345, 1375: a present value -/
def objectToPatternSome : PropertyValue → Span → Except Fail (Option PropertyValue)
  | .expression expr, span => asPropertyValue (toBindingPattern expr) span
  | _, span => nodeError .invalidOrUnexpectedToken span.start
termination_by structural v => v

end

/-- estree.rs:1061-1075 `to_strict_binding` -/
def toStrictBinding (n : Node) (marker : Marker) : Except Fail Binding :=
  asStrictBinding (toBindingPattern n) marker

/-- estree.rs:1045-1059 `to_binding` -/
def toBinding (n : Node) : Except Fail Binding := do
  match ← toBindingPattern n with
  | .bindingIdentifier name span => pure (.bindingIdentifier name span)
  | .arrayPattern elements _ span => pure (.arrayPattern elements span)
  | .objectPattern properties _ span => pure (.objectPattern properties span)
  | node => pure (.expression node)

omit [Env] in
/-- estree.rs:1131-1159 `as_assignment_element`, applied to the result of `to_assignment_pattern` -/
def asAssignmentElement (r : Except Fail Node) : Except Fail Node := do
  let element ← r
  match element with
  | .assignmentExpression operator left right att span =>
    if operator = cs!"=" then
      if left.assignTargetType ≠ .simple then nodeError .invalidLhsInAssignment span.start
      else pure (.assignmentPattern (.expression left) right span)
    else if att ≠ .simple then nodeError .invalidLhsInAssignment span.start
    else pure element
  | element =>
    if element.assignTargetType ≠ .simple then do
      let sp ← element.exprSpan
      nodeError .invalidLhsInAssignment sp.start
    else pure element

/-- estree.rs:1102-1120 and 1208-1226: the argument of `...` in an assignment pattern (`t` is the error for a
nested literal pattern: the two copies differ in it) -/
def restArgument (t : ErrorType) (argument : Node) (span : Span) : Except Fail Binding :=
  match argument with
  | .arrayExpression _ _ sp => nodeError t sp.start
  | .objectExpression _ _ sp => nodeError t sp.start
  | argument =>
    if argument.assignTargetType ≠ .simple then nodeError .invalidLhsInAssignment span.start
    else toBinding argument

mutual

/-- estree.rs:1077-1087 `to_assignment_pattern` -/
def toAssignmentPattern : Node → Except Fail Node
  | .arrayExpression elements _ span => do
    -- 1089-1129 `array_to_assign_pattern`; 1094: `let last_idx = elements.len();`
    let pat ← arrayToAssignElems elements 0 elements.length
    pure (.arrayAssignmentPattern pat .simple span)
  | .objectExpression properties _ span => do
    -- 1161-1235 `object_to_assign_pattern` (the empty list gives the empty pattern)
    let pat ← objectToAssignProps properties 0 (properties.length - 1)
    pure (.objectPattern pat .simple span)
  | n => .ok n
termination_by structural n => n

/-- estree.rs:1095-1123: the loop of `array_to_assign_pattern` -/
def arrayToAssignElems : List (Option ArrayExpressionElement) → Nat → Nat →
    Except Fail (List (Option ArrayAssignmentPatternElement))
  | [], _, _ => pure []
  | e :: rest, i, lastIdx => do
    let p ← arrayToAssignElem e i lastIdx
    let ps ← arrayToAssignElems rest (i + 1) lastIdx
    pure (p :: ps)
termination_by structural l => l

/-- estree.rs:1096-1122: body of that loop -/
def arrayToAssignElem : Option ArrayExpressionElement → Nat → Nat →
    Except Fail (Option ArrayAssignmentPatternElement)
  | none, _, _ => pure none
  | some e, i, lastIdx => do
    let p ← arrayToAssignSome e i lastIdx
    pure (some p)
termination_by structural e => e

/-- estree.rs:1097-1121: the two `Some` arms -/
def arrayToAssignSome : ArrayExpressionElement → Nat → Nat → Except Fail ArrayAssignmentPatternElement
  | .expression expr, _, _ => do
    let e ← asAssignmentElement (toAssignmentPattern expr)
    pure (.expression e)
  | .spreadElement argument span, i, lastIdx =>
    if i ≠ lastIdx then nodeError .paramAfterRest span.start
    else do
      let b ← restArgument .invalidRestBindingPattern argument span
      pure (.restElement b)
termination_by structural e => e

/-- estree.rs:1183-1228: the loop of `object_to_assign_pattern` -/
def objectToAssignProps : List ObjectExpressionProperty → Nat → Nat →
    Except Fail (List ObjectPatternProperty)
  | [], _, _ => pure []
  | p :: rest, i, lastIdx => do
    let q ← objectToAssignProp p i lastIdx
    let qs ← objectToAssignProps rest (i + 1) lastIdx
    pure (q :: qs)
termination_by structural l => l

/-- estree.rs:1184-1227: body of that loop -/
def objectToAssignProp : ObjectExpressionProperty → Nat → Nat → Except Fail ObjectPatternProperty
  | .property key computed value kind method shorthand span, _, _ => do
    let value ← objectToAssignValue value span
    pure (.property key computed value kind method shorthand)
  | .spreadElement argument span, i, lastIdx =>
    if i ≠ lastIdx then nodeError .paramAfterRest span.start
    else do
      let b ← restArgument .invalidLhsInAssignment argument span
      pure (.restElement b)
termination_by structural p => p

/-- estree.rs:1194-1201: the value of a property -/
def objectToAssignValue : Option PropertyValue → Span → Except Fail (Option PropertyValue)
  | none, _ => pure none
  | some v, span => objectToAssignSome v span
termination_by structural v => v

/-- estree.rs:1195-1200: a present value -/
def objectToAssignSome : PropertyValue → Span → Except Fail (Option PropertyValue)
  | .expression expr, _ => do
    let e ← asAssignmentElement (toAssignmentPattern expr)
    pure (some (.expression e))
  | _, span => nodeError .invalidOrUnexpectedToken span.start
termination_by structural v => v

end

end Giron

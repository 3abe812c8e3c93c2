import Verif.Proofs.Spell.Convert
/-
The errors of conversions: why an expression is not a pattern.
-/
namespace Giron
namespace Why
open Spec Spell Lang
variable [Env] {α β : Type}

/-- In all these words there is a `...`. -/
def Dots (L : Lang) : Prop := ∀ ms, L ms → Mark.punct .ellipsis ∈ ms

omit [Env] in
theorem dots_left {A B : Lang} (h : Dots A) : Dots (A.cat B) := by
  rintro _ ⟨a, b, rfl, ha, _⟩
  exact List.mem_append_left _ (h a ha)
omit [Env] in
theorem dots_right {A B : Lang} (h : Dots B) : Dots (A.cat B) := by
  rintro _ ⟨a, b, rfl, _, hb⟩
  exact List.mem_append_right _ (h b hb)
omit [Env] in
theorem dots_pun {B : Lang} : Dots (Lang.cat (pun .ellipsis) B) := by
  rintro _ ⟨a, b, rfl, ha, _⟩
  cases ha
  exact List.mem_append_left _ (by simp)

/-- The kinds of errors of conversions of something with these words; `a` tells whether it is to be assigned to. -/
def Ill (a : Bool) (L : Lang) (k : ErrorType) : Prop :=
  k = .invalidOrUnexpectedToken ∨ k = .paramAfterRest ∧ Dots L ∨ a = true ∧ k = .invalidLhsInAssignment

/-- a conversion of something with these words -/
def Cx (a : Bool) (L : Lang) (x : Except Fail α) : Prop := ∀ e, x = .error (.err e) → Ill a L e.errortype

variable {a : Bool} {A B L : Lang} {x : Except Fail α}

omit [Env] in
theorem Cx.pure {v : α} : Cx a L (Pure.pure v : Except Fail α) := fun _ h => nomatch h
omit [Env] in
theorem Cx.ok {v : α} : Cx a L (.ok v : Except Fail α) := fun _ h => nomatch h
omit [Env] in
theorem Cx.panic {p : PanicSite} : Cx a L (.error (.panic p) : Except Fail α) := fun _ h => nomatch h
omit [Env] in
theorem Cx.mono (h : Cx a A x) (hd : Dots A → Dots B) : Cx a B x := fun e he =>
  (h e he).imp_right (Or.imp_left (And.imp_right hd))
omit [Env] in
theorem Cx.bind {k : α → Except Fail β} (h : Cx a L x) (hk : ∀ v, x = .ok v → Cx a L (k v)) : Cx a L (x >>= k) := by
  intro e he
  cases x with
  | error f => exact h e (by cases he; rfl)
  | ok v => exact hk v rfl e he
omit [Env] in
theorem Cx.plain {m : Marker} : Cx a L (nodeError .invalidOrUnexpectedToken m : Except Fail α) := fun e he => by
  cases he
  exact .inl rfl
omit [Env] in
theorem Cx.rest {m : Marker} (h : Dots L) : Cx a L (nodeError .paramAfterRest m : Except Fail α) := fun e he => by
  cases he
  exact .inr (.inl ⟨rfl, h⟩)
omit [Env] in
theorem Cx.lhs {m : Marker} : Cx true L (nodeError .invalidLhsInAssignment m : Except Fail α) := fun e he => by
  cases he
  exact .inr (.inr ⟨rfl, rfl⟩)
omit [Env] in
theorem Cx.exprSpan {n : Node} : Cx a L n.exprSpan := by
  unfold Node.exprSpan
  split
  · exact .ok
  · exact .panic

omit [Env] in
theorem cx_asStrictBinding {e : Except Fail Node} {m : Marker} (h : Cx a L e) : Cx a L (asStrictBinding e m) := by
  unfold asStrictBinding
  refine h.bind fun v _ => ?_
  split <;> first | exact .pure | exact .plain

omit [Env] in
theorem cx_asPropertyValue {e : Except Fail Node} {sp : Span} (h : Cx a L e) : Cx a L (asPropertyValue e sp) := by
  unfold asPropertyValue
  refine h.bind fun v _ => ?_
  split <;> first | exact .pure | exact .plain

theorem cx_asArrayPatternElement {n : Node} {e : Except Fail Node} {b : Bool} (h : Cx a (node n) e)
    (hk : ∀ m, e = .ok m → ∀ ws, node n ws → node m ws) : Cx a (node n) (asArrayPatternElement e b) := by
  unfold asArrayPatternElement
  refine h.bind fun v hv => ?_
  cases v with
  | restElement argument span =>
    refine fun f hf => ?_
    dsimp only at hf
    split at hf
    · cases hf
    · exact Cx.rest (a := a) (L := node n) (fun ms hm => dots_pun ms (hk _ hv ms hm)) f hf
  | _ => first | exact .pure | exact Cx.exprSpan.bind fun _ _ => .plain

mutual

theorem cx_toBindingPattern : ∀ n : Node, Cx a (node n) (toBindingPattern n)
  | .identifier .. => .ok
  | .arrayExpression elements att span => by
    rw [toBindingPattern]
    split
    · exact .panic
    · exact ((cx_arrayToPatternElems elements 0 (elements.length - 1)).mono fun h => dots_right (dots_left h)).bind fun _ _ => .pure
  | .objectExpression properties att span => by
    rw [toBindingPattern]
    exact ((cx_objectToPatternProps properties 0 (properties.length - 1)).mono fun h => dots_right (dots_left h)).bind fun _ _ => .pure
  | .assignmentExpression operator left right att span => by
    rw [toBindingPattern]
    split
    · exact ((cx_asStrictBinding (cx_toBindingPattern left)).mono dots_left).bind fun _ _ => .pure
    · exact .pure
  | .spreadElement argument span => by
    rw [toBindingPattern]
    exact ((cx_asStrictBinding (cx_toBindingPattern argument)).mono dots_right).bind fun _ _ => .pure
  | .arrayPattern .. | .arrayAssignmentPattern .. | .arrowFunctionExpression .. | .assignmentPattern .. => .ok
  | .assignmentRestElement .. | .asyncArrowFunctionExpression .. | .asyncFunctionExpression .. | .awaitExpression .. => .ok
  | .binaryExpression .. | .bindingIdentifier .. | .logicalExpression .. | .callExpression .. => .ok
  | .classExpression .. | .computedMemberExpression .. | .conditionalExpression .. | .functionExpression .. => .ok
  | .literal .. | .newExpression .. | .objectPattern .. | .regexLiteral .. => .ok
  | .sequenceExpression .. | .staticMemberExpression .. | .taggedTemplateExpression .. | .thisExpression .. => .ok
  | .unaryExpression .. | .updateExpression .. | .yieldExpression .. | .arrowParameterPlaceHolder .. => .ok
  | .restElement .. | .super .. | .templateLiteral .. | .metaProperty .. => .ok
  | .asyncFunctionDeclaration .. | .breakStatement .. | .continueStatement .. | .debuggerStatement .. => .ok
  | .doWhileStatement .. | .emptyStatement .. | .expressionStatement .. | .directive .. => .ok
  | .forStatement .. | .forInStatement .. | .forOfStatement .. | .functionDeclaration .. => .ok
  | .ifStatement .. | .returnStatement .. | .switchStatement .. | .throwStatement .. => .ok
  | .tryStatement .. | .variableDeclaration .. | .whileStatement .. | .withStatement .. => .ok
  | .blockStatement .. | .classDeclaration .. | .exportAllDeclaration .. | .exportDefaultDeclaration .. => .ok
  | .exportNamedDeclaration .. | .importDeclaration .. | .importDefaultSpecifier .. => .ok
  | .importNamespaceSpecifier .. | .importSpecifier .. | .labeledStatement .. | .moduleNode .. | .program .. => .ok
termination_by structural n => n

theorem cx_arrayToPatternElems : ∀ (l : List (Option ArrayExpressionElement)) (i j : Nat), Cx a (arrayElements l) (arrayToPatternElems l i j)
  | [], _, _ => .pure
  | none :: more, i, j => by
    rw [arrayToPatternElems]
    refine Cx.bind (x := arrayToPatternElem none i j) (.pure) fun _ _ =>
      ((cx_arrayToPatternElems more (i + 1) j).mono dots_right).bind fun _ _ => .pure
  | some e :: more, i, j => by
    rw [arrayToPatternElems]
    exact ((cx_arrayToPatternElem (some e) i j e rfl).mono dots_left).bind fun _ _ =>
      ((cx_arrayToPatternElems more (i + 1) j).mono fun h => dots_right (dots_right h)).bind fun _ _ => .pure
termination_by structural l => l

theorem cx_arrayToPatternElem : ∀ (o : Option ArrayExpressionElement) (i j : Nat) (e : ArrayExpressionElement), o = some e →
    Cx a (arrayElement e) (arrayToPatternElem o i j)
  | none, _, _, _, h => nomatch h
  | some e, i, j, _, rfl => by
    rw [arrayToPatternElem]
    exact (cx_arrayToPatternSome e i j).bind fun _ _ => .pure
termination_by structural e => e

theorem cx_arrayToPatternSome : ∀ (e : ArrayExpressionElement) (i j : Nat), Cx a (arrayElement e) (arrayToPatternSome e i j)
  | .expression n, i, j => by
    rw [arrayToPatternSome]
    exact cx_asArrayPatternElement (cx_toBindingPattern n) (toBindingPattern_keeps n)
  | .spreadElement argument span, i, j => by
    rw [arrayToPatternSome]
    split
    · exact .rest dots_pun
    · exact ((cx_asStrictBinding (cx_toBindingPattern argument)).mono dots_right).bind fun _ _ => .pure
termination_by structural e => e

theorem cx_objectToPatternProps : ∀ (l : List ObjectExpressionProperty) (i j : Nat), Cx a (properties l) (objectToPatternProps l i j)
  | [], _, _ => .pure
  | p :: more, i, j => by
    rw [objectToPatternProps]
    exact ((cx_objectToPatternProp p i j).mono dots_left).bind fun _ _ =>
      ((cx_objectToPatternProps more (i + 1) j).mono fun h => dots_right (dots_right h)).bind fun _ _ => .pure
termination_by structural l => l

theorem cx_objectToPatternProp : ∀ (p : ObjectExpressionProperty) (i j : Nat), Cx a (property p) (objectToPatternProp p i j)
  | .property key computed value kind method shorthand span, i, j => by
    rw [objectToPatternProp]
    exact ((cx_objectToPatternValue value span).mono fun h => dots_right (dots_right (dots_right h))).bind fun _ _ => .pure
  | .spreadElement argument span, i, j => by
    rw [objectToPatternProp]
    split
    · exact ((cx_asStrictBinding (cx_toBindingPattern argument)).mono dots_right).bind fun _ _ => .pure
    · exact .plain
termination_by structural p => p

theorem cx_objectToPatternValue : ∀ (v : Option PropertyValue) (sp : Span), Cx a (optValue v) (objectToPatternValue v sp)
  | none, _ => .pure
  | some v, sp => by
    rw [objectToPatternValue]
    exact cx_objectToPatternSome v sp
termination_by structural v => v

theorem cx_objectToPatternSome : ∀ (v : PropertyValue) (sp : Span), Cx a (propertyValue v) (objectToPatternSome v sp)
  | .expression n, sp => by
    rw [objectToPatternSome]
    exact cx_asPropertyValue (cx_toBindingPattern n)
  | .assignmentPattern .., _ | .asyncFunctionExpression .., _ | .bindingIdentifier .., _ | .bindingPattern .., _ | .functionExpression .., _ => .plain
termination_by structural v => v

end

theorem cx_toBinding {n : Node} : Cx a (node n) (toBinding n) := by
  unfold toBinding
  refine (cx_toBindingPattern n).bind fun v _ => ?_
  split <;> exact .pure

omit [Env] in
theorem cx_asAssignmentElement {e : Except Fail Node} (h : Cx true L e) : Cx true L (asAssignmentElement e) := by
  unfold asAssignmentElement
  refine h.bind fun v _ => ?_
  split
  · split
    · split
      · exact .lhs
      · exact .pure
    · split
      · exact .lhs
      · exact .pure
  · split
    · exact Cx.exprSpan.bind fun _ _ => .lhs
    · exact .pure

theorem cx_restArgument {n : Node} {sp : Span} : Cx true (node n) (restArgument .invalidLhsInAssignment n sp) := by
  unfold restArgument
  split
  · exact .lhs
  · exact .lhs
  · split
    · exact .lhs
    · exact cx_toBinding

mutual

theorem cx_toAssignmentPattern : ∀ n : Node, Cx true (node n) (toAssignmentPattern n)
  | .arrayExpression elements att span => by
    rw [toAssignmentPattern]
    exact ((cx_arrayToAssignElems elements 0 elements.length (by simp)).mono fun h => dots_right (dots_left h)).bind fun _ _ => .pure
  | .objectExpression properties att span => by
    rw [toAssignmentPattern]
    exact ((cx_objectToAssignProps properties 0 (properties.length - 1)).mono fun h => dots_right (dots_left h)).bind fun _ _ => .pure
  | .identifier .. | .assignmentExpression .. | .spreadElement .. => .ok
  | .arrayPattern .. | .arrayAssignmentPattern .. | .arrowFunctionExpression .. | .assignmentPattern .. => .ok
  | .assignmentRestElement .. | .asyncArrowFunctionExpression .. | .asyncFunctionExpression .. | .awaitExpression .. => .ok
  | .binaryExpression .. | .bindingIdentifier .. | .logicalExpression .. | .callExpression .. => .ok
  | .classExpression .. | .computedMemberExpression .. | .conditionalExpression .. | .functionExpression .. => .ok
  | .literal .. | .newExpression .. | .objectPattern .. | .regexLiteral .. => .ok
  | .sequenceExpression .. | .staticMemberExpression .. | .taggedTemplateExpression .. | .thisExpression .. => .ok
  | .unaryExpression .. | .updateExpression .. | .yieldExpression .. | .arrowParameterPlaceHolder .. => .ok
  | .restElement .. | .super .. | .templateLiteral .. | .metaProperty .. => .ok
  | .asyncFunctionDeclaration .. | .breakStatement .. | .continueStatement .. | .debuggerStatement .. => .ok
  | .doWhileStatement .. | .emptyStatement .. | .expressionStatement .. | .directive .. => .ok
  | .forStatement .. | .forInStatement .. | .forOfStatement .. | .functionDeclaration .. => .ok
  | .ifStatement .. | .returnStatement .. | .switchStatement .. | .throwStatement .. => .ok
  | .tryStatement .. | .variableDeclaration .. | .whileStatement .. | .withStatement .. => .ok
  | .blockStatement .. | .classDeclaration .. | .exportAllDeclaration .. | .exportDefaultDeclaration .. => .ok
  | .exportNamedDeclaration .. | .importDeclaration .. | .importDefaultSpecifier .. => .ok
  | .importNamespaceSpecifier .. | .importSpecifier .. | .labeledStatement .. | .moduleNode .. | .program .. => .ok
termination_by structural n => n

theorem cx_arrayToAssignElems : ∀ (l : List (Option ArrayExpressionElement)) (i j : Nat), i + l.length = j →
    Cx true (arrayElements l) (arrayToAssignElems l i j)
  | [], _, _, _ => .pure
  | none :: more, i, j, h => by
    rw [arrayToAssignElems]
    refine Cx.bind (x := arrayToAssignElem none i j) (.pure) fun _ _ =>
      ((cx_arrayToAssignElems more (i + 1) j (by simp at h; omega)).mono dots_right).bind fun _ _ => .pure
  | some e :: more, i, j, h => by
    rw [arrayToAssignElems]
    exact ((cx_arrayToAssignElem (some e) i j e rfl (by simp at h; omega)).mono dots_left).bind fun _ _ =>
      ((cx_arrayToAssignElems more (i + 1) j (by simp at h; omega)).mono fun h => dots_right (dots_right h)).bind fun _ _ => .pure
termination_by structural l => l

theorem cx_arrayToAssignElem : ∀ (o : Option ArrayExpressionElement) (i j : Nat) (e : ArrayExpressionElement), o = some e → i ≠ j →
    Cx true (arrayElement e) (arrayToAssignElem o i j)
  | none, _, _, _, h, _ => nomatch h
  | some e, i, j, _, rfl, hn => by
    rw [arrayToAssignElem]
    exact (cx_arrayToAssignSome e i j hn).bind fun _ _ => .pure
termination_by structural e => e

theorem cx_arrayToAssignSome : ∀ (e : ArrayExpressionElement) (i j : Nat), i ≠ j → Cx true (arrayElement e) (arrayToAssignSome e i j)
  | .expression n, i, j, _ => by
    rw [arrayToAssignSome]
    exact (cx_asAssignmentElement (cx_toAssignmentPattern n)).bind fun _ _ => .pure
  | .spreadElement argument span, i, j, hn => by
    rw [arrayToAssignSome, if_pos hn]
    exact .rest dots_pun
termination_by structural e => e

theorem cx_objectToAssignProps : ∀ (l : List ObjectExpressionProperty) (i j : Nat), Cx true (properties l) (objectToAssignProps l i j)
  | [], _, _ => .pure
  | p :: more, i, j => by
    rw [objectToAssignProps]
    exact ((cx_objectToAssignProp p i j).mono dots_left).bind fun _ _ =>
      ((cx_objectToAssignProps more (i + 1) j).mono fun h => dots_right (dots_right h)).bind fun _ _ => .pure
termination_by structural l => l

theorem cx_objectToAssignProp : ∀ (p : ObjectExpressionProperty) (i j : Nat), Cx true (property p) (objectToAssignProp p i j)
  | .property key computed value kind method shorthand span, i, j => by
    rw [objectToAssignProp]
    exact ((cx_objectToAssignValue value span).mono fun h => dots_right (dots_right (dots_right h))).bind fun _ _ => .pure
  | .spreadElement argument span, i, j => by
    rw [objectToAssignProp]
    split
    · exact .rest dots_pun
    · exact (cx_restArgument.mono dots_right).bind fun _ _ => .pure
termination_by structural p => p

theorem cx_objectToAssignValue : ∀ (v : Option PropertyValue) (sp : Span), Cx true (optValue v) (objectToAssignValue v sp)
  | none, _ => .pure
  | some v, sp => by
    rw [objectToAssignValue]
    exact cx_objectToAssignSome v sp
termination_by structural v => v

theorem cx_objectToAssignSome : ∀ (v : PropertyValue) (sp : Span), Cx true (propertyValue v) (objectToAssignSome v sp)
  | .expression n, sp => by
    rw [objectToAssignSome]
    exact (cx_asAssignmentElement (cx_toAssignmentPattern n)).bind fun _ _ => .pure
  | .assignmentPattern .., _ | .asyncFunctionExpression .., _ | .bindingIdentifier .., _ | .bindingPattern .., _ | .functionExpression .., _ => .plain
termination_by structural v => v

end

end Why
end Giron

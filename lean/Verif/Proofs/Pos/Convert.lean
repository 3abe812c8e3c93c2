import Verif.Proofs.Pos.Basic
/-
The spans of a converted tree are spans of the tree.
-/
namespace Giron
namespace Pos
open M Giron.Parser
variable [Env] {α β : Type} [Sp α] [Sp β] {P : Pr} [F : Fair P]

omit F in
theorem kx_bind {x : Except Fail α} {f : α → Except Fail β} (h : Kx P x) (hf : ∀ a, Al P a → Kx P (f a)) : Kx P (x >>= f) := by
  cases x with
  | error e => exact ⟨fun _ h => by (cases h), fun e' he => h.bad e' (by cases he; rfl)⟩
  | ok a => exact hf a (h.out a rfl)

omit F in
theorem kx_pure {a : α} (h : Al P a) : Kx P (pure a : Except Fail α) := ⟨fun _ e => by cases e; exact h, fun _ e => by (cases e)⟩
omit F in
theorem kx_ok {a : α} (h : Al P a) : Kx P (.ok a : Except Fail α) := ⟨fun _ e => by cases e; exact h, fun _ e => by (cases e)⟩
instance kx_panic {p : PanicSite} : Kx P (.error (.panic p) : Except Fail α) := ⟨fun _ e => by (cases e), fun _ e => by (cases e)⟩
instance kx_nodeError {t : ErrorType} {m : Marker} [h : Pm P m.line m.col] [ht : Mild t] : Kx P (nodeError t m : Except Fail α) :=
  ⟨fun _ e => by (cases e), fun _ e => by cases e; exact h.out t ht⟩
omit F in
theorem kx_ite {c : Prop} [Decidable c] {x y : Except Fail α} (h : Kx P x) (h' : Kx P y) : Kx P (if c then x else y) := by
  split <;> assumption

theorem kx_nodeErr {t : ErrorType} {sp : Span} (h : Al P sp) [ht : Mild t] : Kx P (nodeError t sp.start : Except Fail α) :=
  inferInstance

/-- one step -/
macro "kx1" : tactic => `(tactic| first
  | exact inferInstance
  | with_reducible assumption
  | (with_reducible refine kx_bind ?_ (fun _ _ => ?_))
  | (with_reducible refine kx_ite ?_ ?_)
  | exact kx_pure (by simp_all [al])
  | exact kx_nodeErr (by simp_all [al])
  | exact kx_ok (by simp_all [al])
  | split)

/-- all of them -/
macro "kx" : tactic => `(tactic| repeat kx1)

instance kx_toNode {b : Binding} [h : Al P b] : Kx P b.toNode := by
  cases b <;> simp only [Binding.toNode] <;> kx
instance kx_toId {b : Binding} [h : Al P b] : Kx P b.toId := by
  cases b <;> simp only [Binding.toId] <;> kx
@[al] theorem al_asNode {k : PropertyKey} : Al P k.asNode ↔ Al P k := by
  cases k with
  | identifier i => cases i; simp [PropertyKey.asNode, al]
  | literal l => cases l; simp [PropertyKey.asNode, al]
  | expression n => simp [PropertyKey.asNode, al]
@[al] theorem al_argNode {k : ArgumentListElement} : Al P k.asNode ↔ Al P k := by
  cases k <;> simp [ArgumentListElement.asNode, al]

instance kx_exprSpan {n : Node} [h : Al P n] : Kx P n.exprSpan := by
  constructor
  · intro sp e
    unfold Node.exprSpan at e
    split at e <;> cases e
    next hs =>
    cases n <;> simp only [Node.exprSpan?] at hs <;> cases hs <;> simp_all [al]
  · intro e h
    unfold Node.exprSpan at h
    split at h <;> cases h

instance kx_asStrictBinding {r : Except Fail Node} {m : Marker} [h : Kx P r] [hm : Pm P m.line m.col] : Kx P (asStrictBinding r m) := by
  unfold asStrictBinding; kx

instance kx_asArrayPatternElement {r : Except Fail Node} {b : Bool} [h : Kx P r] : Kx P (asArrayPatternElement r b) := by
  unfold asArrayPatternElement; kx

instance kx_asPropertyValue {r : Except Fail Node} {sp : Span} [h : Kx P r] [hs : Al P sp] : Kx P (asPropertyValue r sp) := by
  unfold asPropertyValue; kx

mutual

theorem kx_toBindingPattern : ∀ n : Node, Al P n → Kx P (toBindingPattern n)
  | .arrayExpression elements att span, h => by
    simp only [al] at h
    unfold toBindingPattern
    have := kx_arrayToPatternElems elements 0 (elements.length - 1) h.1
    have := h.2
    kx
  | .objectExpression properties att span, h => by
    simp only [al] at h
    unfold toBindingPattern
    have := kx_objectToPatternProps properties 0 (properties.length - 1) h.1
    have := h.2
    kx
  | .assignmentExpression o l r a sp, h => by
    simp only [al] at h
    unfold toBindingPattern
    have := kx_toBindingPattern l h.1
    have := h.2.2
    kx
  | .identifier .., h => by unfold toBindingPattern; kx
  | .spreadElement a sp, h => by
    simp only [al] at h
    unfold toBindingPattern
    have := kx_toBindingPattern a h.1
    have := h.2
    kx
  | .arrayPattern .., h => by unfold toBindingPattern; exact kx_ok h
  | .arrayAssignmentPattern .., h => by unfold toBindingPattern; exact kx_ok h
  | .arrowFunctionExpression .., h => by unfold toBindingPattern; exact kx_ok h
  | .assignmentPattern .., h => by unfold toBindingPattern; exact kx_ok h
  | .assignmentRestElement .., h => by unfold toBindingPattern; exact kx_ok h
  | .asyncArrowFunctionExpression .., h => by unfold toBindingPattern; exact kx_ok h
  | .asyncFunctionExpression .., h => by unfold toBindingPattern; exact kx_ok h
  | .awaitExpression .., h => by unfold toBindingPattern; exact kx_ok h
  | .binaryExpression .., h => by unfold toBindingPattern; exact kx_ok h
  | .bindingIdentifier .., h => by unfold toBindingPattern; exact kx_ok h
  | .logicalExpression .., h => by unfold toBindingPattern; exact kx_ok h
  | .callExpression .., h => by unfold toBindingPattern; exact kx_ok h
  | .classExpression .., h => by unfold toBindingPattern; exact kx_ok h
  | .computedMemberExpression .., h => by unfold toBindingPattern; exact kx_ok h
  | .conditionalExpression .., h => by unfold toBindingPattern; exact kx_ok h
  | .functionExpression .., h => by unfold toBindingPattern; exact kx_ok h
  | .literal .., h => by unfold toBindingPattern; exact kx_ok h
  | .newExpression .., h => by unfold toBindingPattern; exact kx_ok h
  | .objectPattern .., h => by unfold toBindingPattern; exact kx_ok h
  | .regexLiteral .., h => by unfold toBindingPattern; exact kx_ok h
  | .sequenceExpression .., h => by unfold toBindingPattern; exact kx_ok h
  | .staticMemberExpression .., h => by unfold toBindingPattern; exact kx_ok h
  | .taggedTemplateExpression .., h => by unfold toBindingPattern; exact kx_ok h
  | .thisExpression .., h => by unfold toBindingPattern; exact kx_ok h
  | .unaryExpression .., h => by unfold toBindingPattern; exact kx_ok h
  | .updateExpression .., h => by unfold toBindingPattern; exact kx_ok h
  | .yieldExpression .., h => by unfold toBindingPattern; exact kx_ok h
  | .arrowParameterPlaceHolder .., h => by unfold toBindingPattern; exact kx_ok h
  | .restElement .., h => by unfold toBindingPattern; exact kx_ok h
  | .super .., h => by unfold toBindingPattern; exact kx_ok h
  | .templateLiteral .., h => by unfold toBindingPattern; exact kx_ok h
  | .metaProperty .., h => by unfold toBindingPattern; exact kx_ok h
  | .asyncFunctionDeclaration .., h => by unfold toBindingPattern; exact kx_ok h
  | .breakStatement .., h => by unfold toBindingPattern; exact kx_ok h
  | .continueStatement .., h => by unfold toBindingPattern; exact kx_ok h
  | .debuggerStatement .., h => by unfold toBindingPattern; exact kx_ok h
  | .doWhileStatement .., h => by unfold toBindingPattern; exact kx_ok h
  | .emptyStatement .., h => by unfold toBindingPattern; exact kx_ok h
  | .expressionStatement .., h => by unfold toBindingPattern; exact kx_ok h
  | .directive .., h => by unfold toBindingPattern; exact kx_ok h
  | .forStatement .., h => by unfold toBindingPattern; exact kx_ok h
  | .forInStatement .., h => by unfold toBindingPattern; exact kx_ok h
  | .forOfStatement .., h => by unfold toBindingPattern; exact kx_ok h
  | .functionDeclaration .., h => by unfold toBindingPattern; exact kx_ok h
  | .ifStatement .., h => by unfold toBindingPattern; exact kx_ok h
  | .returnStatement .., h => by unfold toBindingPattern; exact kx_ok h
  | .switchStatement .., h => by unfold toBindingPattern; exact kx_ok h
  | .throwStatement .., h => by unfold toBindingPattern; exact kx_ok h
  | .tryStatement .., h => by unfold toBindingPattern; exact kx_ok h
  | .variableDeclaration .., h => by unfold toBindingPattern; exact kx_ok h
  | .whileStatement .., h => by unfold toBindingPattern; exact kx_ok h
  | .withStatement .., h => by unfold toBindingPattern; exact kx_ok h
  | .blockStatement .., h => by unfold toBindingPattern; exact kx_ok h
  | .classDeclaration .., h => by unfold toBindingPattern; exact kx_ok h
  | .exportAllDeclaration .., h => by unfold toBindingPattern; exact kx_ok h
  | .exportDefaultDeclaration .., h => by unfold toBindingPattern; exact kx_ok h
  | .exportNamedDeclaration .., h => by unfold toBindingPattern; exact kx_ok h
  | .importDeclaration .., h => by unfold toBindingPattern; exact kx_ok h
  | .importDefaultSpecifier .., h => by unfold toBindingPattern; exact kx_ok h
  | .importNamespaceSpecifier .., h => by unfold toBindingPattern; exact kx_ok h
  | .importSpecifier .., h => by unfold toBindingPattern; exact kx_ok h
  | .labeledStatement .., h => by unfold toBindingPattern; exact kx_ok h
  | .moduleNode .., h => by unfold toBindingPattern; exact kx_ok h
  | .program .., h => by unfold toBindingPattern; exact kx_ok h
termination_by structural n => n

theorem kx_arrayToPatternElems : ∀ (l : List (Option ArrayExpressionElement)) (i j : Nat), Al P l → Kx P (arrayToPatternElems l i j)
  | [], _, _, h => by unfold arrayToPatternElems; kx
  | e :: l, i, j, h => by
    simp only [al] at h
    unfold arrayToPatternElems
    have := kx_arrayToPatternElem e i j h.1
    have := kx_arrayToPatternElems l (i + 1) j h.2
    kx
termination_by structural l => l

theorem kx_arrayToPatternElem : ∀ (l : Option ArrayExpressionElement) (i j : Nat), Al P l → Kx P (arrayToPatternElem l i j)
  | none, _, _, h => by unfold arrayToPatternElem; kx
  | some e, i, j, h => by
    simp only [al] at h
    unfold arrayToPatternElem
    have := kx_arrayToPatternSome e i j h
    kx
termination_by structural l => l

theorem kx_arrayToPatternSome : ∀ (l : ArrayExpressionElement) (i j : Nat), Al P l → Kx P (arrayToPatternSome l i j)
  | .expression e, i, j, h => by
    simp only [al] at h
    unfold arrayToPatternSome
    have := kx_toBindingPattern e h
    kx
  | .spreadElement e sp, i, j, h => by
    simp only [al] at h
    unfold arrayToPatternSome
    have := kx_toBindingPattern e h.1
    have := h.2
    kx
termination_by structural l => l

theorem kx_objectToPatternProps : ∀ (l : List ObjectExpressionProperty) (i j : Nat), Al P l → Kx P (objectToPatternProps l i j)
  | [], _, _, h => by unfold objectToPatternProps; kx
  | e :: l, i, j, h => by
    simp only [al] at h
    unfold objectToPatternProps
    have := kx_objectToPatternProp e i j h.1
    have := kx_objectToPatternProps l (i + 1) j h.2
    kx
termination_by structural l => l

theorem kx_objectToPatternProp : ∀ (l : ObjectExpressionProperty) (i j : Nat), Al P l → Kx P (objectToPatternProp l i j)
  | .property key computed value kind method shorthand span, i, j, h => by
    simp only [al] at h
    unfold objectToPatternProp
    have := kx_objectToPatternValue value span h.2.1 h.2.2
    have := h.2.2
    kx
  | .spreadElement e sp, i, j, h => by
    simp only [al] at h
    unfold objectToPatternProp
    have := kx_toBindingPattern e h.1
    have := h.2
    kx
termination_by structural l => l

theorem kx_objectToPatternValue : ∀ (v : Option PropertyValue) (sp : Span), Al P v → Al P sp → Kx P (objectToPatternValue v sp)
  | none, sp, h, hs => by unfold objectToPatternValue; kx
  | some v, sp, h, hs => by
    simp only [al] at h
    unfold objectToPatternValue
    exact kx_objectToPatternSome v sp h hs
termination_by structural v => v

theorem kx_objectToPatternSome : ∀ (v : PropertyValue) (sp : Span), Al P v → Al P sp → Kx P (objectToPatternSome v sp)
  | .expression e, sp, h, hs => by
    simp only [al] at h
    unfold objectToPatternSome
    have := kx_toBindingPattern e h
    kx
  | .assignmentPattern .., sp, h, hs => by unfold objectToPatternSome; kx
  | .asyncFunctionExpression .., sp, h, hs => by unfold objectToPatternSome; kx
  | .bindingIdentifier .., sp, h, hs => by unfold objectToPatternSome; kx
  | .bindingPattern .., sp, h, hs => by unfold objectToPatternSome; kx
  | .functionExpression .., sp, h, hs => by unfold objectToPatternSome; kx
termination_by structural v => v

end

instance {n : Node} [h : Al P n] : Kx P (toBindingPattern n) := kx_toBindingPattern n h

instance kx_toStrictBinding {n : Node} {m : Marker} [h : Al P n] [hm : Pm P m.line m.col] : Kx P (toStrictBinding n m) := by
  unfold toStrictBinding; kx

instance kx_toBinding {n : Node} [h : Al P n] : Kx P (toBinding n) := by
  unfold toBinding; kx

instance kx_asAssignmentElement {r : Except Fail Node} [h : Kx P r] : Kx P (asAssignmentElement r) := by
  unfold asAssignmentElement; kx

instance kx_restArgument {t : ErrorType} {n : Node} {sp : Span} [h : Al P n] [hs : Al P sp] [ht : Mild t] : Kx P (restArgument t n sp) := by
  unfold restArgument; kx

mutual

theorem kx_toAssignmentPattern : ∀ n : Node, Al P n → Kx P (toAssignmentPattern n)
  | .arrayExpression elements att span, h => by
    simp only [al] at h
    unfold toAssignmentPattern
    have := kx_arrayToAssignElems elements 0 elements.length h.1
    have := h.2
    kx
  | .objectExpression properties att span, h => by
    simp only [al] at h
    unfold toAssignmentPattern
    have := kx_objectToAssignProps properties 0 (properties.length - 1) h.1
    have := h.2
    kx
  | .arrayPattern .., h => by unfold toAssignmentPattern; exact kx_ok h
  | .arrayAssignmentPattern .., h => by unfold toAssignmentPattern; exact kx_ok h
  | .arrowFunctionExpression .., h => by unfold toAssignmentPattern; exact kx_ok h
  | .assignmentExpression .., h => by unfold toAssignmentPattern; exact kx_ok h
  | .assignmentPattern .., h => by unfold toAssignmentPattern; exact kx_ok h
  | .assignmentRestElement .., h => by unfold toAssignmentPattern; exact kx_ok h
  | .asyncArrowFunctionExpression .., h => by unfold toAssignmentPattern; exact kx_ok h
  | .asyncFunctionExpression .., h => by unfold toAssignmentPattern; exact kx_ok h
  | .awaitExpression .., h => by unfold toAssignmentPattern; exact kx_ok h
  | .binaryExpression .., h => by unfold toAssignmentPattern; exact kx_ok h
  | .bindingIdentifier .., h => by unfold toAssignmentPattern; exact kx_ok h
  | .logicalExpression .., h => by unfold toAssignmentPattern; exact kx_ok h
  | .callExpression .., h => by unfold toAssignmentPattern; exact kx_ok h
  | .classExpression .., h => by unfold toAssignmentPattern; exact kx_ok h
  | .computedMemberExpression .., h => by unfold toAssignmentPattern; exact kx_ok h
  | .conditionalExpression .., h => by unfold toAssignmentPattern; exact kx_ok h
  | .identifier .., h => by unfold toAssignmentPattern; exact kx_ok h
  | .functionExpression .., h => by unfold toAssignmentPattern; exact kx_ok h
  | .literal .., h => by unfold toAssignmentPattern; exact kx_ok h
  | .newExpression .., h => by unfold toAssignmentPattern; exact kx_ok h
  | .objectPattern .., h => by unfold toAssignmentPattern; exact kx_ok h
  | .regexLiteral .., h => by unfold toAssignmentPattern; exact kx_ok h
  | .sequenceExpression .., h => by unfold toAssignmentPattern; exact kx_ok h
  | .staticMemberExpression .., h => by unfold toAssignmentPattern; exact kx_ok h
  | .taggedTemplateExpression .., h => by unfold toAssignmentPattern; exact kx_ok h
  | .thisExpression .., h => by unfold toAssignmentPattern; exact kx_ok h
  | .unaryExpression .., h => by unfold toAssignmentPattern; exact kx_ok h
  | .updateExpression .., h => by unfold toAssignmentPattern; exact kx_ok h
  | .yieldExpression .., h => by unfold toAssignmentPattern; exact kx_ok h
  | .arrowParameterPlaceHolder .., h => by unfold toAssignmentPattern; exact kx_ok h
  | .restElement .., h => by unfold toAssignmentPattern; exact kx_ok h
  | .spreadElement .., h => by unfold toAssignmentPattern; exact kx_ok h
  | .super .., h => by unfold toAssignmentPattern; exact kx_ok h
  | .templateLiteral .., h => by unfold toAssignmentPattern; exact kx_ok h
  | .metaProperty .., h => by unfold toAssignmentPattern; exact kx_ok h
  | .asyncFunctionDeclaration .., h => by unfold toAssignmentPattern; exact kx_ok h
  | .breakStatement .., h => by unfold toAssignmentPattern; exact kx_ok h
  | .continueStatement .., h => by unfold toAssignmentPattern; exact kx_ok h
  | .debuggerStatement .., h => by unfold toAssignmentPattern; exact kx_ok h
  | .doWhileStatement .., h => by unfold toAssignmentPattern; exact kx_ok h
  | .emptyStatement .., h => by unfold toAssignmentPattern; exact kx_ok h
  | .expressionStatement .., h => by unfold toAssignmentPattern; exact kx_ok h
  | .directive .., h => by unfold toAssignmentPattern; exact kx_ok h
  | .forStatement .., h => by unfold toAssignmentPattern; exact kx_ok h
  | .forInStatement .., h => by unfold toAssignmentPattern; exact kx_ok h
  | .forOfStatement .., h => by unfold toAssignmentPattern; exact kx_ok h
  | .functionDeclaration .., h => by unfold toAssignmentPattern; exact kx_ok h
  | .ifStatement .., h => by unfold toAssignmentPattern; exact kx_ok h
  | .returnStatement .., h => by unfold toAssignmentPattern; exact kx_ok h
  | .switchStatement .., h => by unfold toAssignmentPattern; exact kx_ok h
  | .throwStatement .., h => by unfold toAssignmentPattern; exact kx_ok h
  | .tryStatement .., h => by unfold toAssignmentPattern; exact kx_ok h
  | .variableDeclaration .., h => by unfold toAssignmentPattern; exact kx_ok h
  | .whileStatement .., h => by unfold toAssignmentPattern; exact kx_ok h
  | .withStatement .., h => by unfold toAssignmentPattern; exact kx_ok h
  | .blockStatement .., h => by unfold toAssignmentPattern; exact kx_ok h
  | .classDeclaration .., h => by unfold toAssignmentPattern; exact kx_ok h
  | .exportAllDeclaration .., h => by unfold toAssignmentPattern; exact kx_ok h
  | .exportDefaultDeclaration .., h => by unfold toAssignmentPattern; exact kx_ok h
  | .exportNamedDeclaration .., h => by unfold toAssignmentPattern; exact kx_ok h
  | .importDeclaration .., h => by unfold toAssignmentPattern; exact kx_ok h
  | .importDefaultSpecifier .., h => by unfold toAssignmentPattern; exact kx_ok h
  | .importNamespaceSpecifier .., h => by unfold toAssignmentPattern; exact kx_ok h
  | .importSpecifier .., h => by unfold toAssignmentPattern; exact kx_ok h
  | .labeledStatement .., h => by unfold toAssignmentPattern; exact kx_ok h
  | .moduleNode .., h => by unfold toAssignmentPattern; exact kx_ok h
  | .program .., h => by unfold toAssignmentPattern; exact kx_ok h
termination_by structural n => n

theorem kx_arrayToAssignElems : ∀ (l : List (Option ArrayExpressionElement)) (i j : Nat), Al P l → Kx P (arrayToAssignElems l i j)
  | [], _, _, h => by unfold arrayToAssignElems; kx
  | e :: l, i, j, h => by
    simp only [al] at h
    unfold arrayToAssignElems
    have := kx_arrayToAssignElem e i j h.1
    have := kx_arrayToAssignElems l (i + 1) j h.2
    kx
termination_by structural l => l

theorem kx_arrayToAssignElem : ∀ (l : Option ArrayExpressionElement) (i j : Nat), Al P l → Kx P (arrayToAssignElem l i j)
  | none, _, _, h => by unfold arrayToAssignElem; kx
  | some e, i, j, h => by
    simp only [al] at h
    unfold arrayToAssignElem
    have := kx_arrayToAssignSome e i j h
    kx
termination_by structural l => l

theorem kx_arrayToAssignSome : ∀ (l : ArrayExpressionElement) (i j : Nat), Al P l → Kx P (arrayToAssignSome l i j)
  | .expression e, i, j, h => by
    simp only [al] at h
    unfold arrayToAssignSome
    have := kx_toAssignmentPattern e h
    kx
  | .spreadElement e sp, i, j, h => by
    simp only [al] at h
    unfold arrayToAssignSome
    have := h.1
    have := h.2
    kx
termination_by structural l => l

theorem kx_objectToAssignProps : ∀ (l : List ObjectExpressionProperty) (i j : Nat), Al P l → Kx P (objectToAssignProps l i j)
  | [], _, _, h => by unfold objectToAssignProps; kx
  | e :: l, i, j, h => by
    simp only [al] at h
    unfold objectToAssignProps
    have := kx_objectToAssignProp e i j h.1
    have := kx_objectToAssignProps l (i + 1) j h.2
    kx
termination_by structural l => l

theorem kx_objectToAssignProp : ∀ (l : ObjectExpressionProperty) (i j : Nat), Al P l → Kx P (objectToAssignProp l i j)
  | .property key computed value kind method shorthand span, i, j, h => by
    simp only [al] at h
    unfold objectToAssignProp
    have := kx_objectToAssignValue value span h.2.1 h.2.2
    have := h.2.2
    kx
  | .spreadElement e sp, i, j, h => by
    simp only [al] at h
    unfold objectToAssignProp
    have := h.1
    have := h.2
    kx
termination_by structural l => l

theorem kx_objectToAssignValue : ∀ (v : Option PropertyValue) (sp : Span), Al P v → Al P sp → Kx P (objectToAssignValue v sp)
  | none, sp, h, hs => by unfold objectToAssignValue; kx
  | some v, sp, h, hs => by
    simp only [al] at h
    unfold objectToAssignValue
    exact kx_objectToAssignSome v sp h hs
termination_by structural v => v

theorem kx_objectToAssignSome : ∀ (v : PropertyValue) (sp : Span), Al P v → Al P sp → Kx P (objectToAssignSome v sp)
  | .expression e, sp, h, hs => by
    simp only [al] at h
    unfold objectToAssignSome
    have := kx_toAssignmentPattern e h
    kx
  | .assignmentPattern .., sp, h, hs => by unfold objectToAssignSome; kx
  | .asyncFunctionExpression .., sp, h, hs => by unfold objectToAssignSome; kx
  | .bindingIdentifier .., sp, h, hs => by unfold objectToAssignSome; kx
  | .bindingPattern .., sp, h, hs => by unfold objectToAssignSome; kx
  | .functionExpression .., sp, h, hs => by unfold objectToAssignSome; kx
termination_by structural v => v

end

instance {n : Node} [h : Al P n] : Kx P (toAssignmentPattern n) := kx_toAssignmentPattern n h

end Pos
end Giron

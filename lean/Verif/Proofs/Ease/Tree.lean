import Verif.Spec.Eased
import Verif.Model.EstreeFns
import Verif.Model.Parser.Module
/-
The functions of `estree.rs` on trees that are the same but for `eval` and `arguments`.
-/
namespace Giron
open Spec

/-- types with a relation -/
class Lk (α : Type) where
  /-- the same but for `assign_target_type` -/
  lk : α → α → Prop

export Lk (lk)

/-- types where it is equality -/
class LkEq (α : Type) [Lk α] : Prop where
  out : ∀ {a b : α}, lk a b → a = b
  refl : ∀ a : α, lk a a

instance : Lk Unit := ⟨Eq⟩
instance : LkEq Unit := ⟨id, fun _ => rfl⟩
instance : Lk Bool := ⟨Eq⟩
instance : LkEq Bool := ⟨id, fun _ => rfl⟩
instance : Lk Nat := ⟨Eq⟩
instance : LkEq Nat := ⟨id, fun _ => rfl⟩
instance : Lk Str := ⟨Eq⟩
instance : LkEq Str := ⟨id, fun _ => rfl⟩
instance : Lk Value := ⟨Eq⟩
instance : LkEq Value := ⟨id, fun _ => rfl⟩
instance : Lk Punctuator := ⟨Eq⟩
instance : LkEq Punctuator := ⟨id, fun _ => rfl⟩
instance : Lk Token := ⟨Eq⟩
instance : LkEq Token := ⟨id, fun _ => rfl⟩
instance : Lk TemplateElement := ⟨Eq⟩
instance : LkEq TemplateElement := ⟨id, fun _ => rfl⟩
instance : Lk Marker := ⟨Eq⟩
instance : LkEq Marker := ⟨id, fun _ => rfl⟩
instance : Lk Span := ⟨Eq⟩
instance : LkEq Span := ⟨id, fun _ => rfl⟩
instance : Lk Identifier := ⟨Eq⟩
instance : LkEq Identifier := ⟨id, fun _ => rfl⟩
instance : Lk Literal := ⟨Eq⟩
instance : LkEq Literal := ⟨id, fun _ => rfl⟩
instance : Lk ExportSpecifier := ⟨Eq⟩
instance : LkEq ExportSpecifier := ⟨id, fun _ => rfl⟩
instance : Lk ImportDeclarationSpecifier := ⟨Eq⟩
instance : LkEq ImportDeclarationSpecifier := ⟨id, fun _ => rfl⟩
instance : Lk Node := ⟨EasedNode⟩
instance : Lk Binding := ⟨EasedBinding⟩
instance : Lk ArrayExpressionElement := ⟨EasedArrayExpressionElement⟩
instance : Lk ArrayPatternElement := ⟨EasedArrayPatternElement⟩
instance : Lk ArrayAssignmentPatternElement := ⟨EasedArrayAssignmentPatternElement⟩
instance : Lk PropertyKey := ⟨EasedPropertyKey⟩
instance : Lk FnExpr := ⟨EasedFnExpr⟩
instance : Lk PropertyValue := ⟨EasedPropertyValue⟩
instance : Lk ObjectPatternProperty := ⟨EasedObjectPatternProperty⟩
instance : Lk BindingPattern := ⟨EasedBindingPattern⟩
instance : Lk FunctionParameter := ⟨EasedFunctionParameter⟩
instance : Lk ArgumentListElement := ⟨EasedArgumentListElement⟩
instance : Lk ObjectExpressionProperty := ⟨EasedObjectExpressionProperty⟩
instance : Lk MethodDefinition := ⟨EasedMethodDefinition⟩
instance : Lk SwitchCase := ⟨EasedSwitchCase⟩
instance : Lk VariableDeclarator := ⟨EasedVariableDeclarator⟩
instance : Lk CatchClause := ⟨EasedCatchClause⟩
instance (priority := low) {α : Type} [Lk α] : Lk (List α) := ⟨EasedList lk⟩
instance (priority := low) {α : Type} [Lk α] : Lk (Option α) := ⟨EasedOpt lk⟩
instance {α : Type} [Lk α] [h : LkEq α] : LkEq (List α) := by
  refine ⟨fun {a b} e => ?_, fun a => ?_⟩
  · induction e with
    | nil => rfl
    | cons h1 _ ih => rw [LkEq.out h1, ih]
  · induction a with
    | nil => exact .nil
    | cons a l ih => exact .cons (h.refl a) ih
instance {α : Type} [Lk α] [h : LkEq α] : LkEq (Option α) := by
  refine ⟨fun {a b} e => ?_, fun a => ?_⟩
  · cases e with
    | none => rfl
    | some h1 => rw [LkEq.out h1]
  · cases a with
    | none => exact .none
    | some a => exact .some (h.refl a)
instance {α β : Type} [Lk α] [Lk β] : Lk (α × β) := ⟨fun a b => lk a.1 b.1 ∧ lk a.2 b.2⟩

instance {α β : Type} [Lk α] [Lk β] [h : LkEq α] [h' : LkEq β] : LkEq (α × β) :=
  ⟨fun {a b} e => Prod.ext (h.out e.1) (h'.out e.2), fun a => ⟨h.refl _, h'.refl _⟩⟩

/-- success on the left is success on the right -/
def Ok2 {α : Type} [Lk α] (x y : Except Fail α) : Prop := ∀ a, x = .ok a → ∃ a', y = .ok a' ∧ lk a a'

section
variable {α β : Type} [Lk α] [Lk β]

theorem ok2_pure {a a' : α} (h : lk a a') : Ok2 (.ok a) (.ok a') := fun _ e => by cases e; exact ⟨_, rfl, h⟩

theorem ok2_err {f : Fail} {y : Except Fail α} : Ok2 (.error f) y := fun _ e => by cases e

theorem ok2_bind {x y : Except Fail α} {k k' : α → Except Fail β} (h : Ok2 x y) (hk : ∀ a a', lk a a' → Ok2 (k a) (k' a')) :
    Ok2 (x >>= k) (y >>= k') := by
  intro b hb
  cases x with
  | error f => cases hb
  | ok a =>
    obtain ⟨a', rfl, h1⟩ := h a rfl
    exact hk a a' h1 b hb

end

theorem easedAtt_simple {a a' : ATT} (h : EasedAtt a a') (ha : a = .simple) : a' = .simple := by
  cases h with
  | same => exact ha
  | eased => rfl

theorem easedAtt_ok {a a' : ATT} (h : EasedAtt a a') (ha : ¬ (a = .invalid ∨ a = .strict)) : ¬ (a' = .invalid ∨ a' = .strict) := by
  cases h with
  | same => exact ha
  | eased => decide

theorem easedNode_att {n n' : Node} (h : EasedNode n n') : EasedAtt n.assignTargetType n'.assignTargetType := by
  cases h <;> first | assumption | exact .same

theorem easedNode_span {n n' : Node} (h : EasedNode n n') : n'.exprSpan = n.exprSpan := by
  cases h <;> rfl

theorem ok2_toNode {b b' : Binding} (h : EasedBinding b b') : Ok2 b.toNode b'.toNode := by
  cases h with
  | expression => exact ok2_err
  | bindingIdentifier => exact ok2_pure .bindingIdentifier
  | arrayPattern h => exact ok2_pure (.arrayPattern h .same)
  | objectPattern h => exact ok2_pure (.objectPattern h .same)

theorem ok2_toId {b b' : Binding} (h : EasedBinding b b') : Ok2 b.toId b'.toId := by
  cases h <;> first | exact ok2_err | exact ok2_pure rfl

theorem eased_keyAsNode {k k' : PropertyKey} (h : EasedPropertyKey k k') : EasedNode k.asNode k'.asNode := by
  cases h with
  | identifier => exact .identifier .same
  | literal => exact .literal .same
  | expression h => exact h

theorem eased_argAsNode {k k' : ArgumentListElement} (h : EasedArgumentListElement k k') : EasedNode k.asNode k'.asNode := by
  cases h with
  | expression h => exact h
  | spreadElement h => exact .spreadElement h

theorem ok2_asStrictBinding {x y : Except Fail Node} {m : Marker} (h : Ok2 x y) : Ok2 (asStrictBinding x m) (asStrictBinding y m) := by
  refine ok2_bind h fun a a' h => ?_
  cases h <;> first
    | exact ok2_err
    | exact ok2_pure .bindingIdentifier
    | (rename_i h _; exact ok2_pure (.arrayPattern h))
    | (rename_i h _; exact ok2_pure (.objectPattern h))

theorem ok2_asArrayPatternElement {x y : Except Fail Node} {b : Bool} (h : Ok2 x y) : Ok2 (asArrayPatternElement x b) (asArrayPatternElement y b) := by
  refine ok2_bind h fun a a' h => ?_
  cases h with
  | assignmentPattern h1 h2 => exact ok2_pure (.assignmentPattern h1 h2)
  | bindingIdentifier => exact ok2_pure .bindingIdentifier
  | objectPattern h => exact ok2_pure (.objectPattern h)
  | arrayPattern h => exact ok2_pure (.arrayPattern h)
  | restElement h =>
    dsimp only
    split
    · exact ok2_pure (.restElement h)
    · exact ok2_err
  | _ => exact ok2_err

theorem ok2_asPropertyValue {x y : Except Fail Node} {s : Span} (h : Ok2 x y) : Ok2 (asPropertyValue x s) (asPropertyValue y s) := by
  refine ok2_bind h fun a a' h => ?_
  cases h with
  | assignmentPattern h1 h2 => exact ok2_pure (.some (.assignmentPattern h1 h2))
  | bindingIdentifier => exact ok2_pure (.some .bindingIdentifier)
  | objectPattern h => exact ok2_pure (.some (.bindingPattern (.objectPattern h)))
  | arrayPattern h => exact ok2_pure (.some (.bindingPattern (.arrayPattern h)))
  | _ => exact ok2_err

theorem easedList_length {α : Type} {R : α → α → Prop} {l l' : List α} (h : EasedList R l l') : l'.length = l.length := by
  induction h with
  | nil => rfl
  | cons _ _ ih => exact congrArg (· + 1) ih

theorem easedList_isEmpty {α : Type} {R : α → α → Prop} {l l' : List α} (h : EasedList R l l') : l'.isEmpty = l.isEmpty := by
  cases h <;> rfl

variable [Env]

mutual

theorem ok2_toBindingPattern : ∀ (n n' : Node), EasedNode n n' → Ok2 (toBindingPattern n) (toBindingPattern n')
  | .identifier .., _, h => by cases h; exact ok2_pure .bindingIdentifier
  | .arrayExpression l _ _, _, h => by
    cases h with | arrayExpression h _ =>
    simp only [toBindingPattern, easedList_length h, easedList_isEmpty h]
    split
    · exact ok2_err
    · exact ok2_bind (ok2_arrayToPatternElems l _ _ _ h) fun a a' h => ok2_pure (.arrayPattern h .same)
  | .objectExpression l _ _, _, h => by
    cases h with | objectExpression h _ =>
    simp only [toBindingPattern, easedList_length h]
    exact ok2_bind (ok2_objectToPatternProps l _ _ _ h) fun a a' h => ok2_pure (.objectPattern h .same)
  | .assignmentExpression _ l _ _ _, _, h => by
    cases h with | assignmentExpression h1 h2 h3 =>
    simp only [toBindingPattern]
    split
    · exact ok2_bind (ok2_asStrictBinding (ok2_toBindingPattern l _ h1)) fun a a' h => ok2_pure (.assignmentPattern h h2)
    · exact ok2_pure (.assignmentExpression h1 h2 h3)
  | .spreadElement a _, _, h => by
    cases h with | spreadElement h =>
    simp only [toBindingPattern]
    exact ok2_bind (ok2_asStrictBinding (ok2_toBindingPattern a _ h)) fun a a' h => ok2_pure (.restElement h)
  | .arrayPattern .., _, h => by have h' := h; cases h'; exact ok2_pure h
  | .arrayAssignmentPattern .., _, h => by have h' := h; cases h'; exact ok2_pure h
  | .arrowFunctionExpression .., _, h => by have h' := h; cases h'; exact ok2_pure h
  | .assignmentPattern .., _, h => by have h' := h; cases h'; exact ok2_pure h
  | .assignmentRestElement .., _, h => by have h' := h; cases h'; exact ok2_pure h
  | .asyncArrowFunctionExpression .., _, h => by have h' := h; cases h'; exact ok2_pure h
  | .asyncFunctionExpression .., _, h => by have h' := h; cases h'; exact ok2_pure h
  | .awaitExpression .., _, h => by have h' := h; cases h'; exact ok2_pure h
  | .binaryExpression .., _, h => by have h' := h; cases h'; exact ok2_pure h
  | .bindingIdentifier .., _, h => by have h' := h; cases h'; exact ok2_pure h
  | .logicalExpression .., _, h => by have h' := h; cases h'; exact ok2_pure h
  | .callExpression .., _, h => by have h' := h; cases h'; exact ok2_pure h
  | .classExpression .., _, h => by have h' := h; cases h'; exact ok2_pure h
  | .computedMemberExpression .., _, h => by have h' := h; cases h'; exact ok2_pure h
  | .conditionalExpression .., _, h => by have h' := h; cases h'; exact ok2_pure h
  | .functionExpression .., _, h => by have h' := h; cases h'; exact ok2_pure h
  | .literal .., _, h => by have h' := h; cases h'; exact ok2_pure h
  | .newExpression .., _, h => by have h' := h; cases h'; exact ok2_pure h
  | .objectPattern .., _, h => by have h' := h; cases h'; exact ok2_pure h
  | .regexLiteral .., _, h => by have h' := h; cases h'; exact ok2_pure h
  | .sequenceExpression .., _, h => by have h' := h; cases h'; exact ok2_pure h
  | .staticMemberExpression .., _, h => by have h' := h; cases h'; exact ok2_pure h
  | .taggedTemplateExpression .., _, h => by have h' := h; cases h'; exact ok2_pure h
  | .thisExpression .., _, h => by have h' := h; cases h'; exact ok2_pure h
  | .unaryExpression .., _, h => by have h' := h; cases h'; exact ok2_pure h
  | .updateExpression .., _, h => by have h' := h; cases h'; exact ok2_pure h
  | .yieldExpression .., _, h => by have h' := h; cases h'; exact ok2_pure h
  | .arrowParameterPlaceHolder .., _, h => by have h' := h; cases h'; exact ok2_pure h
  | .restElement .., _, h => by have h' := h; cases h'; exact ok2_pure h
  | .super .., _, h => by have h' := h; cases h'; exact ok2_pure h
  | .templateLiteral .., _, h => by have h' := h; cases h'; exact ok2_pure h
  | .metaProperty .., _, h => by have h' := h; cases h'; exact ok2_pure h
  | .asyncFunctionDeclaration .., _, h => by have h' := h; cases h'; exact ok2_pure h
  | .breakStatement .., _, h => by have h' := h; cases h'; exact ok2_pure h
  | .continueStatement .., _, h => by have h' := h; cases h'; exact ok2_pure h
  | .debuggerStatement .., _, h => by have h' := h; cases h'; exact ok2_pure h
  | .doWhileStatement .., _, h => by have h' := h; cases h'; exact ok2_pure h
  | .emptyStatement .., _, h => by have h' := h; cases h'; exact ok2_pure h
  | .expressionStatement .., _, h => by have h' := h; cases h'; exact ok2_pure h
  | .directive .., _, h => by have h' := h; cases h'; exact ok2_pure h
  | .forStatement .., _, h => by have h' := h; cases h'; exact ok2_pure h
  | .forInStatement .., _, h => by have h' := h; cases h'; exact ok2_pure h
  | .forOfStatement .., _, h => by have h' := h; cases h'; exact ok2_pure h
  | .functionDeclaration .., _, h => by have h' := h; cases h'; exact ok2_pure h
  | .ifStatement .., _, h => by have h' := h; cases h'; exact ok2_pure h
  | .returnStatement .., _, h => by have h' := h; cases h'; exact ok2_pure h
  | .switchStatement .., _, h => by have h' := h; cases h'; exact ok2_pure h
  | .throwStatement .., _, h => by have h' := h; cases h'; exact ok2_pure h
  | .tryStatement .., _, h => by have h' := h; cases h'; exact ok2_pure h
  | .variableDeclaration .., _, h => by have h' := h; cases h'; exact ok2_pure h
  | .whileStatement .., _, h => by have h' := h; cases h'; exact ok2_pure h
  | .withStatement .., _, h => by have h' := h; cases h'; exact ok2_pure h
  | .blockStatement .., _, h => by have h' := h; cases h'; exact ok2_pure h
  | .classDeclaration .., _, h => by have h' := h; cases h'; exact ok2_pure h
  | .exportAllDeclaration .., _, h => by have h' := h; cases h'; exact ok2_pure h
  | .exportDefaultDeclaration .., _, h => by have h' := h; cases h'; exact ok2_pure h
  | .exportNamedDeclaration .., _, h => by have h' := h; cases h'; exact ok2_pure h
  | .importDeclaration .., _, h => by have h' := h; cases h'; exact ok2_pure h
  | .importDefaultSpecifier .., _, h => by have h' := h; cases h'; exact ok2_pure h
  | .importNamespaceSpecifier .., _, h => by have h' := h; cases h'; exact ok2_pure h
  | .importSpecifier .., _, h => by have h' := h; cases h'; exact ok2_pure h
  | .labeledStatement .., _, h => by have h' := h; cases h'; exact ok2_pure h
  | .moduleNode .., _, h => by have h' := h; cases h'; exact ok2_pure h
  | .program .., _, h => by have h' := h; cases h'; exact ok2_pure h
termination_by structural n => n

theorem ok2_arrayToPatternElems : ∀ (l l' : List (Option ArrayExpressionElement)) (i j : Nat), EasedList (EasedOpt EasedArrayExpressionElement) l l' →
    Ok2 (arrayToPatternElems l i j) (arrayToPatternElems l' i j)
  | [], _, i, j, h => by cases h; exact ok2_pure .nil
  | e :: l, _, i, j, h => by
    cases h with | cons h1 h2 =>
    simp only [arrayToPatternElems]
    exact ok2_bind (ok2_arrayToPatternElem e _ _ _ h1) fun a a' h1 =>
      ok2_bind (ok2_arrayToPatternElems l _ _ _ h2) fun b b' h2 => ok2_pure (.cons h1 h2)
termination_by structural l => l

theorem ok2_arrayToPatternElem : ∀ (l l' : Option ArrayExpressionElement) (i j : Nat), EasedOpt EasedArrayExpressionElement l l' →
    Ok2 (arrayToPatternElem l i j) (arrayToPatternElem l' i j)
  | none, _, i, j, h => by cases h; exact ok2_pure .none
  | some e, _, i, j, h => by
    cases h with | some h =>
    simp only [arrayToPatternElem]
    exact ok2_bind (ok2_arrayToPatternSome e _ _ _ h) fun a a' h => ok2_pure (.some h)
termination_by structural l => l

theorem ok2_arrayToPatternSome : ∀ (l l' : ArrayExpressionElement) (i j : Nat), EasedArrayExpressionElement l l' →
    Ok2 (arrayToPatternSome l i j) (arrayToPatternSome l' i j)
  | .expression e, _, i, j, h => by
    cases h with | expression h =>
    simp only [arrayToPatternSome]
    exact ok2_asArrayPatternElement (ok2_toBindingPattern e _ h)
  | .spreadElement e _, _, i, j, h => by
    cases h with | spreadElement h =>
    simp only [arrayToPatternSome]
    split
    · exact ok2_err
    · exact ok2_bind (ok2_asStrictBinding (ok2_toBindingPattern e _ h)) fun a a' h => ok2_pure (.restElement h)
termination_by structural l => l

theorem ok2_objectToPatternProps : ∀ (l l' : List ObjectExpressionProperty) (i j : Nat), EasedList EasedObjectExpressionProperty l l' →
    Ok2 (objectToPatternProps l i j) (objectToPatternProps l' i j)
  | [], _, i, j, h => by cases h; exact ok2_pure .nil
  | e :: l, _, i, j, h => by
    cases h with | cons h1 h2 =>
    simp only [objectToPatternProps]
    exact ok2_bind (ok2_objectToPatternProp e _ _ _ h1) fun a a' h1 =>
      ok2_bind (ok2_objectToPatternProps l _ _ _ h2) fun b b' h2 => ok2_pure (.cons h1 h2)
termination_by structural l => l

theorem ok2_objectToPatternProp : ∀ (l l' : ObjectExpressionProperty) (i j : Nat), EasedObjectExpressionProperty l l' →
    Ok2 (objectToPatternProp l i j) (objectToPatternProp l' i j)
  | .property _ _ v _ _ _ _, _, i, j, h => by
    cases h with | property h1 h2 =>
    simp only [objectToPatternProp]
    exact ok2_bind (ok2_objectToPatternValue v _ _ h2) fun a a' h => ok2_pure (.property h1 h)
  | .spreadElement e _, _, i, j, h => by
    cases h with | spreadElement h =>
    simp only [objectToPatternProp]
    split
    · exact ok2_bind (ok2_asStrictBinding (ok2_toBindingPattern e _ h)) fun a a' h => ok2_pure (.restElement h)
    · exact ok2_err
termination_by structural l => l

theorem ok2_objectToPatternValue : ∀ (l l' : Option PropertyValue) (s : Span), EasedOpt EasedPropertyValue l l' →
    Ok2 (objectToPatternValue l s) (objectToPatternValue l' s)
  | none, _, s, h => by cases h; exact ok2_pure .none
  | some e, _, s, h => by
    cases h with | some h =>
    simp only [objectToPatternValue]
    exact ok2_objectToPatternSome e _ s h
termination_by structural l => l

theorem ok2_objectToPatternSome : ∀ (l l' : PropertyValue) (s : Span), EasedPropertyValue l l' →
    Ok2 (objectToPatternSome l s) (objectToPatternSome l' s)
  | .expression e, _, s, h => by
    cases h with | expression h =>
    simp only [objectToPatternSome]
    exact ok2_asPropertyValue (ok2_toBindingPattern e _ h)
  | .assignmentPattern .., _, s, h => ok2_err
  | .asyncFunctionExpression .., _, s, h => ok2_err
  | .bindingIdentifier .., _, s, h => ok2_err
  | .bindingPattern .., _, s, h => ok2_err
  | .functionExpression .., _, s, h => ok2_err
termination_by structural l => l

end

theorem ok2_toStrictBinding {n n' : Node} {m : Marker} (h : EasedNode n n') : Ok2 (toStrictBinding n m) (toStrictBinding n' m) :=
  ok2_asStrictBinding (ok2_toBindingPattern _ _ h)

theorem ok2_toBinding {n n' : Node} (h : EasedNode n n') : Ok2 (toBinding n) (toBinding n') := by
  refine ok2_bind (ok2_toBindingPattern _ _ h) fun a a' h => ?_
  have h' := h
  cases h' with
  | bindingIdentifier => exact ok2_pure .bindingIdentifier
  | arrayPattern g => exact ok2_pure (.arrayPattern g)
  | objectPattern g => exact ok2_pure (.objectPattern g)
  | _ => exact ok2_pure (.expression h)

omit [Env] in
theorem ok2_asAssignmentElement {x y : Except Fail Node} (h : Ok2 x y) : Ok2 (asAssignmentElement x) (asAssignmentElement y) := by
  refine ok2_bind h fun a a' h => ?_
  have key : ∀ {n n' : Node}, EasedNode n n' → Ok2
      (if n.assignTargetType ≠ .simple then n.exprSpan >>= fun sp => nodeError .invalidLhsInAssignment sp.start else pure n : Except Fail Node)
      (if n'.assignTargetType ≠ .simple then n'.exprSpan >>= fun sp => nodeError .invalidLhsInAssignment sp.start else pure n') := by
    intro n n' h
    split
    · intro a ha
      revert ha
      cases n.exprSpan <;> (intro h; cases h)
    · rename_i hs
      rw [if_neg (by rw [Classical.not_not] at hs ⊢; exact easedAtt_simple (easedNode_att h) hs)]
      exact ok2_pure h
  have h' := h
  cases h' with
  | assignmentExpression h1 h2 h3 =>
    dsimp only
    split
    · split
      · exact ok2_err
      · rename_i hs
        rw [if_neg (by rw [Classical.not_not] at hs ⊢; exact easedAtt_simple (easedNode_att h1) hs)]
        exact ok2_pure (.assignmentPattern (.expression h1) h2)
    · split
      · exact ok2_err
      · rename_i hs
        rw [if_neg (by rw [Classical.not_not] at hs ⊢; exact easedAtt_simple h3 hs)]
        exact ok2_pure h
  | _ => exact key h

theorem ok2_restArgument {t : ErrorType} {n n' : Node} {sp : Span} (h : EasedNode n n') : Ok2 (restArgument t n sp) (restArgument t n' sp) := by
  have key : Ok2
      (if n.assignTargetType ≠ .simple then nodeError .invalidLhsInAssignment sp.start else toBinding n)
      (if n'.assignTargetType ≠ .simple then nodeError .invalidLhsInAssignment sp.start else toBinding n') := by
    split
    · exact ok2_err
    · rename_i hs
      rw [if_neg (by rw [Classical.not_not] at hs ⊢; exact easedAtt_simple (easedNode_att h) hs)]
      exact ok2_toBinding h
  cases h with
  | arrayExpression => exact ok2_err
  | objectExpression => exact ok2_err
  | _ => exact key

mutual

theorem ok2_toAssignmentPattern : ∀ (n n' : Node), EasedNode n n' → Ok2 (toAssignmentPattern n) (toAssignmentPattern n')
  | .arrayExpression l _ _, _, h => by
    cases h with | arrayExpression h _ =>
    simp only [toAssignmentPattern, easedList_length h]
    exact ok2_bind (ok2_arrayToAssignElems l _ _ _ h) fun a a' h => ok2_pure (.arrayAssignmentPattern h .same)
  | .objectExpression l _ _, _, h => by
    cases h with | objectExpression h _ =>
    simp only [toAssignmentPattern, easedList_length h]
    exact ok2_bind (ok2_objectToAssignProps l _ _ _ h) fun a a' h => ok2_pure (.objectPattern h .same)
  | .arrayPattern .., _, h => by have h' := h; cases h'; exact ok2_pure h
  | .arrayAssignmentPattern .., _, h => by have h' := h; cases h'; exact ok2_pure h
  | .arrowFunctionExpression .., _, h => by have h' := h; cases h'; exact ok2_pure h
  | .assignmentExpression .., _, h => by have h' := h; cases h'; exact ok2_pure h
  | .assignmentPattern .., _, h => by have h' := h; cases h'; exact ok2_pure h
  | .assignmentRestElement .., _, h => by have h' := h; cases h'; exact ok2_pure h
  | .asyncArrowFunctionExpression .., _, h => by have h' := h; cases h'; exact ok2_pure h
  | .asyncFunctionExpression .., _, h => by have h' := h; cases h'; exact ok2_pure h
  | .awaitExpression .., _, h => by have h' := h; cases h'; exact ok2_pure h
  | .binaryExpression .., _, h => by have h' := h; cases h'; exact ok2_pure h
  | .bindingIdentifier .., _, h => by have h' := h; cases h'; exact ok2_pure h
  | .logicalExpression .., _, h => by have h' := h; cases h'; exact ok2_pure h
  | .callExpression .., _, h => by have h' := h; cases h'; exact ok2_pure h
  | .classExpression .., _, h => by have h' := h; cases h'; exact ok2_pure h
  | .computedMemberExpression .., _, h => by have h' := h; cases h'; exact ok2_pure h
  | .conditionalExpression .., _, h => by have h' := h; cases h'; exact ok2_pure h
  | .identifier .., _, h => by have h' := h; cases h'; exact ok2_pure h
  | .functionExpression .., _, h => by have h' := h; cases h'; exact ok2_pure h
  | .literal .., _, h => by have h' := h; cases h'; exact ok2_pure h
  | .newExpression .., _, h => by have h' := h; cases h'; exact ok2_pure h
  | .objectPattern .., _, h => by have h' := h; cases h'; exact ok2_pure h
  | .regexLiteral .., _, h => by have h' := h; cases h'; exact ok2_pure h
  | .sequenceExpression .., _, h => by have h' := h; cases h'; exact ok2_pure h
  | .staticMemberExpression .., _, h => by have h' := h; cases h'; exact ok2_pure h
  | .taggedTemplateExpression .., _, h => by have h' := h; cases h'; exact ok2_pure h
  | .thisExpression .., _, h => by have h' := h; cases h'; exact ok2_pure h
  | .unaryExpression .., _, h => by have h' := h; cases h'; exact ok2_pure h
  | .updateExpression .., _, h => by have h' := h; cases h'; exact ok2_pure h
  | .yieldExpression .., _, h => by have h' := h; cases h'; exact ok2_pure h
  | .arrowParameterPlaceHolder .., _, h => by have h' := h; cases h'; exact ok2_pure h
  | .restElement .., _, h => by have h' := h; cases h'; exact ok2_pure h
  | .spreadElement .., _, h => by have h' := h; cases h'; exact ok2_pure h
  | .super .., _, h => by have h' := h; cases h'; exact ok2_pure h
  | .templateLiteral .., _, h => by have h' := h; cases h'; exact ok2_pure h
  | .metaProperty .., _, h => by have h' := h; cases h'; exact ok2_pure h
  | .asyncFunctionDeclaration .., _, h => by have h' := h; cases h'; exact ok2_pure h
  | .breakStatement .., _, h => by have h' := h; cases h'; exact ok2_pure h
  | .continueStatement .., _, h => by have h' := h; cases h'; exact ok2_pure h
  | .debuggerStatement .., _, h => by have h' := h; cases h'; exact ok2_pure h
  | .doWhileStatement .., _, h => by have h' := h; cases h'; exact ok2_pure h
  | .emptyStatement .., _, h => by have h' := h; cases h'; exact ok2_pure h
  | .expressionStatement .., _, h => by have h' := h; cases h'; exact ok2_pure h
  | .directive .., _, h => by have h' := h; cases h'; exact ok2_pure h
  | .forStatement .., _, h => by have h' := h; cases h'; exact ok2_pure h
  | .forInStatement .., _, h => by have h' := h; cases h'; exact ok2_pure h
  | .forOfStatement .., _, h => by have h' := h; cases h'; exact ok2_pure h
  | .functionDeclaration .., _, h => by have h' := h; cases h'; exact ok2_pure h
  | .ifStatement .., _, h => by have h' := h; cases h'; exact ok2_pure h
  | .returnStatement .., _, h => by have h' := h; cases h'; exact ok2_pure h
  | .switchStatement .., _, h => by have h' := h; cases h'; exact ok2_pure h
  | .throwStatement .., _, h => by have h' := h; cases h'; exact ok2_pure h
  | .tryStatement .., _, h => by have h' := h; cases h'; exact ok2_pure h
  | .variableDeclaration .., _, h => by have h' := h; cases h'; exact ok2_pure h
  | .whileStatement .., _, h => by have h' := h; cases h'; exact ok2_pure h
  | .withStatement .., _, h => by have h' := h; cases h'; exact ok2_pure h
  | .blockStatement .., _, h => by have h' := h; cases h'; exact ok2_pure h
  | .classDeclaration .., _, h => by have h' := h; cases h'; exact ok2_pure h
  | .exportAllDeclaration .., _, h => by have h' := h; cases h'; exact ok2_pure h
  | .exportDefaultDeclaration .., _, h => by have h' := h; cases h'; exact ok2_pure h
  | .exportNamedDeclaration .., _, h => by have h' := h; cases h'; exact ok2_pure h
  | .importDeclaration .., _, h => by have h' := h; cases h'; exact ok2_pure h
  | .importDefaultSpecifier .., _, h => by have h' := h; cases h'; exact ok2_pure h
  | .importNamespaceSpecifier .., _, h => by have h' := h; cases h'; exact ok2_pure h
  | .importSpecifier .., _, h => by have h' := h; cases h'; exact ok2_pure h
  | .labeledStatement .., _, h => by have h' := h; cases h'; exact ok2_pure h
  | .moduleNode .., _, h => by have h' := h; cases h'; exact ok2_pure h
  | .program .., _, h => by have h' := h; cases h'; exact ok2_pure h
termination_by structural n => n

theorem ok2_arrayToAssignElems : ∀ (l l' : List (Option ArrayExpressionElement)) (i j : Nat), EasedList (EasedOpt EasedArrayExpressionElement) l l' →
    Ok2 (arrayToAssignElems l i j) (arrayToAssignElems l' i j)
  | [], _, i, j, h => by cases h; exact ok2_pure .nil
  | e :: l, _, i, j, h => by
    cases h with | cons h1 h2 =>
    simp only [arrayToAssignElems]
    exact ok2_bind (ok2_arrayToAssignElem e _ _ _ h1) fun a a' h1 =>
      ok2_bind (ok2_arrayToAssignElems l _ _ _ h2) fun b b' h2 => ok2_pure (.cons h1 h2)
termination_by structural l => l

theorem ok2_arrayToAssignElem : ∀ (l l' : Option ArrayExpressionElement) (i j : Nat), EasedOpt EasedArrayExpressionElement l l' →
    Ok2 (arrayToAssignElem l i j) (arrayToAssignElem l' i j)
  | none, _, i, j, h => by cases h; exact ok2_pure .none
  | some e, _, i, j, h => by
    cases h with | some h =>
    simp only [arrayToAssignElem]
    exact ok2_bind (ok2_arrayToAssignSome e _ _ _ h) fun a a' h => ok2_pure (.some h)
termination_by structural l => l

theorem ok2_arrayToAssignSome : ∀ (l l' : ArrayExpressionElement) (i j : Nat), EasedArrayExpressionElement l l' →
    Ok2 (arrayToAssignSome l i j) (arrayToAssignSome l' i j)
  | .expression e, _, i, j, h => by
    cases h with | expression h =>
    simp only [arrayToAssignSome]
    exact ok2_bind (ok2_asAssignmentElement (ok2_toAssignmentPattern e _ h)) fun a a' h => ok2_pure (.expression h)
  | .spreadElement e _, _, i, j, h => by
    cases h with | spreadElement h =>
    simp only [arrayToAssignSome]
    split
    · exact ok2_err
    · exact ok2_bind (ok2_restArgument h) fun a a' h => ok2_pure (.restElement h)
termination_by structural l => l

theorem ok2_objectToAssignProps : ∀ (l l' : List ObjectExpressionProperty) (i j : Nat), EasedList EasedObjectExpressionProperty l l' →
    Ok2 (objectToAssignProps l i j) (objectToAssignProps l' i j)
  | [], _, i, j, h => by cases h; exact ok2_pure .nil
  | e :: l, _, i, j, h => by
    cases h with | cons h1 h2 =>
    simp only [objectToAssignProps]
    exact ok2_bind (ok2_objectToAssignProp e _ _ _ h1) fun a a' h1 =>
      ok2_bind (ok2_objectToAssignProps l _ _ _ h2) fun b b' h2 => ok2_pure (.cons h1 h2)
termination_by structural l => l

theorem ok2_objectToAssignProp : ∀ (l l' : ObjectExpressionProperty) (i j : Nat), EasedObjectExpressionProperty l l' →
    Ok2 (objectToAssignProp l i j) (objectToAssignProp l' i j)
  | .property _ _ v _ _ _ _, _, i, j, h => by
    cases h with | property h1 h2 =>
    simp only [objectToAssignProp]
    exact ok2_bind (ok2_objectToAssignValue v _ _ h2) fun a a' h => ok2_pure (.property h1 h)
  | .spreadElement e _, _, i, j, h => by
    cases h with | spreadElement h =>
    simp only [objectToAssignProp]
    split
    · exact ok2_err
    · exact ok2_bind (ok2_restArgument h) fun a a' h => ok2_pure (.restElement h)
termination_by structural l => l

theorem ok2_objectToAssignValue : ∀ (l l' : Option PropertyValue) (s : Span), EasedOpt EasedPropertyValue l l' →
    Ok2 (objectToAssignValue l s) (objectToAssignValue l' s)
  | none, _, s, h => by cases h; exact ok2_pure .none
  | some e, _, s, h => by
    cases h with | some h =>
    simp only [objectToAssignValue]
    exact ok2_objectToAssignSome e _ s h
termination_by structural l => l

theorem ok2_objectToAssignSome : ∀ (l l' : PropertyValue) (s : Span), EasedPropertyValue l l' →
    Ok2 (objectToAssignSome l s) (objectToAssignSome l' s)
  | .expression e, _, s, h => by
    cases h with | expression h =>
    simp only [objectToAssignSome]
    exact ok2_bind (ok2_asAssignmentElement (ok2_toAssignmentPattern e _ h)) fun a a' h => ok2_pure (.some (.expression h))
  | .assignmentPattern .., _, s, h => ok2_err
  | .asyncFunctionExpression .., _, s, h => ok2_err
  | .bindingIdentifier .., _, s, h => ok2_err
  | .bindingPattern .., _, s, h => ok2_err
  | .functionExpression .., _, s, h => ok2_err
termination_by structural l => l

end

end Giron

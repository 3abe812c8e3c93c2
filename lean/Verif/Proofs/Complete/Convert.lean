import Verif.Proofs.Complete.Primary
/-
Grammar completeness: literals read as patterns.
-/
namespace Giron.Complete
open Giron M Spec Grammar Parser
variable [Env]

theorem toAssign_self {a : Node} (h : isTarget (bareNode a) = true) : toAssignmentPattern a = .ok a := by
  cases a <;> simp [bareNode, isTarget] at h <;> rfl

theorem asElement_self {a : Node} (h : isTarget (bareNode a) = true) : asAssignmentElement (.ok a) = .ok a := by
  cases a <;> simp [bareNode, isTarget] at h <;> simp [asAssignmentElement, Node.assignTargetType, h, bind, Except.bind, pure, Except.pure]

theorem restArgument_ok {e : ErrorType} {s : Span} {a : Node} {b : Binding} (h : RestTarget (bareNode a) b) :
    ∃ q, restArgument e a s = .ok q ∧ bareBinding q = b := by
  generalize ha : bareNode a = x at h
  cases h with
  | name =>
    cases a <;> simp [bareNode] at ha
    obtain ⟨rfl, rfl, rfl⟩ := ha
    exact ⟨_, rfl, rfl⟩
  | other h hn =>
    subst ha
    refine ⟨.expression a, ?_, rfl⟩
    cases a <;> simp [bareNode, isTarget] at h <;> simp [bareNode] at hn
    all_goals
      simp [restArgument, Node.assignTargetType, h, toBinding, toBindingPattern, bind, Except.bind, pure, Except.pure]

theorem except_bind {ε α β : Type} {x : Except ε α} {f : α → Except ε β} {a : α} (h : x = .ok a) : (x >>= f) = f a := by
  subst h; rfl

section inversion
variable {a : Node} {v : Str} {att : ATT} {sp' : Span}

theorem bare_array {es : List (Option ArrayExpressionElement)} (h : bareNode a = .arrayExpression es att sp') :
    ∃ es' s, a = .arrayExpression es' att s ∧ es = es'.map (Option.map bareArrayExpressionElement) := by
  cases a <;> simp [bareNode, bareHolesArrayExpressionElement_eq] at h
  obtain ⟨rfl, rfl, rfl⟩ := h
  exact ⟨_, _, rfl, rfl⟩

theorem bare_object {es : List ObjectExpressionProperty} (h : bareNode a = .objectExpression es att sp') :
    ∃ es' s, a = .objectExpression es' att s ∧ es = es'.map bareObjectExpressionProperty := by
  cases a <;> simp [bareNode, bareListObjectExpressionProperty_eq] at h
  obtain ⟨rfl, rfl, rfl⟩ := h
  exact ⟨_, _, rfl, rfl⟩

theorem bare_identifier (h : bareNode a = .identifier v att sp') : ∃ s, a = .identifier v att s := by
  cases a <;> simp [bareNode] at h
  obtain ⟨rfl, rfl, rfl⟩ := h
  exact ⟨_, rfl⟩

theorem bare_assignment {op : Str} {l r : Node} (h : bareNode a = .assignmentExpression op l r att sp') :
    ∃ l' r' s, a = .assignmentExpression op l' r' att s ∧ l = bareNode l' ∧ r = bareNode r' := by
  cases a <;> simp [bareNode] at h
  obtain ⟨rfl, rfl, rfl, rfl, rfl⟩ := h
  exact ⟨_, _, _, rfl, rfl, rfl⟩

theorem bare_value {v : Option PropertyValue} {e : Node} (h : v.map barePropertyValue = some (.expression e)) :
    ∃ e', v = some (.expression e') ∧ e = bareNode e' := by
  rcases v with _ | v
  · simp at h
  · cases v <;> simp [barePropertyValue] at h
    subst h
    exact ⟨_, rfl, rfl⟩

end inversion

/-- What `AssignPat` says of `toAssignmentPattern`. -/
def AsgOk (x p : Node) : Prop :=
  ∀ a, bareNode a = x → ∃ q, toAssignmentPattern a = .ok q ∧ bareNode q = p ∧ asAssignmentElement (.ok q) = .ok q

/-- What `AssignElem` says. -/
def AsgElemOk (x p : Node) : Prop :=
  ∀ a, bareNode a = x → ∃ q, asAssignmentElement (toAssignmentPattern a) = .ok q ∧ bareNode q = p

/-- What `AssignElems` says. -/
def AsgElemsOk (es : List (Option ArrayExpressionElement)) (ps : List (Option ArrayAssignmentPatternElement)) : Prop :=
  ∀ es' i last, es = es'.map (Option.map bareArrayExpressionElement) →
    ∃ q, arrayToAssignElems es' i last = .ok q ∧ q.map (Option.map bareArrayAssignmentPatternElement) = ps

/-- What `AssignProps` says. -/
def AsgPropsOk (es : List ObjectExpressionProperty) (ps : List ObjectPatternProperty) : Prop :=
  ∀ es' i last, es = es'.map bareObjectExpressionProperty → (es ≠ [] → i + es.length = last + 1) →
    ∃ q, objectToAssignProps es' i last = .ok q ∧ q.map bareObjectPatternProperty = ps

theorem assignPat_ok {x p : Node} (h : AssignPat x p) : AsgOk x p := by
  refine AssignPat.rec (motive_1 := fun x p _ => AsgOk x p) (motive_2 := fun x p _ => AsgElemOk x p)
    (motive_3 := fun x p _ => AsgElemsOk x p) (motive_4 := fun x p _ => AsgPropsOk x p) ?_ ?_ ?_ ?_ ?_ ?_ ?_ ?_ ?_ ?_ ?_ ?_ h
  · intro es ps att s _ ih a ha
    obtain ⟨es', s', rfl, e⟩ := bare_array ha
    obtain ⟨q, e', rfl⟩ := ih es' 0 es'.length e
    refine ⟨.arrayAssignmentPattern q .simple s', ?_, ?_, rfl⟩
    · rw [toAssignmentPattern, except_bind e']; rfl
    · simp [bareNode, bareHolesArrayAssignmentPatternElement_eq] at ha ⊢
      exact ha.2
  · intro es ps att s _ ih a ha
    obtain ⟨es', s', rfl, e⟩ := bare_object ha
    obtain ⟨q, e', rfl⟩ := ih es' 0 (es'.length - 1) e (by intro h; subst e; cases es' <;> simp at h ⊢)
    refine ⟨.objectPattern q .simple s', ?_, ?_, rfl⟩
    · rw [toAssignmentPattern, except_bind e']; rfl
    · simp [bareNode, bareListObjectPatternProperty_eq] at ha ⊢
      exact ha.2
  · rintro t ht a rfl
    exact ⟨a, by rw [toAssign_self ht, asElement_self ht], rfl⟩
  · rintro t p _ ih a rfl
    obtain ⟨q, h1, h2, h3⟩ := ih a rfl
    exact ⟨q, by rw [h1, h3], h2⟩
  · intro l r att s hl a ha
    obtain ⟨l', r', s', rfl, rfl, rfl⟩ := bare_assignment ha
    rw [att_bare] at hl
    refine ⟨.assignmentPattern (.expression l') r' s', ?_, ?_⟩
    · simp [toAssignmentPattern, asAssignmentElement, hl, bind, Except.bind, pure, Except.pure]
    · simp [bareNode, bareBinding] at ha ⊢
      exact ha
  · intro es' i last h
    cases es' with
    | nil => exact ⟨[], rfl, rfl⟩
    | cons => simp at h
  · intro es ps _ ih es' i last h
    rcases es' with _ | ⟨_ | e, es'⟩ <;> simp at h
    obtain ⟨q, e, rfl⟩ := ih es' (i + 1) last h
    refine ⟨none :: q, ?_, rfl⟩
    simp [arrayToAssignElems, arrayToAssignElem, e, bind, Except.bind, pure, Except.pure]
  · intro e p es ps _ _ ihe ih es' i last h
    rcases es' with _ | ⟨_ | e', es'⟩ <;> simp at h
    obtain ⟨h, h'⟩ := h
    cases e' <;> simp [bareArrayExpressionElement] at h
    obtain ⟨q, eq, rfl⟩ := ihe _ h.symm
    obtain ⟨qs, eqs, rfl⟩ := ih es' (i + 1) last h'
    refine ⟨some (.expression q) :: qs, ?_, rfl⟩
    simp [arrayToAssignElems, arrayToAssignElem, arrayToAssignSome, eq, eqs, bind, Except.bind, pure, Except.pure]
  · intro es' i last h
    cases es' with
    | nil => intro _; exact ⟨[], rfl, rfl⟩
    | cons => simp at h
  · intro e b s hb es' i last h hi
    rcases es' with _ | ⟨e', _ | ⟨_, _⟩⟩ <;> simp at h
    cases e' <;> simp [bareObjectExpressionProperty] at h
    obtain ⟨rfl, -⟩ := h
    obtain ⟨q, eq, rfl⟩ := restArgument_ok (e := .invalidLhsInAssignment) hb
    have hi : i = last := by simpa using hi
    refine ⟨[.restElement q], ?_, rfl⟩
    rw [objectToAssignProps, objectToAssignProp, if_neg (by simp [hi]), eq]; rfl
  · intro k c kd m sh s es ps _ ih es' i last h hi
    rcases es' with _ | ⟨e', es'⟩ <;> simp at h
    obtain ⟨h, h'⟩ := h
    rcases e' with ⟨k', c', v', kd', m', sh', s'⟩ | ⟨_, _⟩ <;>
      simp only [bareObjectExpressionProperty, bareOptPropertyValue_eq, ObjectExpressionProperty.property.injEq, reduceCtorEq] at h
    obtain ⟨rfl, rfl, hv, rfl, rfl, rfl, -⟩ := h
    have hv := Option.map_eq_none_iff.1 hv.symm
    subst hv
    obtain ⟨qs, eqs, rfl⟩ := ih es' (i + 1) last h' (by intro hne; have := hi (by simp); simp at this; omega)
    refine ⟨.property k' c none kd m sh :: qs, ?_, ?_⟩
    · simp only [objectToAssignProps, objectToAssignProp, objectToAssignValue, eqs, bind, Except.bind, pure, Except.pure]
    · simp [bareObjectPatternProperty, bareOptPropertyValue_eq]
  · intro k c e p kd m sh s es ps _ _ ihe ih es' i last h hi
    rcases es' with _ | ⟨e', es'⟩ <;> simp at h
    obtain ⟨h, h'⟩ := h
    rcases e' with ⟨k', c', v', kd', m', sh', s'⟩ | ⟨_, _⟩ <;>
      simp only [bareObjectExpressionProperty, bareOptPropertyValue_eq, ObjectExpressionProperty.property.injEq, reduceCtorEq] at h
    obtain ⟨rfl, rfl, hv, rfl, rfl, rfl, -⟩ := h
    obtain ⟨v'', rfl, rfl⟩ := bare_value hv.symm
    obtain ⟨q, eq, rfl⟩ := ihe _ rfl
    obtain ⟨qs, eqs, rfl⟩ := ih es' (i + 1) last h' (by intro hne; have := hi (by simp); simp at this; omega)
    refine ⟨.property k' c (some (.expression q)) kd m sh :: qs, ?_, ?_⟩
    · simp only [objectToAssignProps, objectToAssignProp, objectToAssignValue, objectToAssignSome, eq, eqs, bind, Except.bind, pure, Except.pure]
    · simp [bareObjectPatternProperty, bareOptPropertyValue_eq, barePropertyValue]

/-- What `BindPat` says of `toBindingPattern`. -/
def BndOk (x : Node) (b : Binding) : Prop :=
  ∀ a, bareNode a = x → ∃ q b', toBindingPattern a = .ok q ∧ b'.toNode = .ok q ∧ bareBinding b' = b

/-- What `BindElem` says. -/
def BndElemOk (x : Node) (p : ArrayPatternElement) : Prop :=
  ∀ a last, bareNode a = x → ∃ q, asArrayPatternElement (toBindingPattern a) last = .ok q ∧ bareArrayPatternElement q = p

/-- What `BindValue` says. -/
def BndValOk (x : Node) (p : PropertyValue) : Prop :=
  ∀ a s, bareNode a = x → ∃ q, asPropertyValue (toBindingPattern a) s = .ok (some q) ∧ barePropertyValue q = p

/-- What `BindElems` says. -/
def BndElemsOk (es : List (Option ArrayExpressionElement)) (ps : List (Option ArrayPatternElement)) : Prop :=
  ∀ es' i last, es = es'.map (Option.map bareArrayExpressionElement) → (es ≠ [] → i + es.length = last + 1) →
    ∃ q, arrayToPatternElems es' i last = .ok q ∧ q.map (Option.map bareArrayPatternElement) = ps

/-- What `BindProps` says. -/
def BndPropsOk (es : List ObjectExpressionProperty) (ps : List ObjectPatternProperty) : Prop :=
  ∀ es' i last, es = es'.map bareObjectExpressionProperty → (es ≠ [] → i + es.length = last + 1) →
    ∃ q, objectToPatternProps es' i last = .ok q ∧ q.map bareObjectPatternProperty = ps

theorem strict_of_toNode {q : Node} {b : Binding} {m : Marker} (h : b.toNode = .ok q) : asStrictBinding (.ok q) m = .ok b := by
  cases b <;> simp [Binding.toNode] at h <;> subst h <;> rfl

theorem bare_bArray {b : Binding} {ps : List (Option ArrayPatternElement)} {s : Span} (h : bareBinding b = .arrayPattern ps s) :
    ∃ ps' s', b = .arrayPattern ps' s' ∧ ps'.map (Option.map bareArrayPatternElement) = ps := by
  cases b <;> simp [bareBinding, bareHolesArrayPatternElement_eq] at h
  exact ⟨_, _, rfl, h.1⟩

theorem bare_bObject {b : Binding} {ps : List ObjectPatternProperty} {s : Span} (h : bareBinding b = .objectPattern ps s) :
    ∃ ps' s', b = .objectPattern ps' s' ∧ ps'.map bareObjectPatternProperty = ps := by
  cases b <;> simp [bareBinding, bareListObjectPatternProperty_eq] at h
  exact ⟨_, _, rfl, h.1⟩

theorem bndDefault {l r : Node} {b : Binding} {att : ATT} {s : Span} {a : Node} (ih : BndOk l b)
    (ha : bareNode a = .assignmentExpression cs!"=" l r att s) :
    ∃ b' r' s', toBindingPattern a = .ok (.assignmentPattern b' r' s') ∧ bareBinding b' = b ∧ bareNode r' = r := by
  obtain ⟨l', r', s', rfl, rfl, rfl⟩ := bare_assignment ha
  obtain ⟨q, b', e1, e2, e3⟩ := ih l' rfl
  refine ⟨b', r', s', ?_, e3, rfl⟩
  rw [toBindingPattern, if_pos rfl, e1, strict_of_toNode e2]
  rfl

theorem bindPat_ok {x : Node} {b : Binding} (h : BindPat x b) : BndOk x b := by
  refine BindPat.rec (motive_1 := fun x p _ => BndOk x p) (motive_2 := fun x p _ => BndElemOk x p)
    (motive_3 := fun x p _ => BndValOk x p)
    (motive_4 := fun x p _ => BndElemsOk x p) (motive_5 := fun x p _ => BndPropsOk x p)
    ?_ ?_ ?_ ?_ ?_ ?_ ?_ ?_ ?_ ?_ ?_ ?_ ?_ ?_ ?_ ?_ ?_ ?_ ?_ h
  · intro v att s a ha
    obtain ⟨s', rfl⟩ := bare_identifier ha
    refine ⟨_, .bindingIdentifier v s', rfl, rfl, ?_⟩
    simp [bareNode, bareBinding] at ha ⊢
    exact ha
  · intro es ps att s hne _ ih a ha
    obtain ⟨es', s', rfl, e⟩ := bare_array ha
    have hne' : es' ≠ [] := by rintro rfl; exact hne e
    have hlen : es'.length ≠ 0 := by simpa using hne'
    obtain ⟨q, e', rfl⟩ := ih es' 0 (es'.length - 1) e (by intro h; subst e; simp; omega)
    refine ⟨_, .arrayPattern q s', ?_, rfl, ?_⟩
    · rw [toBindingPattern, if_neg (by simp [hne']), except_bind e']; rfl
    · simp [bareNode, bareBinding, bareHolesArrayPatternElement_eq] at ha ⊢
      exact ha.2
  · intro es ps att s _ ih a ha
    obtain ⟨es', s', rfl, e⟩ := bare_object ha
    obtain ⟨q, e', rfl⟩ := ih es' 0 (es'.length - 1) e (by intro h; subst e; cases es' <;> simp at h ⊢)
    refine ⟨_, .objectPattern q s', ?_, rfl, ?_⟩
    · rw [toBindingPattern, except_bind e']; rfl
    · simp [bareNode, bareBinding, bareListObjectPatternProperty_eq] at ha ⊢
      exact ha.2
  · intro v att s a last ha
    obtain ⟨s', rfl⟩ := bare_identifier ha
    exact ⟨.bindingIdentifier v, rfl, rfl⟩
  · intro t ps s _ ih a last ha
    obtain ⟨q, b', e1, e2, e3⟩ := ih a ha
    obtain ⟨ps', s', rfl, rfl⟩ := bare_bArray e3
    cases e2
    exact ⟨.arrayPattern ps', by rw [e1]; rfl, by simp [bareArrayPatternElement, bareHolesArrayPatternElement_eq]⟩
  · intro t ps s _ ih a last ha
    obtain ⟨q, b', e1, e2, e3⟩ := ih a ha
    obtain ⟨ps', s', rfl, rfl⟩ := bare_bObject e3
    cases e2
    exact ⟨.objectPattern ps', by rw [e1]; rfl, by simp [bareArrayPatternElement, bareListObjectPatternProperty_eq]⟩
  · intro l r att s b _ ih a last ha
    obtain ⟨b', r', s', e1, rfl, rfl⟩ := bndDefault ih ha
    exact ⟨.assignmentPattern b' r', by rw [e1]; rfl, rfl⟩
  · intro v att s a sp ha
    obtain ⟨s', rfl⟩ := bare_identifier ha
    refine ⟨.bindingIdentifier v s', rfl, ?_⟩
    simp [bareNode, barePropertyValue] at ha ⊢
    exact ha
  · intro t ps s _ ih a last ha
    obtain ⟨q, b', e1, e2, e3⟩ := ih a ha
    obtain ⟨ps', s', rfl, rfl⟩ := bare_bArray e3
    cases e2
    exact ⟨.bindingPattern (.arrayPattern ps'), by rw [e1]; rfl, by simp [barePropertyValue, bareBindingPattern, bareHolesArrayPatternElement_eq]⟩
  · intro t ps s _ ih a last ha
    obtain ⟨q, b', e1, e2, e3⟩ := ih a ha
    obtain ⟨ps', s', rfl, rfl⟩ := bare_bObject e3
    cases e2
    exact ⟨.bindingPattern (.objectPattern ps'), by rw [e1]; rfl, by simp [barePropertyValue, bareBindingPattern, bareListObjectPatternProperty_eq]⟩
  · intro l r att s b _ ih a last ha
    obtain ⟨b', r', s', e1, rfl, rfl⟩ := bndDefault ih ha
    exact ⟨.assignmentPattern b' r', by rw [e1]; rfl, rfl⟩
  · intro es' i last h
    cases es' with
    | nil => intro _; exact ⟨[], rfl, rfl⟩
    | cons => simp at h
  · intro e b s _ ih es' i last h hi
    rcases es' with _ | ⟨_ | e', _ | ⟨_, _⟩⟩ <;> simp at h
    rcases e' with _ | ⟨e', s'⟩ <;> simp [bareArrayExpressionElement] at h
    obtain ⟨q, b', e1, e2, rfl⟩ := ih _ h.1.symm
    have hi : i = last := by simpa using hi
    refine ⟨[some (.restElement b')], ?_, rfl⟩
    simp only [arrayToPatternElems, arrayToPatternElem, arrayToPatternSome, hi, e1, strict_of_toNode e2, bind, Except.bind, pure, Except.pure]
    simp
  · intro es ps _ ih es' i last h hi
    rcases es' with _ | ⟨_ | e, es'⟩ <;> simp at h
    obtain ⟨q, e, rfl⟩ := ih es' (i + 1) last h (by intro hne; have := hi (by simp); simp at this; omega)
    refine ⟨none :: q, ?_, rfl⟩
    simp [arrayToPatternElems, arrayToPatternElem, e, bind, Except.bind, pure, Except.pure]
  · intro e p es ps _ _ ihe ih es' i last h hi
    rcases es' with _ | ⟨_ | e', es'⟩ <;> simp at h
    obtain ⟨h, h'⟩ := h
    cases e' <;> simp [bareArrayExpressionElement] at h
    obtain ⟨q, eq, rfl⟩ := ihe _ (i == last) h.symm
    obtain ⟨qs, eqs, rfl⟩ := ih es' (i + 1) last h' (by intro hne; have := hi (by simp); simp at this; omega)
    refine ⟨some q :: qs, ?_, rfl⟩
    simp only [arrayToPatternElems, arrayToPatternElem, arrayToPatternSome, eq, eqs, bind, Except.bind, pure, Except.pure]
  · intro es' i last h
    cases es' with
    | nil => intro _; exact ⟨[], rfl, rfl⟩
    | cons => simp at h
  · intro e b s _ ih es' i last h hi
    rcases es' with _ | ⟨e', _ | ⟨_, _⟩⟩ <;> simp at h
    rcases e' with _ | ⟨e', s'⟩ <;> simp [bareObjectExpressionProperty] at h
    obtain ⟨q, b', e1, e2, rfl⟩ := ih _ h.1.symm
    have hi : i = last := by simpa using hi
    refine ⟨[.restElement b'], ?_, rfl⟩
    simp only [objectToPatternProps, objectToPatternProp, hi, e1, strict_of_toNode e2, bind, Except.bind, pure, Except.pure]
    simp
  · intro k c kd m sh s es ps _ ih es' i last h hi
    rcases es' with _ | ⟨e', es'⟩ <;> simp at h
    obtain ⟨h, h'⟩ := h
    rcases e' with ⟨k', c', v', kd', m', sh', s'⟩ | ⟨_, _⟩ <;>
      simp only [bareObjectExpressionProperty, bareOptPropertyValue_eq, ObjectExpressionProperty.property.injEq, reduceCtorEq] at h
    obtain ⟨rfl, rfl, hv, rfl, rfl, rfl, -⟩ := h
    have hv := Option.map_eq_none_iff.1 hv.symm
    subst hv
    obtain ⟨qs, eqs, rfl⟩ := ih es' (i + 1) last h' (by intro hne; have := hi (by simp); simp at this; omega)
    refine ⟨.property k' c none kd m sh :: qs, ?_, ?_⟩
    · simp only [objectToPatternProps, objectToPatternProp, objectToPatternValue, eqs, bind, Except.bind, pure, Except.pure]
    · simp [bareObjectPatternProperty, bareOptPropertyValue_eq]
  · intro k c e p kd m sh s es ps _ _ ihe ih es' i last h hi
    rcases es' with _ | ⟨e', es'⟩ <;> simp at h
    obtain ⟨h, h'⟩ := h
    rcases e' with ⟨k', c', v', kd', m', sh', s'⟩ | ⟨_, _⟩ <;>
      simp only [bareObjectExpressionProperty, bareOptPropertyValue_eq, ObjectExpressionProperty.property.injEq, reduceCtorEq] at h
    obtain ⟨rfl, rfl, hv, rfl, rfl, rfl, -⟩ := h
    obtain ⟨v'', rfl, rfl⟩ := bare_value hv.symm
    obtain ⟨q, eq, rfl⟩ := ihe _ s' rfl
    obtain ⟨qs, eqs, rfl⟩ := ih es' (i + 1) last h' (by intro hne; have := hi (by simp); simp at this; omega)
    refine ⟨.property k' c (some q) kd m sh :: qs, ?_, ?_⟩
    · simp only [objectToPatternProps, objectToPatternProp, objectToPatternValue, objectToPatternSome, eq, eqs, bind, Except.bind, pure, Except.pure]
    · simp [bareObjectPatternProperty, bareOptPropertyValue_eq]

end Giron.Complete

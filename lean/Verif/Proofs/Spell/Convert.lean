import Verif.Proofs.Spell.Basic
/-
The conversions of expressions to patterns keep the words.
-/
namespace Giron
open Spec Spec.Lang
namespace Spell

theorem except_bind_ok {α β : Type} {x : Except Fail α} {k : α → Except Fail β} {b : β} (h : (x >>= k) = .ok b) :
    ∃ a, x = .ok a ∧ k a = .ok b := by
  cases x with
  | error f => cases h
  | ok a => exact ⟨a, rfl, h⟩

theorem cat_mono {A A' B B' : Lang} {ws : List Mark} (h : (A.cat B) ws) (hA : ∀ w, A w → A' w) (hB : ∀ w, B w → B' w) :
    (A'.cat B') ws := by
  obtain ⟨a, b, rfl, h1, h2⟩ := h
  exact sq (hA _ h1) (hB _ h2)

/-- with something in between -/
theorem wrap_mono {A A' : Lang} {o c : Punctuator} {ws : List Mark} (h : ((pun o).cat (A.cat (pun c))) ws)
    (hA : ∀ w, A w → A' w) : ((pun o).cat (A'.cat (pun c))) ws :=
  cat_mono h (fun _ h => h) fun _ h => cat_mono h hA fun _ h => h

theorem commaAfter_eq {α β : Type} {l : List α} {l' : List β} (h : l'.isEmpty = l.isEmpty) :
    commaAfter l' = commaAfter l := by
  unfold commaAfter; rw [h]

theorem sign_assign {ws : List Mark} (h : sign cs!"=" ws) : pun .assign ws := by
  obtain ⟨c, rfl, p, rfl, hp⟩ := h
  have : p = .assign := by cases p <;> first | rfl | cases hp
  subst this; rfl

variable [Env]

theorem key_patternKey {b : Bool} {k : PropertyKey} {ws : List Mark} (h : key b k ws) : patternKey b k ws := by
  cases k with
  | identifier id =>
    cases b with
    | true => exact h.elim
    | false =>
    cases h
    refine ⟨_, rfl, _, rfl, ?_⟩
    unfold nameToken
    split
    · next h => exact h.symm
    · split
      · rfl
      · split <;> rfl
  | literal l =>
    cases b with
    | true => exact h.elim
    | false =>
    obtain ⟨c, rfl, ⟨v, o, rfl, hv⟩ | ⟨n, rfl, hv⟩⟩ := h
    · exact ⟨_, rfl, by rw [hv]; rfl⟩
    · exact ⟨_, rfl, by rw [hv]; rfl⟩
  | expression n => exact h

theorem same {n m : Node} {ws : List Mark} (h : (Except.ok n : Except Fail Node) = .ok m) (hw : node n ws) : node m ws := by
  cases h; exact hw

/-- Whenever the conversion succeeds, the words stay. -/
def Keeps {α : Type} (L : Lang) (e : Except Fail α) (L' : α → Lang) : Prop := ∀ a, e = .ok a → ∀ ws, L ws → L' a ws

theorem Keeps.error {α : Type} {L : Lang} {L' : α → Lang} {f : Fail} : Keeps L (.error f : Except Fail α) L' := by
  intro a h; cases h

theorem Keeps.pure {α : Type} {L : Lang} {L' : α → Lang} {a : α} (h : ∀ ws, L ws → L' a ws) :
    Keeps L (Pure.pure a : Except Fail α) L' := by
  intro b hb; cases hb; exact h

theorem asStrictBinding_keeps {n : Node} {e : Except Fail Node} {m : Marker} (h : Keeps (node n) e node) :
    Keeps (node n) (asStrictBinding e m) binding := by
  intro b hb ws hw
  obtain ⟨a, ha, hb⟩ := except_bind_ok hb
  have := h a ha ws hw
  cases a <;> first | (cases hb; exact this) | cases hb

theorem asArrayPatternElement_keeps {n : Node} {e : Except Fail Node} {l : Bool} (h : Keeps (node n) e node) :
    Keeps (node n) (asArrayPatternElement e l) patternElement := by
  intro b hb ws hw
  obtain ⟨a, ha, hb⟩ := except_bind_ok hb
  have := h a ha ws hw
  cases a with
  | restElement b sp =>
    dsimp only at hb
    split at hb
    · cases hb; exact this
    · cases hb
  | _ => first | (cases hb; exact this) | cases hb

/-- Values that are treated alike, of which the first is converted to the second. -/
structure SameValue (v v' : Option PropertyValue) : Prop where
  pre : ∀ kind, propertyPrefix kind v' = propertyPrefix kind v
  mark : ∀ m s, propertyMark v' m s = propertyMark v m s
  gen : ∀ k c kind m s sp, isGenerator (.property k c v kind m s sp) = false
  words : ∀ ws, optValue v ws → optValue v' ws

theorem pre_eq {kind : Str} {n : Node} : propertyPrefix kind (some (.expression n)) = propertyPrefix kind none := by
  unfold propertyPrefix; split <;> first | rfl | simp_all

theorem asPropertyValue_keeps {n : Node} {e : Except Fail Node} {sp : Span} {v : Option PropertyValue}
    (h : Keeps (node n) e node) (hv : asPropertyValue e sp = .ok v) : SameValue (some (.expression n)) v := by
  obtain ⟨a, ha, hb⟩ := except_bind_ok hv
  have := h a ha
  cases a <;> first
    | (cases hb
       refine ⟨fun kind => ?_, fun _ _ => rfl, fun _ _ _ _ _ _ => rfl, this⟩
       unfold propertyPrefix
       cases accessor kind <;> rfl)
    | cases hb

mutual

theorem toBindingPattern_keeps : ∀ (n m : Node), toBindingPattern n = .ok m → ∀ ws, node n ws → node m ws
  | .identifier .., _, h, _, hw => same h hw
  | .arrayExpression elements att span, m, h, ws, hw => by
    rw [toBindingPattern] at h
    split at h
    · cases h
    · obtain ⟨pat, h1, h2⟩ := except_bind_ok h
      cases h2
      exact wrap_mono hw (arrayToPatternElems_keeps elements _ _ pat h1).1
  | .objectExpression properties att span, m, h, ws, hw => by
    rw [toBindingPattern] at h
    obtain ⟨pat, h1, h2⟩ := except_bind_ok h
    cases h2
    exact wrap_mono hw (objectToPatternProps_keeps properties _ _ pat h1).1
  | .assignmentExpression operator left right att span, m, h, ws, hw => by
    rw [toBindingPattern] at h
    split at h
    · next ho =>
      obtain ⟨b, h1, h2⟩ := except_bind_ok h
      cases h2
      refine cat_mono hw (asStrictBinding_keeps (toBindingPattern_keeps left) b h1) fun _ h => cat_mono h ?_ fun _ h => h
      rw [ho]
      exact fun _ => sign_assign
    · exact same h hw
  | .spreadElement argument span, m, h, ws, hw => by
    rw [toBindingPattern] at h
    obtain ⟨b, h1, h2⟩ := except_bind_ok h
    cases h2
    exact cat_mono hw (fun _ h => h) (asStrictBinding_keeps (toBindingPattern_keeps argument) b h1)
  | .arrayPattern .., _, h, _, hw | .arrayAssignmentPattern .., _, h, _, hw | .arrowFunctionExpression .., _, h, _, hw | .assignmentPattern .., _, h, _, hw => same h hw
  | .assignmentRestElement .., _, h, _, hw | .asyncArrowFunctionExpression .., _, h, _, hw | .asyncFunctionExpression .., _, h, _, hw | .awaitExpression .., _, h, _, hw => same h hw
  | .binaryExpression .., _, h, _, hw | .bindingIdentifier .., _, h, _, hw | .logicalExpression .., _, h, _, hw | .callExpression .., _, h, _, hw => same h hw
  | .classExpression .., _, h, _, hw | .computedMemberExpression .., _, h, _, hw | .conditionalExpression .., _, h, _, hw | .functionExpression .., _, h, _, hw => same h hw
  | .literal .., _, h, _, hw | .newExpression .., _, h, _, hw | .objectPattern .., _, h, _, hw | .regexLiteral .., _, h, _, hw => same h hw
  | .sequenceExpression .., _, h, _, hw | .staticMemberExpression .., _, h, _, hw | .taggedTemplateExpression .., _, h, _, hw | .thisExpression .., _, h, _, hw => same h hw
  | .unaryExpression .., _, h, _, hw | .updateExpression .., _, h, _, hw | .yieldExpression .., _, h, _, hw | .arrowParameterPlaceHolder .., _, h, _, hw => same h hw
  | .restElement .., _, h, _, hw | .super .., _, h, _, hw | .templateLiteral .., _, h, _, hw | .metaProperty .., _, h, _, hw => same h hw
  | .asyncFunctionDeclaration .., _, h, _, hw | .breakStatement .., _, h, _, hw | .continueStatement .., _, h, _, hw | .debuggerStatement .., _, h, _, hw => same h hw
  | .doWhileStatement .., _, h, _, hw | .emptyStatement .., _, h, _, hw | .expressionStatement .., _, h, _, hw | .directive .., _, h, _, hw => same h hw
  | .forStatement .., _, h, _, hw | .forInStatement .., _, h, _, hw | .forOfStatement .., _, h, _, hw | .functionDeclaration .., _, h, _, hw => same h hw
  | .ifStatement .., _, h, _, hw | .returnStatement .., _, h, _, hw | .switchStatement .., _, h, _, hw | .throwStatement .., _, h, _, hw => same h hw
  | .tryStatement .., _, h, _, hw | .variableDeclaration .., _, h, _, hw | .whileStatement .., _, h, _, hw | .withStatement .., _, h, _, hw => same h hw
  | .blockStatement .., _, h, _, hw | .classDeclaration .., _, h, _, hw | .exportAllDeclaration .., _, h, _, hw | .exportDefaultDeclaration .., _, h, _, hw => same h hw
  | .exportNamedDeclaration .., _, h, _, hw | .importDeclaration .., _, h, _, hw | .importDefaultSpecifier .., _, h, _, hw | .importNamespaceSpecifier .., _, h, _, hw => same h hw
  | .importSpecifier .., _, h, _, hw | .labeledStatement .., _, h, _, hw | .moduleNode .., _, h, _, hw | .program .., _, h, _, hw => same h hw
termination_by structural n => n

theorem arrayToPatternElems_keeps : ∀ (l : List (Option ArrayExpressionElement)) (i j : Nat) (l' : List (Option ArrayPatternElement)),
    arrayToPatternElems l i j = .ok l' → (∀ ws, arrayElements l ws → patternElements l' ws) ∧ l'.isEmpty = l.isEmpty
  | [], i, j, l', h => by
    rw [arrayToPatternElems] at h; cases h
    exact ⟨fun _ h => h, rfl⟩
  | e :: rest, i, j, l', h => by
    rw [arrayToPatternElems] at h
    obtain ⟨p, h1, h⟩ := except_bind_ok h
    obtain ⟨ps, h2, h⟩ := except_bind_ok h
    cases h
    obtain ⟨ih, he⟩ := arrayToPatternElems_keeps rest _ _ ps h2
    exact ⟨arrayToPatternElem_keeps e i j p h1 rest ps ih he, rfl⟩
termination_by structural l => l

theorem arrayToPatternElem_keeps : ∀ (e : Option ArrayExpressionElement) (i j : Nat) (p : Option ArrayPatternElement),
    arrayToPatternElem e i j = .ok p → ∀ (l : List (Option ArrayExpressionElement)) (l' : List (Option ArrayPatternElement)),
      (∀ ws, arrayElements l ws → patternElements l' ws) → l'.isEmpty = l.isEmpty →
      ∀ ws, arrayElements (e :: l) ws → patternElements (p :: l') ws
  | none, i, j, p, h, l, l', hl, he => by
    rw [arrayToPatternElem] at h; cases h
    exact fun ws hw => cat_mono hw (fun _ h => h) hl
  | some e, i, j, p, h, l, l', hl, he => by
    rw [arrayToPatternElem] at h
    obtain ⟨q, h1, h⟩ := except_bind_ok h
    cases h
    refine fun ws hw => cat_mono hw (arrayToPatternSome_keeps e i j q h1) fun _ h => cat_mono h ?_ hl
    rw [commaAfter_eq he]
    exact fun _ h => h
termination_by structural e => e

theorem arrayToPatternSome_keeps : ∀ (e : ArrayExpressionElement) (i j : Nat) (p : ArrayPatternElement),
    arrayToPatternSome e i j = .ok p → ∀ ws, arrayElement e ws → patternElement p ws
  | .expression n, i, j, p, h => by
    rw [arrayToPatternSome] at h
    exact asArrayPatternElement_keeps (toBindingPattern_keeps n) p h
  | .spreadElement argument sp, i, j, p, h => by
    rw [arrayToPatternSome] at h
    split at h
    · cases h
    · obtain ⟨b, h1, h⟩ := except_bind_ok h
      cases h
      exact fun ws hw => cat_mono hw (fun _ h => h) (asStrictBinding_keeps (toBindingPattern_keeps argument) b h1)
termination_by structural e => e

theorem objectToPatternProps_keeps : ∀ (l : List ObjectExpressionProperty) (i j : Nat) (l' : List ObjectPatternProperty),
    objectToPatternProps l i j = .ok l' → (∀ ws, properties l ws → patternProperties l' ws) ∧ l'.isEmpty = l.isEmpty
  | [], i, j, l', h => by
    rw [objectToPatternProps] at h; cases h
    exact ⟨fun _ h => h, rfl⟩
  | e :: rest, i, j, l', h => by
    rw [objectToPatternProps] at h
    obtain ⟨p, h1, h⟩ := except_bind_ok h
    obtain ⟨ps, h2, h⟩ := except_bind_ok h
    cases h
    obtain ⟨ih, he⟩ := objectToPatternProps_keeps rest _ _ ps h2
    obtain ⟨k1, k2⟩ := objectToPatternProp_keeps e i j p h1
    refine ⟨fun ws hw => cat_mono hw k1 fun _ h => cat_mono h ?_ ih, rfl⟩
    rw [k2, commaAfter_eq he]
    exact fun _ h => h
termination_by structural l => l

theorem objectToPatternProp_keeps : ∀ (p : ObjectExpressionProperty) (i j : Nat) (q : ObjectPatternProperty),
    objectToPatternProp p i j = .ok q → (∀ ws, property p ws → patternProperty q ws) ∧ isGenerator p = false
  | .property k computed value kind isMethod shorthand span, i, j, q, h => by
    rw [objectToPatternProp] at h
    obtain ⟨v, h1, h⟩ := except_bind_ok h
    cases h
    have hv := objectToPatternValue_keeps value span v h1
    refine ⟨fun ws hw => .inl (cat_mono hw ?_ fun _ h => cat_mono h (fun _ => key_patternKey) fun _ h => cat_mono h ?_ hv.words),
      hv.gen ..⟩
    · rw [hv.pre]; exact fun _ h => h
    · rw [hv.mark]; exact fun _ h => h
  | .spreadElement argument sp, i, j, p, h => by
    rw [objectToPatternProp] at h
    split at h
    · obtain ⟨b, h1, h⟩ := except_bind_ok h
      cases h
      exact ⟨fun ws hw => cat_mono hw (fun _ h => h) (asStrictBinding_keeps (toBindingPattern_keeps argument) b h1), rfl⟩
    · cases h
termination_by structural p => p

theorem objectToPatternValue_keeps : ∀ (v : Option PropertyValue) (sp : Span) (v' : Option PropertyValue),
    objectToPatternValue v sp = .ok v' → SameValue v v'
  | none, _, _, h => by
    rw [objectToPatternValue] at h; cases h
    exact ⟨fun _ => rfl, fun _ _ => rfl, fun _ _ _ _ _ _ => rfl, fun _ h => h⟩
  | some v, sp, v', h => by
    rw [objectToPatternValue] at h
    exact objectToPatternSome_keeps v sp v' h
termination_by structural v => v

theorem objectToPatternSome_keeps : ∀ (v : PropertyValue) (sp : Span) (v' : Option PropertyValue),
    objectToPatternSome v sp = .ok v' → SameValue (some v) v'
  | .expression n, sp, v', h => by
    rw [objectToPatternSome] at h
    exact asPropertyValue_keeps (toBindingPattern_keeps n) h
  | .assignmentPattern .., _, _, h => nomatch h
  | .asyncFunctionExpression .., _, _, h => nomatch h
  | .bindingIdentifier .., _, _, h => nomatch h
  | .bindingPattern .., _, _, h => nomatch h
  | .functionExpression .., _, _, h => nomatch h
termination_by structural v => v

end

theorem toStrictBinding_keeps {n : Node} {m : Marker} {b : Binding} (h : toStrictBinding n m = .ok b) {ws : List Mark}
    (hw : node n ws) : binding b ws := asStrictBinding_keeps (toBindingPattern_keeps n) b h ws hw

theorem toBinding_keeps {n : Node} {b : Binding} (h : toBinding n = .ok b) {ws : List Mark}
    (hw : node n ws) : binding b ws := by
  obtain ⟨a, ha, hb⟩ := except_bind_ok h
  have := toBindingPattern_keeps n a ha ws hw
  cases a <;> (cases hb; exact this)

theorem toNode_keeps {b : Binding} {n : Node} (h : b.toNode = .ok n) {ws : List Mark} (hw : binding b ws) : node n ws := by
  cases b <;> cases h <;> exact hw

/-! ### Assignment targets -/

theorem restArgument_keeps {t : ErrorType} {n : Node} {sp : Span} {b : Binding} (h : restArgument t n sp = .ok b) {ws : List Mark}
    (hw : node n ws) : binding b ws := by
  unfold restArgument at h
  split at h
  · cases h
  · cases h
  · split at h
    · cases h
    · exact toBinding_keeps h hw

theorem asAssignmentElement_keeps {n : Node} {e : Except Fail Node} (h : Keeps (node n) e node) :
    Keeps (node n) (asAssignmentElement e) node := by
  intro b hb ws hw
  obtain ⟨a, ha, hb⟩ := except_bind_ok hb
  have := h a ha ws hw
  split at hb
  · split at hb
    · next ho =>
      split at hb
      · cases hb
      · cases hb
        refine cat_mono this (fun _ h => h) fun _ h => cat_mono h ?_ fun _ h => h
        rw [ho]
        exact fun _ => sign_assign
    · split at hb
      · cases hb
      · cases hb; exact this
  · split at hb
    · obtain ⟨_, _, hb⟩ := except_bind_ok hb
      cases hb
    · cases hb; exact this

mutual

theorem toAssignmentPattern_keeps : ∀ (n m : Node), toAssignmentPattern n = .ok m → ∀ ws, node n ws → node m ws
  | .arrayExpression elements att span, m, h, ws, hw => by
    rw [toAssignmentPattern] at h
    obtain ⟨pat, h1, h2⟩ := except_bind_ok h
    cases h2
    exact wrap_mono hw (arrayToAssignElems_keeps elements _ _ pat h1).1
  | .objectExpression properties att span, m, h, ws, hw => by
    rw [toAssignmentPattern] at h
    obtain ⟨pat, h1, h2⟩ := except_bind_ok h
    cases h2
    exact wrap_mono hw (objectToAssignProps_keeps properties _ _ pat h1).1
  | .arrayPattern .., _, h, _, hw | .arrayAssignmentPattern .., _, h, _, hw | .arrowFunctionExpression .., _, h, _, hw | .assignmentPattern .., _, h, _, hw => same h hw
  | .assignmentRestElement .., _, h, _, hw | .asyncArrowFunctionExpression .., _, h, _, hw | .asyncFunctionExpression .., _, h, _, hw | .awaitExpression .., _, h, _, hw => same h hw
  | .binaryExpression .., _, h, _, hw | .bindingIdentifier .., _, h, _, hw | .logicalExpression .., _, h, _, hw | .callExpression .., _, h, _, hw => same h hw
  | .classExpression .., _, h, _, hw | .computedMemberExpression .., _, h, _, hw | .conditionalExpression .., _, h, _, hw | .functionExpression .., _, h, _, hw => same h hw
  | .literal .., _, h, _, hw | .newExpression .., _, h, _, hw | .objectPattern .., _, h, _, hw | .regexLiteral .., _, h, _, hw => same h hw
  | .sequenceExpression .., _, h, _, hw | .staticMemberExpression .., _, h, _, hw | .taggedTemplateExpression .., _, h, _, hw | .thisExpression .., _, h, _, hw => same h hw
  | .unaryExpression .., _, h, _, hw | .updateExpression .., _, h, _, hw | .yieldExpression .., _, h, _, hw | .arrowParameterPlaceHolder .., _, h, _, hw => same h hw
  | .restElement .., _, h, _, hw | .super .., _, h, _, hw | .templateLiteral .., _, h, _, hw | .metaProperty .., _, h, _, hw => same h hw
  | .asyncFunctionDeclaration .., _, h, _, hw | .breakStatement .., _, h, _, hw | .continueStatement .., _, h, _, hw | .debuggerStatement .., _, h, _, hw => same h hw
  | .doWhileStatement .., _, h, _, hw | .emptyStatement .., _, h, _, hw | .expressionStatement .., _, h, _, hw | .directive .., _, h, _, hw => same h hw
  | .forStatement .., _, h, _, hw | .forInStatement .., _, h, _, hw | .forOfStatement .., _, h, _, hw | .functionDeclaration .., _, h, _, hw => same h hw
  | .ifStatement .., _, h, _, hw | .returnStatement .., _, h, _, hw | .switchStatement .., _, h, _, hw | .throwStatement .., _, h, _, hw => same h hw
  | .tryStatement .., _, h, _, hw | .variableDeclaration .., _, h, _, hw | .whileStatement .., _, h, _, hw | .withStatement .., _, h, _, hw => same h hw
  | .blockStatement .., _, h, _, hw | .classDeclaration .., _, h, _, hw | .exportAllDeclaration .., _, h, _, hw | .exportDefaultDeclaration .., _, h, _, hw => same h hw
  | .exportNamedDeclaration .., _, h, _, hw | .importDeclaration .., _, h, _, hw | .importDefaultSpecifier .., _, h, _, hw | .importNamespaceSpecifier .., _, h, _, hw => same h hw
  | .importSpecifier .., _, h, _, hw | .labeledStatement .., _, h, _, hw | .moduleNode .., _, h, _, hw | .program .., _, h, _, hw => same h hw
  | .identifier .., _, h, _, hw | .assignmentExpression .., _, h, _, hw | .spreadElement .., _, h, _, hw => same h hw
termination_by structural n => n

theorem arrayToAssignElems_keeps : ∀ (l : List (Option ArrayExpressionElement)) (i j : Nat) (l' : List (Option ArrayAssignmentPatternElement)),
    arrayToAssignElems l i j = .ok l' → (∀ ws, arrayElements l ws → targetElements l' ws) ∧ l'.isEmpty = l.isEmpty
  | [], i, j, l', h => by
    rw [arrayToAssignElems] at h; cases h
    exact ⟨fun _ h => h, rfl⟩
  | e :: rest, i, j, l', h => by
    rw [arrayToAssignElems] at h
    obtain ⟨p, h1, h⟩ := except_bind_ok h
    obtain ⟨ps, h2, h⟩ := except_bind_ok h
    cases h
    obtain ⟨ih, he⟩ := arrayToAssignElems_keeps rest _ _ ps h2
    exact ⟨arrayToAssignElem_keeps e i j p h1 rest ps ih he, rfl⟩
termination_by structural l => l

theorem arrayToAssignElem_keeps : ∀ (e : Option ArrayExpressionElement) (i j : Nat) (p : Option ArrayAssignmentPatternElement),
    arrayToAssignElem e i j = .ok p → ∀ (l : List (Option ArrayExpressionElement)) (l' : List (Option ArrayAssignmentPatternElement)),
      (∀ ws, arrayElements l ws → targetElements l' ws) → l'.isEmpty = l.isEmpty →
      ∀ ws, arrayElements (e :: l) ws → targetElements (p :: l') ws
  | none, i, j, p, h, l, l', hl, he => by
    rw [arrayToAssignElem] at h; cases h
    exact fun ws hw => cat_mono hw (fun _ h => h) hl
  | some e, i, j, p, h, l, l', hl, he => by
    rw [arrayToAssignElem] at h
    obtain ⟨q, h1, h⟩ := except_bind_ok h
    cases h
    refine fun ws hw => cat_mono hw (arrayToAssignSome_keeps e i j q h1) fun _ h => cat_mono h ?_ hl
    rw [commaAfter_eq he]
    exact fun _ h => h
termination_by structural e => e

theorem arrayToAssignSome_keeps : ∀ (e : ArrayExpressionElement) (i j : Nat) (p : ArrayAssignmentPatternElement),
    arrayToAssignSome e i j = .ok p → ∀ ws, arrayElement e ws → targetElement p ws
  | .expression n, i, j, p, h => by
    rw [arrayToAssignSome] at h
    obtain ⟨b, h1, h⟩ := except_bind_ok h
    cases h
    exact asAssignmentElement_keeps (toAssignmentPattern_keeps n) b h1
  | .spreadElement argument sp, i, j, p, h => by
    rw [arrayToAssignSome] at h
    split at h
    · cases h
    · obtain ⟨b, h1, h⟩ := except_bind_ok h
      cases h
      exact fun ws hw => cat_mono hw (fun _ h => h) fun _ => restArgument_keeps h1
termination_by structural e => e

theorem objectToAssignProps_keeps : ∀ (l : List ObjectExpressionProperty) (i j : Nat) (l' : List ObjectPatternProperty),
    objectToAssignProps l i j = .ok l' → (∀ ws, properties l ws → patternProperties l' ws) ∧ l'.isEmpty = l.isEmpty
  | [], i, j, l', h => by
    rw [objectToAssignProps] at h; cases h
    exact ⟨fun _ h => h, rfl⟩
  | e :: rest, i, j, l', h => by
    rw [objectToAssignProps] at h
    obtain ⟨p, h1, h⟩ := except_bind_ok h
    obtain ⟨ps, h2, h⟩ := except_bind_ok h
    cases h
    obtain ⟨ih, he⟩ := objectToAssignProps_keeps rest _ _ ps h2
    obtain ⟨k1, k2⟩ := objectToAssignProp_keeps e i j p h1
    refine ⟨fun ws hw => cat_mono hw k1 fun _ h => cat_mono h ?_ ih, rfl⟩
    rw [k2, commaAfter_eq he]
    exact fun _ h => h
termination_by structural l => l

theorem objectToAssignProp_keeps : ∀ (p : ObjectExpressionProperty) (i j : Nat) (q : ObjectPatternProperty),
    objectToAssignProp p i j = .ok q → (∀ ws, property p ws → patternProperty q ws) ∧ isGenerator p = false
  | .property k computed value kind isMethod shorthand span, i, j, q, h => by
    rw [objectToAssignProp] at h
    obtain ⟨v, h1, h⟩ := except_bind_ok h
    cases h
    have hv := objectToAssignValue_keeps value span v h1
    refine ⟨fun ws hw => .inl (cat_mono hw ?_ fun _ h => cat_mono h (fun _ => key_patternKey) fun _ h => cat_mono h ?_ hv.words),
      hv.gen ..⟩
    · rw [hv.pre]; exact fun _ h => h
    · rw [hv.mark]; exact fun _ h => h
  | .spreadElement argument sp, i, j, p, h => by
    rw [objectToAssignProp] at h
    split at h
    · cases h
    · obtain ⟨b, h1, h⟩ := except_bind_ok h
      cases h
      exact ⟨fun ws hw => cat_mono hw (fun _ h => h) fun _ => restArgument_keeps h1, rfl⟩
termination_by structural p => p

theorem objectToAssignValue_keeps : ∀ (v : Option PropertyValue) (sp : Span) (v' : Option PropertyValue),
    objectToAssignValue v sp = .ok v' → SameValue v v'
  | none, _, _, h => by
    rw [objectToAssignValue] at h; cases h
    exact ⟨fun _ => rfl, fun _ _ => rfl, fun _ _ _ _ _ _ => rfl, fun _ h => h⟩
  | some v, sp, v', h => by
    rw [objectToAssignValue] at h
    exact objectToAssignSome_keeps v sp v' h
termination_by structural v => v

theorem objectToAssignSome_keeps : ∀ (v : PropertyValue) (sp : Span) (v' : Option PropertyValue),
    objectToAssignSome v sp = .ok v' → SameValue (some v) v'
  | .expression n, sp, v', h => by
    rw [objectToAssignSome] at h
    obtain ⟨b, h1, h⟩ := except_bind_ok h
    cases h
    exact ⟨fun _ => pre_eq.trans pre_eq.symm, fun _ _ => rfl, fun _ _ _ _ _ _ => rfl, asAssignmentElement_keeps (toAssignmentPattern_keeps n) b h1⟩
  | .assignmentPattern .., _, _, h => nomatch h
  | .asyncFunctionExpression .., _, _, h => nomatch h
  | .bindingIdentifier .., _, _, h => nomatch h
  | .bindingPattern .., _, _, h => nomatch h
  | .functionExpression .., _, _, h => nomatch h
termination_by structural v => v

end

end Spell
end Giron

import Verif.Thm.Path
/-
Properties of the expressions and assignment targets in accepted programs.
-/
set_option maxRecDepth 20000
namespace Giron
open Spec Parser

/-- C07: the left side of every assignment is an identifier, a member expression, one of these in parentheses, or —
for plain `=` — an object or array pattern.  The operator is one of ECMAScript's. -/
theorem C07_assignment_left [Env] {source : Str} {t : Node} {p : List Item} {r : Role} {op : Str} {l rt : Node}
    {att : ATT} {sp : Span} (ht : Accepted source t) (hp : PathTo t p (.node r (.assignmentExpression op l rt att sp))) :
    op ∈ assignOps ∧ (SimpleTarget false l ∨ op = cs!"=" ∧ isAsgPattern l = true) := by
  have h : _ ∧ _ := ht.nodeOk hp
  have h2 := ht.fits (hp.step (k := .node .target l) (by simp [children, nodeParts]))
  refine ⟨h.1, ?_⟩
  by_cases e : op = cs!"="
  · rcases h2 with h2 | h2
    · exact .inl (h2.mono (by simp))
    · exact .inr ⟨e, h2⟩
  · exact .inl ((h.2 e).mono (by simp))

/-- the hypotheses are met -/
example : letI := ascii; ∃ t p r op es att' sp' rt att sp, Accepted cs!"[a, b.c] = d" t ∧ PathTo t p (.node r (.assignmentExpression op (.arrayAssignmentPattern es att' sp') rt att sp)) := by
  letI := ascii
  obtain ⟨t, p, it, h1, h2, h3⟩ := has_path (e := parseScript cs!"[a, b.c] = d")
    (test := fun | .node _ (.assignmentExpression _ (.arrayAssignmentPattern ..) _ _ _) => true | _ => false) (by decide +kernel)
  split at h3 <;> simp at h3
  exact ⟨t, p, _, _, _, _, _, _, _, _, .inl h1, h2⟩
/-- C07: what a pattern on the left of `=` is made of.  Elements of array patterns and values of object patterns:
identifiers, member expressions, patterns, or one of these with a default value. -/
theorem C07_pattern_elements [Env] {source : Str} {t : Node} {p : List Item} {n : Node}
    (ht : Accepted source t) (hp : PathTo t p (.node .asgElem n)) :
    SimpleTarget false n ∨ isAsgPattern n = true ∨ isAsgDefault n = true := by
  rcases ht.fits hp with h | h | h
  · exact .inl (h.mono (by simp))
  · exact .inr (.inl h)
  · exact .inr (.inr h)

/-- the hypotheses are met -/
example : letI := ascii; ∃ t p b o pr att sp, Accepted cs!"[a, b.c] = d" t ∧ PathTo t p (.node .asgElem (.staticMemberExpression b o pr att sp)) := by
  letI := ascii
  obtain ⟨t, p, it, h1, h2, h3⟩ := has_path (e := parseScript cs!"[a, b.c] = d")
    (test := fun | .node .asgElem (.staticMemberExpression _ _ _ _ _) => true | _ => false) (by decide +kernel)
  split at h3 <;> simp at h3
  exact ⟨t, p, _, _, _, _, _, .inl h1, h2⟩
/-- C07: the value of a property of an object pattern on the left of `=` is such an element. -/
theorem C07_pattern_properties [Env] {source : Str} {t : Node} {p : List Item} {v : PropertyValue}
    (ht : Accepted source t) (hp : PathTo t p (.patVal .assign v)) :
    ∃ n, v = .expression n ∧ (SimpleTarget false n ∨ isAsgPattern n = true ∨ isAsgDefault n = true) := by
  have h := ht.local hp
  cases v with
  | expression n =>
    exact ⟨n, rfl, C07_pattern_elements ht (hp.step (k := .node .asgElem n) (by simp [children]))⟩
  | bindingPattern b => cases b <;> simp [Local] at h
  | assignmentPattern => simp [Local] at h
  | asyncFunctionExpression => simp [Local] at h
  | bindingIdentifier => simp [Local] at h
  | functionExpression => simp [Local] at h

/-- the hypotheses are met -/
example : letI := ascii; ∃ t p v, Accepted cs!"({a: b} = c)" t ∧ PathTo t p (.patVal .assign v) := by
  letI := ascii
  obtain ⟨t, p, it, h1, h2, h3⟩ := has_path (e := parseScript cs!"({a: b} = c)")
    (test := fun | .patVal .assign _ => true | _ => false) (by decide +kernel)
  split at h3 <;> simp at h3
  exact ⟨t, p, _, .inl h1, h2⟩
/-- C07: in `target = default` and `...target` within such a pattern, the target is a name, an object pattern, an
identifier, a member expression or a pattern. -/
theorem C07_pattern_bindings [Env] {source : Str} {t : Node} {p : List Item} {b : Binding}
    (ht : Accepted source t) (hp : PathTo t p (.binding .assign b)) :
    (∃ name sp, b = .bindingIdentifier name sp) ∨ (∃ ps sp, b = .objectPattern ps sp) ∨
    ∃ n, b = .expression n ∧ (SimpleTarget false n ∨ isAsgPattern n = true) := by
  have h := ht.local hp
  cases b with
  | bindingIdentifier name sp => exact .inl ⟨_, _, rfl⟩
  | objectPattern ps sp => exact .inr (.inl ⟨_, _, rfl⟩)
  | arrayPattern => simp [Local] at h
  | expression n =>
    refine .inr (.inr ⟨n, rfl, ?_⟩)
    rcases ht.fits (hp.step (k := .node .target n) (by simp [children])) with h | h
    · exact .inl (h.mono (by simp))
    · exact .inr h

/-- the hypotheses are met -/
example : letI := ascii; ∃ t p b, Accepted cs!"[a = 1] = c" t ∧ PathTo t p (.binding .assign b) := by
  letI := ascii
  obtain ⟨t, p, it, h1, h2, h3⟩ := has_path (e := parseScript cs!"[a = 1] = c")
    (test := fun | .binding .assign _ => true | _ => false) (by decide +kernel)
  split at h3 <;> simp at h3
  exact ⟨t, p, _, .inl h1, h2⟩
/-- C08: the operand of `++` and `--` is an identifier, a member expression, or one of these in parentheses. -/
theorem C08_update_operand [Env] {source : Str} {t : Node} {p : List Item} {r : Role} {op : Str} {a : Node}
    {pre : Bool} {att : ATT} {sp : Span} (ht : Accepted source t)
    (hp : PathTo t p (.node r (.updateExpression op a pre att sp))) :
    (op = cs!"++" ∨ op = cs!"--") ∧ SimpleTarget false a := by
  have h : _ ∧ _ := ht.nodeOk hp
  exact ⟨by simpa [updateOps] using h.1, h.2.mono (by simp)⟩

/-- the hypotheses are met -/
example : letI := ascii; ∃ t p r op att' b o q att sp pre att'' sp'' sp', Accepted cs!"(a.b)++" t ∧ PathTo t p (.node r (.updateExpression op (.sequenceExpression [.staticMemberExpression b o q att sp] att' sp') pre att'' sp'')) := by
  letI := ascii
  obtain ⟨t, p, it, h1, h2, h3⟩ := has_path (e := parseScript cs!"(a.b)++")
    (test := fun | .node _ (.updateExpression _ (.sequenceExpression [.staticMemberExpression ..] ..) ..) => true | _ => false) (by decide +kernel)
  split at h3 <;> simp at h3
  exact ⟨t, p, _, _, _, _, _, _, _, _, _, _, _, _, .inl h1, h2⟩
/-- `n` is `m`, possibly in parentheses. -/
inductive Parens : Node → Node → Prop
  | none {m} : Parens m m
  | paren {n m att sp} (h : Parens n m) : Parens (.sequenceExpression [n] att sp) m

theorem Spec.SimpleTarget.name {n : Node} {name : Str} {att : ATT} {sp : Span} (h : SimpleTarget true n)
    (hp : Parens n (.identifier name att sp)) : ¬ EvalOrArguments name := by
  induction h with
  | ident h => cases hp; exact h rfl
  | computed => cases hp
  | static => cases hp
  | paren _ ih => cases hp with | paren hp => exact ih hp

/-- C09, the part that holds: in strict code, no identifier `eval` or `arguments` is the target of an assignment
(as a whole, or as an element of a pattern, with default value or in parentheses), the operand of `++`/`--`, or the
left side of for-in/for-of.  Missing: names in shorthand properties, and declared names; there the claim is false,
see `C09_refuted`. -/
theorem C09_strict_targets_partial [Env] {source : Str} {t : Node} {p : List Item} {r : Role} {n : Node}
    {name : Str} {att : ATT} {sp : Span} (ht : Accepted source t) (hs : StrictPath p)
    (hp : PathTo t p (.node r n)) (hr : r = .target ∨ r = .asgElem ∨ r = .forLeft)
    (hn : Parens n (.identifier name att sp)) : name ≠ cs!"eval" ∧ name ≠ cs!"arguments" := by
  have hf := ht.fits hp
  rw [strict_iff.mpr hs] at hf
  have : SimpleTarget true n := by
    rcases hr with rfl | rfl | rfl
    · rcases hf with h | h
      · exact h
      · cases hn <;> simp [isAsgPattern] at h
    · rcases hf with h | h | h
      · exact h
      · cases hn <;> simp [isAsgPattern] at h
      · cases hn <;> simp [isAsgDefault] at h
    · rcases hf with h | h | h
      · exact h
      · cases hn <;> simp [isAsgPattern] at h
      · cases hn <;> simp [isDeclaredPattern] at h
  have := this.name hn
  simpa [EvalOrArguments, not_or] using this

/-- the hypotheses are met -/
example : letI := ascii; ∃ t p n att sp att' sp', Accepted cs!"class A { m() { (n) = 1 } }" t ∧ StrictPath p ∧
    PathTo t p (.node .target (.sequenceExpression [.identifier n att sp] att' sp')) := by
  letI := ascii
  obtain ⟨t, p, it, h1, h2, h3⟩ := hasP_path (e := parseScript cs!"class A { m() { (n) = 1 } }")
    (test := fun | p, .node .target (.sequenceExpression [.identifier ..] ..) => p.any Item.startsStrict | _, _ => false)
    (by decide +kernel)
  split at h3
  · exact ⟨t, p, _, _, _, _, _, .inl h1, by simpa [StrictPath] using h3, h2⟩
  · cases h3
/-- C09 for `++` and `--`. -/
theorem C09_strict_update_partial [Env] {source : Str} {t : Node} {p : List Item} {r : Role} {op : Str} {a : Node}
    {pre : Bool} {att' : ATT} {sp' : Span} {name : Str} {att : ATT} {sp : Span} (ht : Accepted source t)
    (hs : StrictPath p) (hp : PathTo t p (.node r (.updateExpression op a pre att' sp')))
    (hn : Parens a (.identifier name att sp)) : name ≠ cs!"eval" ∧ name ≠ cs!"arguments" := by
  have h : _ ∧ SimpleTarget (pathCtx p).strict a := ht.nodeOk hp
  rw [strict_iff.mpr hs] at h
  simpa [EvalOrArguments, not_or] using h.2.name hn

/-- the hypotheses are met -/
example : letI := ascii; ∃ t p r op n att sp pre att' sp', Accepted cs!"'use strict'; n++" t ∧ StrictPath p ∧
    PathTo t p (.node r (.updateExpression op (.identifier n att sp) pre att' sp')) := by
  letI := ascii
  obtain ⟨t, p, it, h1, h2, h3⟩ := hasP_path (e := parseScript cs!"'use strict'; n++")
    (test := fun | p, .node _ (.updateExpression _ (.identifier ..) ..) => p.any Item.startsStrict | _, _ => false)
    (by decide +kernel)
  split at h3
  · exact ⟨t, p, _, _, _, _, _, _, _, _, .inl h1, by simpa [StrictPath] using h3, h2⟩
  · cases h3
/-- C09, the part that fails: strict code that declares or assigns `eval` is accepted. -/
theorem C09_refuted : letI := ascii;
    (result? (parseScript cs!"'use strict'; var eval = 1")).isSome = true ∧
    (result? (parseScript cs!"'use strict'; function f(eval) {}")).isSome = true ∧
    (result? (parseScript cs!"'use strict'; ({eval} = a)")).isSome = true ∧
    (result? (parseScript cs!"'use strict'; eval = 1")).isSome = false := by decide +kernel

/-- C14: a template has one quasi more than substitutions; exactly the last quasi is marked as tail. -/
theorem C14_template_literals [Env] {source : Str} {t : Node} {p : List Item} {r : Role} {qs : List TemplateElement}
    {es : List Node} {att : ATT} {sp : Span} (ht : Accepted source t)
    (hp : PathTo t p (.node r (.templateLiteral qs es att sp))) :
    qs.length = es.length + 1 ∧ ∀ i q, qs[i]? = some q → (q.tail = true ↔ i + 1 = qs.length) := ht.nodeOk hp

/-- the hypotheses are met -/
example : letI := ascii; ∃ t p r q1 q2 e att sp, Accepted cs!"`a${b}c`" t ∧ PathTo t p (.node r (.templateLiteral [q1, q2] [e] att sp)) := by
  letI := ascii
  obtain ⟨t, p, it, h1, h2, h3⟩ := has_path (e := parseScript cs!"`a${b}c`")
    (test := fun | .node _ (.templateLiteral [_, _] [_] ..) => true | _ => false) (by decide +kernel)
  split at h3 <;> simp at h3
  exact ⟨t, p, _, _, _, _, _, _, .inl h1, h2⟩
/-- C14 for tagged templates. -/
theorem C14_tagged_templates [Env] {source : Str} {t : Node} {p : List Item} {r : Role} {tag : Node}
    {qs : List TemplateElement} {es : List Node} {sp : Span} (ht : Accepted source t)
    (hp : PathTo t p (.node r (.taggedTemplateExpression tag qs es sp))) :
    qs.length = es.length + 1 ∧ ∀ i q, qs[i]? = some q → (q.tail = true ↔ i + 1 = qs.length) := by
  have h : _ ∧ _ := ht.nodeOk hp
  exact h.2

/-- the hypotheses are met -/
example : letI := ascii; ∃ t p r tag q1 q2 e sp, Accepted cs!"f`a${b}c`" t ∧ PathTo t p (.node r (.taggedTemplateExpression tag [q1, q2] [e] sp)) := by
  letI := ascii
  obtain ⟨t, p, it, h1, h2, h3⟩ := has_path (e := parseScript cs!"f`a${b}c`")
    (test := fun | .node _ (.taggedTemplateExpression _ [_, _] [_] _) => true | _ => false) (by decide +kernel)
  split at h3 <;> simp at h3
  exact ⟨t, p, _, _, _, _, _, _, .inl h1, h2⟩
end Giron

import Verif.Thm.Path
/-
Patterns, names and slots in accepted programs.
-/
set_option maxRecDepth 20000
namespace Giron
open Spec Parser

/-! ### C10: rest elements -/

/-- Index form of "only the last one". -/
theorem restLast_iff {α : Type} {f : α → Bool} : ∀ {l : List α},
    RestLast f l ↔ ∀ i a, l[i]? = some a → f a = true → i + 1 = l.length
  | [] => by simp [RestLast]
  | [a] => by
    simp only [RestLast, true_iff]
    intro i b h _
    cases i <;> simp at h ⊢
  | a :: b :: l => by
    simp only [RestLast, restLast_iff (l := b :: l)]
    constructor
    · rintro ⟨h1, h2⟩ i x hx hf
      cases i with
      | zero => simp at hx; subst hx; simp [h1] at hf
      | succ i => simpa using h2 i x (by simpa using hx) hf
    · intro h
      constructor
      · cases hf : f a with
        | false => rfl
        | true => simpa using h 0 a rfl hf
      · intro i x hx hf
        simpa using h (i + 1) x (by simpa using hx) hf

/-- C10: in the array patterns, object patterns and parameter lists at `it`, a rest element is the last element. -/
def RestOk : Item → Prop
  | .node _ (.arrayPattern es _ _) => ∀ i b, es[i]? = some (some (.restElement b)) → i + 1 = es.length
  | .node _ (.arrayAssignmentPattern es _ _) => ∀ i b, es[i]? = some (some (.restElement b)) → i + 1 = es.length
  | .node _ (.objectPattern ps _ _) => ∀ i b, ps[i]? = some (.restElement b) → i + 1 = ps.length
  | .node _ (.arrowFunctionExpression _ ps _ _ _ _ _ _) => ∀ i b, ps[i]? = some (.restElement b) → i + 1 = ps.length
  | .node _ (.asyncArrowFunctionExpression _ ps _ _ _ _ _ _) => ∀ i b, ps[i]? = some (.restElement b) → i + 1 = ps.length
  | .node _ (.functionExpression _ ps _ _ _ _ _ _) => ∀ i b, ps[i]? = some (.restElement b) → i + 1 = ps.length
  | .node _ (.functionDeclaration _ ps _ _ _ _ _) => ∀ i b, ps[i]? = some (.restElement b) → i + 1 = ps.length
  | .fn (.mk _ ps _ _ _ _) => ∀ i b, ps[i]? = some (.restElement b) → i + 1 = ps.length
  | .binding _ (.arrayPattern es _) => ∀ i b, es[i]? = some (some (.restElement b)) → i + 1 = es.length
  | .binding _ (.objectPattern ps _) => ∀ i b, ps[i]? = some (.restElement b) → i + 1 = ps.length
  | .arrPat _ (.arrayPattern es) => ∀ i b, es[i]? = some (some (.restElement b)) → i + 1 = es.length
  | .arrPat _ (.objectPattern ps) => ∀ i b, ps[i]? = some (.restElement b) → i + 1 = ps.length
  | .patVal _ (.bindingPattern (.arrayPattern es)) => ∀ i b, es[i]? = some (some (.restElement b)) → i + 1 = es.length
  | .patVal _ (.bindingPattern (.objectPattern ps)) => ∀ i b, ps[i]? = some (.restElement b) → i + 1 = ps.length
  | .param _ (.arrayPattern es) => ∀ i b, es[i]? = some (some (.restElement b)) → i + 1 = es.length
  | .param _ (.objectPattern ps) => ∀ i b, ps[i]? = some (.restElement b) → i + 1 = ps.length
  | _ => True

theorem ElemsOk.idx {es : List (Option ArrayPatternElement)} (h : ElemsOk es) (i : Nat) (b : Binding)
    (hi : es[i]? = some (some (.restElement b))) : i + 1 = es.length := restLast_iff.mp h i _ hi rfl
theorem AsgOk.idx {es : List (Option ArrayAssignmentPatternElement)} (h : RestLast isAsgRest es) (i : Nat) (b : Binding)
    (hi : es[i]? = some (some (.restElement b))) : i + 1 = es.length := restLast_iff.mp h i _ hi rfl
theorem PropsOk.idx {ps : List ObjectPatternProperty} (h : PropsOk ps) (i : Nat) (b : Binding)
    (hi : ps[i]? = some (.restElement b)) : i + 1 = ps.length := restLast_iff.mp h i _ hi rfl
theorem ParamsOk.idx {ps : List FunctionParameter} (h : ParamsOk ps) (i : Nat) (b : Binding)
    (hi : ps[i]? = some (.restElement b)) : i + 1 = ps.length := restLast_iff.mp h i _ hi rfl

/-- C10: rest elements come last, everywhere. -/
theorem C10_rest_last [Env] {source : Str} {t : Node} {p : List Item} {it : Item} (ht : Accepted source t)
    (hp : PathTo t p it) : RestOk it := by
  have h := ht.local hp
  cases it with
  | node r n =>
    have h := h.2.1
    cases n <;> first
      | trivial
      | exact ElemsOk.idx h
      | exact AsgOk.idx h
      | exact PropsOk.idx h
      | exact ParamsOk.idx h
      | exact ParamsOk.idx h.1
  | binding m b =>
    cases b with
    | arrayPattern es sp => exact ElemsOk.idx h.1
    | objectPattern ps sp => exact PropsOk.idx h
    | _ => trivial
  | arrPat m e =>
    cases e with
    | arrayPattern es => exact ElemsOk.idx h
    | objectPattern es => exact PropsOk.idx h
    | _ => trivial
  | patVal m v =>
    cases v with
    | bindingPattern b =>
      cases b with
      | arrayPattern es => exact ElemsOk.idx h.2
      | objectPattern es => exact PropsOk.idx h.2
    | _ => trivial
  | param m e =>
    cases e with
    | arrayPattern es => exact ElemsOk.idx h
    | objectPattern es => exact PropsOk.idx h
    | _ => trivial
  | fn f => cases f; exact ParamsOk.idx h.1
  | _ => trivial

/-- the hypotheses are met -/
example : letI := ascii; ∃ t p m a b, Accepted cs!"var [x, [y, ...z]] = w" t ∧ PathTo t p (.arrPat m (.arrayPattern [a, some (.restElement b)])) := by
  letI := ascii
  obtain ⟨t, p, it, h1, h2, h3⟩ := has_path (e := parseScript cs!"var [x, [y, ...z]] = w")
    (test := fun | .arrPat _ (.arrayPattern [_, some (.restElement _)]) => true | _ => false) (by decide +kernel)
  split at h3 <;> simp at h3
  exact ⟨t, p, _, _, _, .inl h1, h2⟩
/-- the hypotheses are met -/
example : letI := ascii; ∃ t p r id a b body x y z att sp, Accepted cs!"(a, ...b) => {}" t ∧ PathTo t p (.node r (.arrowFunctionExpression id [a, .restElement b] body x y z att sp)) := by
  letI := ascii
  obtain ⟨t, p, it, h1, h2, h3⟩ := has_path (e := parseScript cs!"(a, ...b) => {}")
    (test := fun | .node _ (.arrowFunctionExpression _ [_, .restElement _] ..) => true | _ => false) (by decide +kernel)
  split at h3 <;> simp at h3
  exact ⟨t, p, _, _, _, _, _, _, _, _, _, _, .inl h1, h2⟩
/-! ### C17: names -/

/-- The names referred to or bound by a part itself: identifiers in reference or binding position, declared names
(shorthand properties of declared patterns included), labels, import bindings.  Not: property names, and shorthand
properties of object literals and of patterns that were first read as object literals. -/
def namesAt : Item → List Str
  | .node r (.identifier name _ _) => if r.isRef then [name] else []
  | .node _ (.bindingIdentifier name _) => [name]
  | .node _ (.labeledStatement label _ _) => [label.name]
  | .node _ (.importDeclaration specs _ _) => specs.map (fun sp => (importLocal sp).name)
  | .binding _ (.bindingIdentifier name _) => [name]
  | .arrPat _ (.bindingIdentifier name) => [name]
  | .param _ (.bindingIdentifier name) => [name]
  | .patVal _ (.bindingIdentifier name _) => [name]
  | .patProp .declared (.property (.identifier id) _ none _ _ _) => [id.name]
  | _ => []

/-- C17, the part that holds: no reserved word (`yield` and `await` aside) is a reference or a binding.
Missing: shorthand properties of object literals and of patterns first read as such; see `C17_refuted`. -/
theorem C17_names_not_reserved_partial [Env] {source : Str} {t : Node} {p : List Item} {it : Item} {name : Str}
    (ht : Accepted source t) (hp : PathTo t p it) (hn : name ∈ namesAt it) :
    name ∉ reserved ∨ name = cs!"yield" ∨ name = cs!"await" := by
  have h := ht.local hp
  change NameOk name
  cases it with
  | node r n =>
    cases n <;> first | (simp [namesAt] at hn; done) | skip
    · have h := h.2.1
      simp only [namesAt, List.mem_singleton] at hn
      subst hn; exact h.1
    · simp only [namesAt] at hn
      split at hn
      · simp only [List.mem_singleton] at hn
        subst hn
        exact (h.2.2.2 ‹_› _ _ _ rfl).1
      · simp at hn
    · have h := h.2.1
      simp only [namesAt, List.mem_map] at hn
      obtain ⟨sp, hsp, rfl⟩ := hn
      exact h.1 sp hsp
    · have h := h.2.1
      simp only [namesAt, List.mem_singleton] at hn
      subst hn; exact h.1
  | binding m b =>
    cases b <;> simp only [namesAt, List.mem_singleton, List.not_mem_nil] at hn
    subst hn; exact h
  | arrPat m b =>
    cases b <;> simp only [namesAt, List.mem_singleton, List.not_mem_nil] at hn
    subst hn; exact h.1
  | param m b =>
    cases b <;> simp only [namesAt, List.mem_singleton, List.not_mem_nil] at hn
    subst hn; exact h.1
  | patVal m b =>
    cases b <;> simp only [namesAt, List.mem_singleton, List.not_mem_nil] at hn
    subst hn; exact h.2.1
  | patProp m b =>
    unfold namesAt at hn
    split at hn <;> simp_all
    rename_i heq
    obtain ⟨rfl, rfl⟩ := heq
    obtain ⟨id', h1, h2⟩ := h rfl rfl
    cases h1
    exact h2
  | _ => simp [namesAt] at hn

/-- the hypotheses are met -/
example : letI := ascii; ∃ t p r name att sp, Accepted cs!"a + b" t ∧ PathTo t p (.node r (.identifier name att sp)) := by
  letI := ascii
  obtain ⟨t, p, it, h1, h2, h3⟩ := has_path (e := parseScript cs!"a + b")
    (test := fun | .node _ (.identifier _ _ _) => true | _ => false) (by decide +kernel)
  split at h3 <;> simp at h3
  exact ⟨t, p, _, _, _, _, .inl h1, h2⟩
/-- the hypotheses are met -/
example : letI := ascii; ∃ t p id b d e g, Accepted cs!"var {a} = b" t ∧ PathTo t p (.patProp .declared (.property (.identifier id) b none d e g)) := by
  letI := ascii
  obtain ⟨t, p, it, h1, h2, h3⟩ := has_path (e := parseScript cs!"var {a} = b")
    (test := fun | .patProp .declared (.property (.identifier _) _ none _ _ _) => true | _ => false) (by decide +kernel)
  split at h3 <;> simp at h3
  exact ⟨t, p, _, _, _, _, _, .inl h1, h2⟩
/-- C17, the part that fails: shorthand properties are not checked. -/
theorem C17_refuted : letI := ascii;
    (result? (parseScript cs!"({if})")).isSome = true ∧
    (result? (parseScript cs!"({if} = a)")).isSome = true ∧
    (result? (parseScript cs!"({if}) => 1")).isSome = true ∧
    (result? (parseScript cs!"var {if} = a")).isSome = false := by decide +kernel

/-! ### C42: words reserved in strict code -/

/-- The name of a binding that is a single name. -/
def bindingName : Binding → List Str
  | .bindingIdentifier name _ => [name]
  | _ => []

/-- The names referred to or bound by a part itself: references (also labels of `break` and `continue` and names of
function expressions), names of function and class declarations, labels, declared variables, parameters of functions and
catch clauses, elements of patterns with or without default, rest elements, values of pattern properties.  Not: import
bindings, shorthand properties. -/
def strictNamesAt : Item → List Str
  | .node r (.identifier name _ _) => if r.isRef then [name] else []
  | .node _ (.bindingIdentifier name _) => [name]
  | .node _ (.labeledStatement label _ _) => [label.name]
  | .declarator (.mk b _) => bindingName b
  | .catchClause (.mk (some b) _) => bindingName b
  | .param _ (.bindingIdentifier name) => [name]
  | .param _ (.assignmentPattern left _) => bindingName left
  | .param _ (.restElement b) => bindingName b
  | .arrPat _ (.bindingIdentifier name) => [name]
  | .arrPat _ (.assignmentPattern left _) => bindingName left
  | .arrPat _ (.restElement b) => bindingName b
  | .patVal _ (.bindingIdentifier name _) => [name]
  | .patProp .declared (.restElement b) => bindingName b
  | .patProp .arrow (.restElement b) => bindingName b
  | _ => []

theorem BindIn.mem {strict : Bool} {b : Binding} {name : Str} (h : BindIn strict b) (hn : name ∈ bindingName b) :
    NameIn strict name := by
  cases b <;> simp [bindingName] at hn
  subst hn
  exact h _ _ rfl

/-- C42, the part that holds: in strict code (a module, a class, code under a "use strict" directive) none of the words
reserved there is a reference, a label or a declared name.
Missing: shorthand properties and import bindings of the same name; see `C42_refuted`. -/
theorem C42_strict_words_partial [Env] {source : Str} {t : Node} {p : List Item} {it : Item} {name : Str}
    (ht : Accepted source t) (hp : PathTo t p it) (hs : StrictPath p) (hn : name ∈ strictNamesAt it) :
    name ∉ [cs!"implements", cs!"interface", cs!"package", cs!"private", cs!"protected", cs!"public"] := by
  have h := ht.local hp
  refine (show NameIn (pathCtx p).strict name from ?_).2 (strict_iff.2 hs)
  cases it with
  | node r n =>
    cases n <;> first | (simp [strictNamesAt] at hn; done) | skip
    · have h := h.2.1
      simp only [strictNamesAt, List.mem_singleton] at hn
      subst hn; exact h
    · simp only [strictNamesAt] at hn
      split at hn
      · simp only [List.mem_singleton] at hn
        subst hn
        exact h.2.2.2 ‹_› _ _ _ rfl
      · simp at hn
    · have h := h.2.1
      simp only [strictNamesAt, List.mem_singleton] at hn
      subst hn; exact h
  | declarator d =>
    cases d
    exact BindIn.mem h.2 hn
  | catchClause d =>
    obtain ⟨o, b⟩ := d
    cases o with
    | none => simp [strictNamesAt] at hn
    | some b => exact BindIn.mem (h b rfl).2 hn
  | arrPat m b =>
    cases b <;> simp only [strictNamesAt, List.mem_singleton, List.not_mem_nil] at hn
    · exact BindIn.mem h.2 hn
    · subst hn; exact h
    · exact BindIn.mem h.2 hn
  | param m b =>
    cases b <;> simp only [strictNamesAt, List.mem_singleton, List.not_mem_nil] at hn
    · exact BindIn.mem h.2 hn
    · subst hn; exact h
    · exact BindIn.mem h.2 hn
  | patVal m b =>
    cases b <;> simp only [strictNamesAt, List.mem_singleton, List.not_mem_nil] at hn
    subst hn; exact h.2
  | patProp m b =>
    unfold strictNamesAt at hn
    split at hn <;> simp_all
    · rename_i heq
      obtain ⟨rfl, rfl⟩ := heq
      exact BindIn.mem (h.1 (.inl rfl)).2 hn
    · rename_i heq
      obtain ⟨rfl, rfl⟩ := heq
      exact BindIn.mem (h.1 (.inr rfl)).2 hn
  | _ => simp [strictNamesAt] at hn

/-- the hypotheses are met -/
example : letI := ascii; ∃ t p r att sp, Accepted cs!"function f(public) { 'use strict'; return a }" t ∧
    PathTo t p (.node r (.identifier cs!"a" att sp)) ∧ StrictPath p ∧ r.isRef = true := by
  letI := ascii
  obtain ⟨t, p, it, h1, h2, h3⟩ := hasP_path (e := parseScript cs!"function f(public) { 'use strict'; return a }")
    (test := fun q it => q.any Item.startsStrict && match it with
      | .node r (.identifier name _ _) => name == cs!"a" && r.isRef | _ => false) (by decide +kernel)
  simp only [Bool.and_eq_true] at h3
  obtain ⟨h3, h4⟩ := h3
  split at h4 <;> simp at h4
  obtain ⟨h4, h5⟩ := h4
  subst h4
  exact ⟨t, p, _, _, _, .inl h1, h2, strict_iff.1 h3, h5⟩
/-- sloppy code may use the words, strict code may not -/
example : letI := ascii;
    (result? (parseScript cs!"public: private + package")).isSome = true ∧
    (result? (parseScript cs!"'use strict'; public")).isSome = false ∧
    (result? (parseScript cs!"'use strict'; var public")).isSome = false ∧
    (result? (parseScript cs!"'use strict'; public: a")).isSome = false ∧
    (result? (parseScript cs!"class public {}")).isSome = false ∧
    (result? (parseModule cs!"function f(public) {}")).isSome = false := by decide +kernel
/-- C42, the part that fails: shorthand properties and import bindings of the same name are not checked. -/
theorem C42_refuted : letI := ascii;
    (result? (parseScript cs!"'use strict'; var {public} = a")).isSome = true ∧
    (result? (parseScript cs!"'use strict'; var {public = 1} = a")).isSome = true ∧
    (result? (parseScript cs!"'use strict'; ({public}) => 1")).isSome = true ∧
    (result? (parseModule cs!"import {public} from 'm'")).isSome = true := by decide +kernel

/-! ### C18: slots -/

/-- C18: every slot of every node holds a node of the category that the slot demands (`Fits`; the categories are
`isExpr`, `isStmt`, ... of the specification). -/
theorem C18_slots [Env] {source : Str} {t : Node} {p : List Item} {r : Role} {n : Node} (ht : Accepted source t)
    (hp : PathTo t p (.node r n)) : Fits false r n := by
  have h := ht.fits hp
  cases r <;> first | exact h | skip
  · rcases h with h | h
    · exact .inl (h.mono (by simp))
    · exact .inr h
  · rcases h with h | h
    · exact .inl (h.mono (by simp))
    · exact .inr h
  · rcases h with h | h
    · exact .inl (h.mono (by simp))
    · exact .inr h

/-- the hypotheses are met -/
example : letI := ascii; ∃ t p r n, Accepted cs!"if (a) b; else while (c) { d }" t ∧ PathTo t p (.node r n) := by
  letI := ascii
  obtain ⟨t, p, it, h1, h2, h3⟩ := has_path (e := parseScript cs!"if (a) b; else while (c) { d }")
    (test := fun | .node _ _ => true | _ => false) (by decide +kernel)
  split at h3 <;> simp at h3
  exact ⟨t, p, _, _, .inl h1, h2⟩
/-- C18: in declarations, parameters and catch clauses there are bindings only, no expressions to assign to. -/
theorem C18_declared_bindings [Env] {source : Str} {t : Node} {p : List Item} (ht : Accepted source t) :
    (∀ b, PathTo t p (.binding .declared b) → ∀ n, b ≠ .expression n) ∧
    (∀ v, PathTo t p (.patVal .declared v) →
      (∃ l rt, v = .assignmentPattern l rt) ∨ (∃ name sp, v = .bindingIdentifier name sp) ∨ ∃ b, v = .bindingPattern b) ∧
    (∀ b init, PathTo t p (.declarator (.mk b init)) → ∀ n, b ≠ .expression n) := by
  refine ⟨?_, ?_, ?_⟩
  · rintro b hp n rfl
    have h := ht.local hp
    simp [Local] at h
  · intro v hp
    have h := ht.local hp
    cases v <;> simp_all [Local]
  · rintro b init hp n rfl
    have h := ht.local (hp.step (k := .binding .declared (.expression n)) (by simp [children]))
    simp [Local] at h

/-- the hypotheses are met -/
example : letI := ascii; ∃ t p b, Accepted cs!"try {} catch ([a, ...b]) {}" t ∧ PathTo t p (.binding .declared b) := by
  letI := ascii
  obtain ⟨t, p, it, h1, h2, h3⟩ := has_path (e := parseScript cs!"try {} catch ([a, ...b]) {}")
    (test := fun | .binding .declared _ => true | _ => false) (by decide +kernel)
  split at h3 <;> simp at h3
  exact ⟨t, p, _, .inl h1, h2⟩
/-- C18: the value of a property of an object literal is an expression or a function, or the property is a
shorthand. -/
theorem C18_property_values [Env] {source : Str} {t : Node} {p : List Item} (ht : Accepted source t) :
    (∀ v, PathTo t p (.propVal v) → (∃ n, v = .expression n ∧ isExpr n = true) ∨ (∃ f, v = .functionExpression f) ∨
      ∃ f, v = .asyncFunctionExpression f) ∧
    (∀ k c v kind m sh sp, PathTo t p (.prop (.property k c v kind m sh sp)) →
      (kind = cs!"init" ∨ kind = cs!"get" ∨ kind = cs!"set") ∧ (v = none → sh = true)) := by
  constructor
  · intro v hp
    have h := ht.local hp
    cases v with
    | expression n =>
      exact .inl ⟨n, rfl, ht.fits (hp.step (k := .node .expr n) (by simp [children, exprs]))⟩
    | _ => simp_all [Local]
  · intro k c v kind m sh sp hp
    have h := ht.local hp
    simp only [Local] at h
    exact ⟨by simpa [propKinds] using h.2.1, h.2.2⟩

/-- the hypotheses are met -/
example : letI := ascii; ∃ t p v, Accepted cs!"({a: 1, b() {}, c})" t ∧ PathTo t p (.propVal v) := by
  letI := ascii
  obtain ⟨t, p, it, h1, h2, h3⟩ := has_path (e := parseScript cs!"({a: 1, b() {}, c})")
    (test := fun | .propVal _ => true | _ => false) (by decide +kernel)
  split at h3 <;> simp at h3
  exact ⟨t, p, _, .inl h1, h2⟩
/-! ### C35: declared names -/

/-- C35: names of functions, classes and labels, and parameters of catch clauses, are what ESTree demands. -/
theorem C35_declared_names [Env] {source : Str} {t : Node} {p : List Item} (ht : Accepted source t) :
    (∀ r id ps body a b c sp, PathTo t p (.node r (.functionDeclaration (some id) ps body a b c sp)) →
      ∃ name sp', id = .bindingIdentifier name sp' ∧ NameOk name) ∧
    (∀ r id ps body a b c att sp, PathTo t p (.node r (.functionExpression (some id) ps body a b c att sp)) →
      ∃ name att' sp', id = .identifier name att' sp' ∧ NameOk name) ∧
    (∀ r id sup body sp, PathTo t p (.node r (.classDeclaration (some id) sup body sp)) →
      ∃ name sp', id = .bindingIdentifier name sp' ∧ NameOk name) ∧
    (∀ r id sp, PathTo t p (.node r (.breakStatement (some id) sp)) →
      ∃ name att' sp', id = .identifier name att' sp' ∧ NameOk name) ∧
    (∀ r id sp, PathTo t p (.node r (.continueStatement (some id) sp)) →
      ∃ name att' sp', id = .identifier name att' sp' ∧ NameOk name) ∧
    (∀ b body, PathTo t p (.catchClause (.mk (some b) body)) → ∀ n, b ≠ .expression n) := by
  have bindId : ∀ {p : List Item} {id : Node}, PathTo t p (.node .bindId id) →
      ∃ name sp', id = .bindingIdentifier name sp' ∧ NameOk name := by
    intro p id hp
    have h := ht.fits hp
    have h2 := ht.nodeOk hp
    cases id <;> simp [Fits, isBindId] at h
    exact ⟨_, _, rfl, h2.1⟩
  have nameId : ∀ {p : List Item} {id : Node}, PathTo t p (.node .nameId id) →
      ∃ name att sp', id = .identifier name att sp' ∧ NameOk name := by
    intro p id hp
    have h := ht.fits hp
    have h2 := (ht.local hp).2.2.2 rfl
    cases id <;> simp [Fits, isIdent] at h
    exact ⟨_, _, _, rfl, (h2 _ _ _ rfl).1⟩
  refine ⟨?_, ?_, ?_, ?_, ?_, ?_⟩
  · intro r id ps body a b c sp hp
    exact bindId (hp.step (by simp [children, nodeParts, fnParts, optNode]))
  · intro r id ps body a b c att sp hp
    exact nameId (hp.step (by simp [children, nodeParts, fnParts, optNode]))
  · intro r id sup body sp hp
    exact bindId (hp.step (by simp [children, nodeParts, classParts, optNode]))
  · intro r id sp hp
    exact nameId (hp.step (by simp [children, nodeParts, optNode]))
  · intro r id sp hp
    exact nameId (hp.step (by simp [children, nodeParts, optNode]))
  · rintro b body hp n rfl
    have h := ht.local hp
    simp [Local, isBinding] at h

/-- the hypotheses are met -/
example : letI := ascii; ∃ t p r id ps body a b c sp, Accepted cs!"function f(){}" t ∧ PathTo t p (.node r (.functionDeclaration (some id) ps body a b c sp)) := by
  letI := ascii
  obtain ⟨t, p, it, h1, h2, h3⟩ := has_path (e := parseScript cs!"function f(){}")
    (test := fun | .node _ (.functionDeclaration (some _) _ _ _ _ _ _) => true | _ => false) (by decide +kernel)
  split at h3 <;> simp at h3
  exact ⟨t, p, _, _, _, _, _, _, _, _, .inl h1, h2⟩
/-- the hypotheses are met -/
example : letI := ascii; ∃ t p r id sp, Accepted cs!"while (a) break b" t ∧ PathTo t p (.node r (.breakStatement (some id) sp)) := by
  letI := ascii
  obtain ⟨t, p, it, h1, h2, h3⟩ := has_path (e := parseScript cs!"while (a) break b")
    (test := fun | .node _ (.breakStatement (some _) _) => true | _ => false) (by decide +kernel)
  split at h3 <;> simp at h3
  exact ⟨t, p, _, _, _, .inl h1, h2⟩
/-! ### C40: arrow parameters -/

/-- C40, the part that holds: the parameters of an arrow function are names, patterns, names or patterns with
default value, or a rest of these, and nothing in these patterns is an expression to assign to — as long as one does
not go into the `p` of some `p = default`.  Missing: that `p` was read as the left side of an assignment, and is kept
as it was; see `C40_refuted`. -/
theorem C40_arrow_parameters_partial [Env] {source : Str} {t : Node} {p : List Item} (ht : Accepted source t) :
    (∀ l rt, PathTo t p (.param .arrow (.assignmentPattern l rt)) → ∀ n, l ≠ .expression n) ∧
    (∀ b, PathTo t p (.param .arrow (.restElement b)) → ∀ n, b ≠ .expression n) ∧
    (∀ b, PathTo t p (.binding .arrow b) → ∀ n, b ≠ .expression n) ∧
    (∀ l rt, PathTo t p (.arrPat .arrow (.assignmentPattern l rt)) → ∀ n, l ≠ .expression n) ∧
    (∀ v, PathTo t p (.patVal .arrow v) →
      (∃ l rt, v = .assignmentPattern l rt ∧ ∀ n, l ≠ .expression n) ∨ (∃ name sp, v = .bindingIdentifier name sp) ∨
        ∃ b, v = .bindingPattern b) := by
  refine ⟨?_, ?_, ?_, ?_, ?_⟩
  · rintro l rt hp n rfl
    have h := ht.local hp
    simp [Local, isBinding] at h
  · rintro b hp n rfl
    have h := ht.local hp
    simp [Local, isBinding] at h
  · rintro b hp n rfl
    have h := ht.local hp
    simp [Local] at h
  · rintro l rt hp n rfl
    have h := ht.local hp
    simp [Local, isBinding] at h
  · intro v hp
    have h := ht.local hp
    cases v with
    | assignmentPattern l rt =>
      refine .inl ⟨_, _, rfl, ?_⟩
      rintro n rfl
      simp [Local, isBinding] at h
    | _ => simp_all [Local]

/-- the hypotheses are met -/
example : letI := ascii; ∃ t p v, Accepted cs!"({a: [b]}) => 1" t ∧ PathTo t p (.patVal .arrow v) := by
  letI := ascii
  obtain ⟨t, p, it, h1, h2, h3⟩ := has_path (e := parseScript cs!"({a: [b]}) => 1")
    (test := fun | .patVal .arrow _ => true | _ => false) (by decide +kernel)
  split at h3 <;> simp at h3
  exact ⟨t, p, _, .inl h1, h2⟩
/-- C40, the part that fails: a member expression as a "parameter". -/
theorem C40_refuted : letI := ascii;
    ∃ t p att sp b o q, Accepted cs!"({a: b.c} = 1) => x" t ∧
      (∃ l rt, .param .arrow (.assignmentPattern l rt) ∈ p) ∧
      PathTo t p (.node .asgElem (.staticMemberExpression b o q att sp)) := by
  letI := ascii
  obtain ⟨t, p, it, h1, h2, h3⟩ := hasP_path (e := parseScript cs!"({a: b.c} = 1) => x")
    (test := fun | p, .node .asgElem (.staticMemberExpression ..) =>
                     p.any (fun | .param .arrow (.assignmentPattern ..) => true | _ => false)
                 | _, _ => false) (by decide +kernel)
  split at h3
  · simp only [List.any_eq_true] at h3
    obtain ⟨x, h4, h5⟩ := h3
    split at h5
    · exact ⟨t, p, _, _, _, _, _, .inl h1, ⟨_, _, h4⟩, h2⟩
    · cases h5
  · cases h3

/-! ### C16: import and export -/

/-- C16: import and export declarations are items of a module, at its top level. -/
theorem C16_import_export_top_level [Env] {source : Str} {t : Node} {p : List Item} {r : Role} {n : Node}
    (ht : Accepted source t) (hp : PathTo t p (.node r n)) (hn : isImportExport n = true) :
    parseModule source = .ok t ∧ ∃ body sp, t = .program body cs!"module" sp ∧ n ∈ body ∧
      p = [.node .program t, .node .moduleItem n] := by
  have hr : r = .moduleItem := by
    have := ht.fits hp
    have h1 : ¬ SimpleTarget (pathCtx p).strict n := by rintro ⟨⟩ <;> simp [isImportExport] at hn
    cases n <;> simp [isImportExport] at hn <;> cases r <;>
      simp_all [Fits, isExpr, isStmt, isSub, isDecl, isFunctionDecl, isBlock, isAsgPattern, isAsgDefault,
        isDeclaredPattern, isBindId, isIdent, isSuper, isProgram]
  subst hr
  have hprog : ∀ {q : List Item} {a : Item}, PathTo t q a → ∀ {r : Role} {body ty sp}, a = .node r (.program body ty sp) →
      q = [.node .program t] ∧ t = .program body ty sp := by
    rintro q a hq r body ty sp rfl
    have hf := ht.fits hq
    have hr : r = .program := by
      have h1 : ¬ SimpleTarget (pathCtx q).strict (.program body ty sp) := by rintro ⟨⟩
      cases r <;>
      simp_all [Fits, isExpr, isStmt, isSub, isDecl, isFunctionDecl, isBlock, isAsgPattern, isAsgDefault,
        isDeclaredPattern, isBindId, isIdent, isSuper, isProgram, isImportExport]
    subst hr
    rcases hq.parent with ⟨h1, h2⟩ | ⟨q', a', -, -, h2⟩
    · cases h2; exact ⟨h1, rfl⟩
    · exfalso
      cases a' with
      | node r n =>
        cases n <;> simp [children, nodeParts, exprs, optNode, fnParts, classParts, arrPats, patProps] at h2
        all_goals (try split at h2) <;> simp at h2
      | binding m b => cases b <;> simp [children, arrPats, patProps] at h2
      | arrElem e => cases e <;> simp [children, exprs] at h2
      | arrPat m e => cases e <;> simp [children, arrPats, patProps] at h2
      | arrAsg e => cases e <;> simp [children] at h2
      | key e => cases e <;> simp [children, exprs] at h2
      | fn f => cases f; simp [children, fnParts, optNode] at h2
      | propVal v => cases v <;> simp [children, exprs] at h2
      | patVal m v =>
        cases v <;> simp [children] at h2
        rename_i b; cases b <;> simp [arrPats, patProps] at h2
      | patProp m v => cases v <;> simp [children] at h2
      | param m v => cases v <;> simp [children, arrPats, patProps] at h2
      | arg v => cases v <;> simp [children, exprs] at h2
      | prop v => cases v <;> simp [children, exprs] at h2
      | method v => cases v; simp [children] at h2
      | case v => cases v; simp [children, optNode] at h2
      | declarator v => cases v; simp [children, optNode] at h2
      | catchClause v => cases v; simp [children] at h2
  have hmod : ∀ {q : List Item} {r body a sp}, ¬ PathTo t q (.node r (.moduleNode body a sp)) := by
    intro q r body a sp hq
    have hf := ht.fits hq
    have h1 : ¬ SimpleTarget (pathCtx q).strict (.moduleNode body a sp) := by rintro ⟨⟩
    cases r <;>
      simp_all [Fits, isExpr, isStmt, isSub, isDecl, isFunctionDecl, isBlock, isAsgPattern, isAsgDefault,
        isDeclaredPattern, isBindId, isIdent, isSuper, isProgram, isImportExport]
  rcases hp.parent with ⟨h1, h2⟩ | ⟨q, a, h0, h1, h2⟩
  · cases h2
  · have : ∃ r body sp, a = .node r (.program body cs!"module" sp) ∧ n ∈ body := by
      cases a with
      | node r n =>
        cases n <;> simp [children, nodeParts, exprs, optNode, fnParts, classParts, arrPats, patProps] at h2
        all_goals (try split at h2) <;> (try simp at h2)
        · exact absurd h1 hmod
        · obtain ⟨h2, rfl⟩ := h2
          exact ⟨_, _, _, rfl, h2⟩
      | binding m b => cases b <;> simp [children, arrPats, patProps] at h2
      | arrElem e => cases e <;> simp [children, exprs] at h2
      | arrPat m e => cases e <;> simp [children, arrPats, patProps] at h2
      | arrAsg e => cases e <;> simp [children] at h2
      | key e => cases e <;> simp [children, exprs] at h2
      | fn f => cases f; simp [children, fnParts, optNode] at h2
      | propVal v => cases v <;> simp [children, exprs] at h2
      | patVal m v =>
        cases v <;> simp [children] at h2
        rename_i b; cases b <;> simp [arrPats, patProps] at h2
      | patProp m v => cases v <;> simp [children] at h2
      | param m v => cases v <;> simp [children, arrPats, patProps] at h2
      | arg v => cases v <;> simp [children, exprs] at h2
      | prop v => cases v <;> simp [children, exprs] at h2
      | method v => cases v; simp [children] at h2
      | case v => cases v; simp [children, optNode] at h2
      | declarator v => cases v; simp [children, optNode] at h2
      | catchClause v => cases v; simp [children] at h2
    obtain ⟨r, body, sp, rfl, hb⟩ := this
    obtain ⟨hq, rfl⟩ := hprog h1 rfl
    refine ⟨?_, body, sp, rfl, hb, by rw [h0, hq]; rfl⟩
    rcases ht with ht | ht
    · obtain ⟨_, _, h⟩ := (script_wf ht).2
      simp at h
    · exact ht

/-- the hypotheses are met -/
example : letI := ascii; ∃ t p r a b c, Accepted cs!"import {x as y} from 'm'" t ∧ PathTo t p (.node r (.importDeclaration a b c)) := by
  letI := ascii
  obtain ⟨t, p, it, h1, h2, h3⟩ := has_path (e := parseModule cs!"import {x as y} from 'm'")
    (test := fun | .node _ (.importDeclaration _ _ _) => true | _ => false) (by decide +kernel)
  split at h3 <;> simp at h3
  exact ⟨t, p, _, _, _, _, .inr h1, h2⟩
/-- the hypotheses are met -/
example : letI := ascii; ∃ t p r a b c d, Accepted cs!"export var a = 1" t ∧ PathTo t p (.node r (.exportNamedDeclaration a b c d)) := by
  letI := ascii
  obtain ⟨t, p, it, h1, h2, h3⟩ := has_path (e := parseModule cs!"export var a = 1")
    (test := fun | .node _ (.exportNamedDeclaration _ _ _ _) => true | _ => false) (by decide +kernel)
  split at h3 <;> simp at h3
  exact ⟨t, p, _, _, _, _, _, .inr h1, h2⟩
/-- C16: a script has no import or export declaration at all. -/
theorem C16_not_in_scripts [Env] {source : Str} {t : Node} {p : List Item} {r : Role} {n : Node}
    (ht : parseScript source = .ok t) (hn : isImportExport n = true) : ¬ PathTo t p (.node r n) := by
  intro hp
  obtain ⟨_, body, sp, h, -⟩ := C16_import_export_top_level (.inl ht) hp hn
  obtain ⟨_, _, h'⟩ := (script_wf ht).2
  rw [h] at h'
  simp at h'

/-- the hypotheses are met -/
example : letI := ascii; ∃ t, parseScript cs!"a; { b }" = .ok t := by
  letI := ascii
  obtain ⟨t, p, it, h1, h2, h3⟩ := has_path (e := parseScript cs!"a; { b }") (test := fun _ => true) (by decide +kernel)
  exact ⟨t, h1⟩
end Giron

import Verif.Thm.Path
/-
Properties of the statements in accepted programs.
-/
set_option maxRecDepth 20000
namespace Giron
open Spec Parser

/-- C04: every `return` lies inside the braced body of a function, arrow function or method. -/
theorem C04_return_inside_function_body [Env] {source : Str} {t : Node} {p : List Item} {r : Role}
    {arg : Option Node} {sp : Span} (ht : Accepted source t) (hp : PathTo t p (.node r (.returnStatement arg sp))) :
    ∃ it ∈ p, it.isFnBody = true := by
  have h := ht.nodeOk hp
  simpa [NodeOk, pathCtx] using h

/-- the hypotheses are met -/
example : letI := ascii; ∃ t p r a sp, Accepted cs!"function f(){ if (a) { while (b) return 1 } }" t ∧ PathTo t p (.node r (.returnStatement a sp)) := by
  letI := ascii
  obtain ⟨t, p, it, h1, h2, h3⟩ := has_path (e := parseScript cs!"function f(){ if (a) { while (b) return 1 } }")
    (test := fun | .node _ (.returnStatement _ _) => true | _ => false) (by decide +kernel)
  split at h3 <;> simp at h3
  exact ⟨t, p, _, _, _, .inl h1, h2⟩

/-- C05: every `continue` without label lies inside the body of a loop, every `break` without label inside the body
of a loop or inside a switch statement.  (Labels are not resolved by the code, and a loop or switch around the
enclosing function counts: see `C05_not_reset_by_functions`.) -/
theorem C05_break_continue_inside [Env] {source : Str} {t : Node} {p : List Item} {r : Role} {sp : Span}
    (ht : Accepted source t) :
    (PathTo t p (.node r (.continueStatement none sp)) → ∃ it ∈ p, it.isLoopBody = true) ∧
    (PathTo t p (.node r (.breakStatement none sp)) → ∃ it ∈ p, it.isLoopBody = true ∨ it.isSwitch = true) := by
  constructor <;> intro hp <;> have h := ht.nodeOk hp
  · simpa [NodeOk, pathCtx] using h
  · simp only [NodeOk, pathCtx, Option.isNone_none, forall_const, List.any_eq_true] at h
    rcases h with ⟨it, h1, h2⟩ | ⟨it, h1, h2⟩
    · exact ⟨it, h1, .inl h2⟩
    · exact ⟨it, h1, .inr h2⟩

/-- the hypotheses are met -/
example : letI := ascii; ∃ t p r sp, Accepted cs!"while (a) { b: { continue } }" t ∧ PathTo t p (.node r (.continueStatement none sp)) := by
  letI := ascii
  obtain ⟨t, p, it, h1, h2, h3⟩ := has_path (e := parseScript cs!"while (a) { b: { continue } }")
    (test := fun | .node _ (.continueStatement none _) => true | _ => false) (by decide +kernel)
  split at h3 <;> simp at h3
  exact ⟨t, p, _, _, .inl h1, h2⟩

/-- the hypotheses are met -/
example : letI := ascii; ∃ t p r sp, Accepted cs!"switch (a) { case 1: { break } }" t ∧ PathTo t p (.node r (.breakStatement none sp)) := by
  letI := ascii
  obtain ⟨t, p, it, h1, h2, h3⟩ := has_path (e := parseScript cs!"switch (a) { case 1: { break } }")
    (test := fun | .node _ (.breakStatement none _) => true | _ => false) (by decide +kernel)
  split at h3 <;> simp at h3
  exact ⟨t, p, _, _, .inl h1, h2⟩

/-- the code does not start afresh in functions, and does not look up labels -/
theorem C05_not_reset_by_functions : letI := ascii;
    (result? (parseScript cs!"while (a) { b = function () { break } }")).isSome = true ∧
    (result? (parseScript cs!"break nowhere")).isSome = true := by decide +kernel

/-- C06: strict code has no `with` statement. -/
theorem C06_no_with_in_strict_code [Env] {source : Str} {t : Node} {p : List Item} {r : Role} {o b : Node} {sp : Span}
    (ht : Accepted source t) (hp : PathTo t p (.node r (.withStatement o b sp))) : ¬ StrictPath p := by
  have h : (pathCtx p).strict = false := ht.nodeOk hp
  rw [← strict_iff, h]
  simp

/-- the hypotheses are met -/
example : letI := ascii; ∃ t p r o b sp, Accepted cs!"function f(){ 'not strict'; with (a) b }" t ∧ PathTo t p (.node r (.withStatement o b sp)) := by
  letI := ascii
  obtain ⟨t, p, it, h1, h2, h3⟩ := has_path (e := parseScript cs!"function f(){ 'not strict'; with (a) b }")
    (test := fun | .node _ (.withStatement _ _ _) => true | _ => false) (by decide +kernel)
  split at h3 <;> simp at h3
  exact ⟨t, p, _, _, _, _, .inl h1, h2⟩

/-- and strict code is really rejected -/
example : letI := ascii; (result? (parseScript cs!"function f(){ 'use strict'; with (a) b }")) = none := by decide +kernel

/-- C06: a module has no `with` statement at all. -/
theorem C06_no_with_in_modules [Env] {source : Str} {t : Node} {p : List Item} {r : Role} {o b : Node} {sp : Span}
    (ht : parseModule source = .ok t) : ¬ PathTo t p (.node r (.withStatement o b sp)) := by
  intro hp
  refine C06_no_with_in_strict_code (.inr ht) hp ?_
  obtain ⟨body, sp', rfl⟩ := (module_wf ht).2
  refine ⟨.node .program (.program body cs!"module" sp'), ?_, by simp [Item.startsStrict, Node.startsStrict]⟩
  have := hp.root
  exact List.mem_of_mem_head? (by rw [this]; rfl)

/-- the hypothesis is met -/
example : letI := ascii; ∃ t, parseModule cs!"export var a = 1" = .ok t := by
  letI := ascii
  obtain ⟨t, p, it, h1, h2, h3⟩ := has_path (e := parseModule cs!"export var a = 1") (test := fun _ => true)
    (by decide +kernel)
  exact ⟨t, h1⟩

/-- C11: a switch statement has at least one case and at most one `default`. -/
theorem C11_switch_cases [Env] {source : Str} {t : Node} {p : List Item} {r : Role} {d : Node}
    {cases : List SwitchCase} {sp : Span}
    (ht : Accepted source t) (hp : PathTo t p (.node r (.switchStatement d cases sp))) :
    cases ≠ [] ∧ ∀ i j : Nat, ∀ b b' : List Node,
      cases[i]? = some (.mk none b) → cases[j]? = some (.mk none b') → i = j := by
  have h : CasesOk cases := ht.nodeOk hp
  refine ⟨h.1, ?_⟩
  have key : ∀ l : List SwitchCase, (l.filter isDefault).length ≤ 1 → ∀ i j : Nat, ∀ b b' : List Node,
      l[i]? = some (.mk none b) → l[j]? = some (.mk none b') → i = j := by
    intro l
    induction l with
    | nil => intro _ i j b b' h; simp at h
    | cons a l ih =>
      intro hl i j b b' h1 h2
      have hmem : ∀ {k : Nat} {c : List Node}, l[k]? = some (.mk none c) → 0 < (l.filter isDefault).length := by
        intro k c hk
        exact List.length_pos_of_mem (List.mem_filter.mpr ⟨List.mem_of_getElem? hk, rfl⟩)
      cases i with
      | zero =>
        cases j with
        | zero => rfl
        | succ j =>
          simp at h1 h2
          subst h1
          have := hmem h2
          rw [List.filter_cons_of_pos rfl, List.length_cons] at hl
          omega
      | succ i =>
        cases j with
        | zero =>
          simp at h1 h2
          subst h2
          have := hmem h1
          rw [List.filter_cons_of_pos rfl, List.length_cons] at hl
          omega
        | succ j =>
          simp at h1 h2
          refine congrArg _ (ih ?_ i j b b' h1 h2)
          refine Nat.le_trans ?_ hl
          rw [List.filter_cons]
          split <;> simp
  exact key cases h.2

/-- the hypotheses are met -/
example : letI := ascii; ∃ t p r d cases sp, Accepted cs!"switch (a) { case 1: b; default: c; case 2: }" t ∧ PathTo t p (.node r (.switchStatement d cases sp)) := by
  letI := ascii
  obtain ⟨t, p, it, h1, h2, h3⟩ := has_path (e := parseScript cs!"switch (a) { case 1: b; default: c; case 2: }")
    (test := fun | .node _ (.switchStatement _ _ _) => true | _ => false) (by decide +kernel)
  split at h3 <;> simp at h3
  exact ⟨t, p, _, _, _, _, .inl h1, h2⟩

/-- C12: a try statement has a handler or a finalizer; its parts are blocks. -/
theorem C12_try_has_handler_or_finalizer [Env] {source : Str} {t : Node} {p : List Item} {r : Role} {b : Node}
    {handler : Option CatchClause} {finalizer : Option Node} {sp : Span}
    (ht : Accepted source t) (hp : PathTo t p (.node r (.tryStatement b handler finalizer sp))) :
    (handler.isSome ∨ finalizer.isSome) ∧ isBlock b = true ∧ (∀ f, finalizer = some f → isBlock f = true) ∧
      ∀ param body, handler = some (.mk param body) → isBlock body = true := by
  refine ⟨ht.nodeOk hp, ?_, ?_, ?_⟩
  · exact ht.fits (hp.step (k := .node .block b) (by simp [children, nodeParts]))
  · rintro f rfl
    exact ht.fits (hp.step (k := .node .block f) (by simp [children, nodeParts, optNode]))
  · rintro param body rfl
    have h1 := hp.step (k := .catchClause (.mk param body)) (by simp [children, nodeParts])
    exact ht.fits (h1.step (k := .node .block body) (by simp [children]))

/-- the hypotheses are met -/
example : letI := ascii; ∃ t p r b h f sp, Accepted cs!"try { a } catch (e) { b } finally { c }" t ∧ PathTo t p (.node r (.tryStatement b (some h) (some f) sp)) := by
  letI := ascii
  obtain ⟨t, p, it, h1, h2, h3⟩ := has_path (e := parseScript cs!"try { a } catch (e) { b } finally { c }")
    (test := fun | .node _ (.tryStatement _ (some _) (some _) _) => true | _ => false) (by decide +kernel)
  split at h3 <;> simp at h3
  exact ⟨t, p, _, _, _, _, _, .inl h1, h2⟩

/-- C13: a declarator that declares a pattern has an initialiser.  (A declaration at the head of for-in/for-of is
no declarator: the tree has the bare pattern there.) -/
theorem C13_destructuring_initialised [Env] {source : Str} {t : Node} {p : List Item} {b : Binding}
    {init : Option Node} (ht : Accepted source t) (hp : PathTo t p (.declarator (.mk b init)))
    (hb : ∀ name sp, b ≠ .bindingIdentifier name sp) : init.isSome = true := by
  have h := ht.local hp
  simp only [Local] at h
  refine h.1 ?_
  cases b <;> simp_all [isName]

/-- the hypotheses are met -/
example : letI := ascii; ∃ t p es sp init, Accepted cs!"var a, [b] = c" t ∧ PathTo t p (.declarator (.mk (.arrayPattern es sp) init)) := by
  letI := ascii
  obtain ⟨t, p, it, h1, h2, h3⟩ := has_path (e := parseScript cs!"var a, [b] = c")
    (test := fun | .declarator (.mk (.arrayPattern _ _) _) => true | _ => false) (by decide +kernel)
  split at h3 <;> simp at h3
  exact ⟨t, p, _, _, _, .inl h1, h2⟩

/-- C13: every variable declaration declares something, with one of the three kinds. -/
theorem C13_declarations_not_empty [Env] {source : Str} {t : Node} {p : List Item} {r : Role}
    {ds : List VariableDeclarator} {kind : Str} {sp : Span} (ht : Accepted source t)
    (hp : PathTo t p (.node r (.variableDeclaration ds kind sp))) :
    ds ≠ [] ∧ (kind = cs!"var" ∨ kind = cs!"let" ∨ kind = cs!"const") := by
  have h : _ ∧ _ := ht.nodeOk hp
  simpa [varKinds] using h

/-- the hypotheses are met -/
example : letI := ascii; ∃ t p r ds kind sp, Accepted cs!"var a, [b] = c" t ∧ PathTo t p (.node r (.variableDeclaration ds kind sp)) := by
  letI := ascii
  obtain ⟨t, p, it, h1, h2, h3⟩ := has_path (e := parseScript cs!"var a, [b] = c")
    (test := fun | .node _ (.variableDeclaration _ _ _) => true | _ => false) (by decide +kernel)
  split at h3 <;> simp at h3
  exact ⟨t, p, _, _, _, _, .inl h1, h2⟩

end Giron

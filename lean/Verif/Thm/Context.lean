import Verif.Proofs.Frame.Walk
import Verif.Thm.Outcome
/-
The parsing context does not leak out of the constructs that change it.
-/
set_option maxRecDepth 20000
namespace Giron
open Spec Parser

variable [Env]

/-- The methods that parse a construct, at any recursion depth `n`. -/
inductive Spec.Construct (n : Nat) : PM Node → Prop
  /-- parser.rs:532 `parse_stmt_list_item`: any statement or declaration -/
  | item : Construct n (parseStmtListItem (run n))
  /-- parser.rs:595 `parse_statement` -/
  | statement : Construct n (parseStatement (run n))
  /-- parser.rs:1938 `parse_assignment_expr` -/
  | assignment : Construct n (parseAssignmentExpr (run n))
  /-- parser.rs:1910 `parse_expression` -/
  | expression : Construct n (parseExpression (run n))
  /-- parser.rs:1467 `parse_function_dclr` -/
  | functionDclr {async generator : Bool} : Construct n (parseFunctionDclr (run n) async generator)
  /-- parser.rs:3150 `parse_function_expr` -/
  | functionExpr {async : Bool} : Construct n (parseFunctionExpr (run n) async)
  /-- parser.rs:1559 `parse_function_body` -/
  | functionBody : Construct n (parseFunctionBody (run n))
  /-- parser.rs:2047 `parse_single_param_arrow_function_expr` -/
  | arrow {name : Str} : Construct n (parseSingleParamArrow (run n) name)
  /-- parser.rs:2665 `parse_seq_or_arrow` -/
  | seqOrArrow : Construct n (parseSeqOrArrow (run n))
  /-- parser.rs:1585 `parse_class_dclr` -/
  | classDclr : Construct n (parseClassDclr (run n))
  /-- parser.rs:3114 `parse_class_expr` -/
  | classExpr : Construct n (parseClassExpr (run n))
  /-- parser.rs:657 `parse_block_stmt` -/
  | block : Construct n (parseBlockStmt (run n))
  /-- parser.rs:770 `parse_iteration_stmt`: `while`, `do`, `for` -/
  | loop : Construct n (parseIterationStmt (run n))
  /-- the body of a loop -/
  | loopBody : Construct n (parseLoopBody (run n))
  /-- parser.rs:1152 `parse_switch_stmt` -/
  | switch : Construct n (parseSwitchStmt (run n))
  /-- parser.rs:1375 `parse_try_stmt` -/
  | try : Construct n (parseTryStmt (run n))
  /-- parser.rs:1299 `parse_with_stmt` -/
  | with : Construct n (parseWithStmt (run n))
  /-- parser.rs:3269 `parse_object_lit_expr`, with its methods -/
  | object : Construct n (parseObjectLitExpr (run n))
  /-- parser.rs:3055 `parse_template_literal` -/
  | template : Construct n (parseTemplateLiteral (run n))
  /-- parser.rs:172 `parse_module_item` -/
  | moduleItem : Construct n (parseModuleItem (run n))
  /-- parser.rs:341 `parse_export_dclr` -/
  | exportDclr : Construct n (parseExportDclr (run n))

/-- C30: from every parser state, every construct that is parsed successfully leaves the context (strict, in function,
in iteration, in switch), the parameters (in, await, yield, tagged, return, default) and the saved parameters exactly
as they were. -/
theorem C30_constructs_restore_the_context {n : Nat} {m : PM Node} {s s' : Parser} {t : Node} (hm : Construct n m)
    (h : m s = .ok (t, s')) : s'.ctx = s.ctx ∧ s'.params = s.params ∧ s'.paramsStack = s.paramsStack := by
  cases hm <;> exact Fr.out _ _ _ h

/-- C30: the directives at the start of a body change nothing but the strictness of that body. -/
theorem C30_directives_only_set_strict {n : Nat} {s s' : Parser} {l : List Node}
    (h : parseDirectivePrologues (run n) s = .ok (l, s')) :
    s'.ctx = { s.ctx with strict := s'.ctx.strict } ∧ (s.ctx.strict = true → s'.ctx.strict = true) ∧
      s'.params = s.params ∧ s'.paramsStack = s.paramsStack :=
  frS_parseDirectivePrologues.out _ _ _ h

/-- C30, for a whole module: at the end the context is the initial one, but strict. -/
theorem C30_final_module_context {source : Str} {t : Node} {s : Parser} (h : parseModuleState source = .ok (t, s)) :
    s.ctx = ⟨true, false, false, false⟩ ∧ s.params = Params.new ∧ s.paramsStack = [] := by
  unfold parseModuleState at h
  cases hn : Parser.new source with
  | error f => rw [hn] at h; cases h
  | ok p =>
    rw [hn] at h
    dsimp only at h
    have hp : p.ctx = ⟨false, false, false, false⟩ ∧ p.params = Params.new ∧ p.paramsStack = [] := by
      unfold Parser.new at hn
      split at hn <;> cases hn
      exact ⟨rfl, rfl, rfl⟩
    unfold parseModuleBody at h
    obtain ⟨_, s1, h1, h⟩ := bind_ok_inv h; cases h1
    obtain ⟨_, s2, h2, h⟩ := bind_ok_inv h; cases h2
    obtain ⟨_, s3, h3, h⟩ := bind_ok_inv h
    obtain ⟨_, s4, h4, h⟩ := bind_ok_inv h
    obtain ⟨_, s5, h5, h⟩ := bind_ok_inv h; cases h
    obtain ⟨a3, d3, b3, c3⟩ := (frS_withParams frS_parseDirectivePrologues).out _ _ _ h3
    obtain ⟨a4, b4, c4⟩ := Fr.out _ _ _ h4
    obtain ⟨a5, b5, c5⟩ := Fr.out _ _ _ h5
    obtain ⟨p1, p2, p3⟩ := hp
    refine ⟨?_, b5.trans (b4.trans (b3.trans p2)), c5.trans (c4.trans (c3.trans p3))⟩
    rw [a5, a4, a3, d3 rfl]
    simp [p1]

/-- the result of `m` on a fresh parser for the source -/
def Spec.freshRun? {α : Type} (source : Str) (m : PM α) : Option α :=
  match Parser.new source with
  | .ok s => result? ((m s).map Prod.fst)
  | .error _ => none

theorem freshRun?_some {α : Type} {source : Str} {m : PM α} (h : (freshRun? source m).isSome = true) :
    ∃ s a s', Parser.new source = .ok s ∧ m s = .ok (a, s') := by
  unfold freshRun? at h
  cases hs : Parser.new source with
  | error f => rw [hs] at h; cases h
  | ok s =>
    rw [hs] at h
    cases hm : m s with
    | error f => simp [hm, Except.map, result?] at h
    | ok p => exact ⟨s, p.1, p.2, rfl, hm⟩

/-- C30: a function body that changes every part of the context is parsed, and so is a class in a loop -/
example : letI := ascii;
    (∃ s t s', Parser.new cs!"function f(a) { 'use strict'; while (a) { switch (a) { case 1: break } } } x" = .ok s ∧
      parseFunctionDclr (run 60) false true s = .ok (t, s')) ∧
    (∃ s t s', Parser.new cs!"while (a) { class A { b() { return 1 } } } x" = .ok s ∧
      parseStmtListItem (run 60) s = .ok (t, s')) := by
  letI := ascii
  exact ⟨freshRun?_some (by decide +kernel), freshRun?_some (by decide +kernel)⟩

/-- C30: directives are parsed -/
example : letI := ascii;
    ∃ s t s', Parser.new cs!"'a'; 'use strict'; x" = .ok s ∧ parseDirectivePrologues (run 30) s = .ok (t, s') := by
  letI := ascii
  exact freshRun?_some (by decide +kernel)

end Giron

import Verif.Proofs.Ease.Walk
import Verif.Proofs.Ease.Json
import Verif.Thm.Strict
/-
Strict mode only rejects.
-/
set_option maxRecDepth 20000
namespace Giron
open Spec Parser

namespace Ease
open M
variable [Env] {r : Rec}

theorem recUp_run : ∀ n, RecUp (run n)
  | 0 => ⟨up_fail, up_fail, up_fail, up_fail, up_fail, up_fail, fun _ _ _ _ => up_fail, up_fail, up_fail⟩
  | n + 1 => by
    have := recUp_run n
    exact ⟨up_parseAssignmentExpr, up_parseStmtListItem, up_parseStatement, up_parseUnaryExpr, up_parseExponentiationExpr, up_parseNewExpr,
      fun _ _ _ h => by have := Leq.mk (α := Node) h; exact up_precedenceClimbing, up_parseBindingIdOrPat, up_parseLeftHandSideExpr⟩

instance up_parseScriptBody [RecUp r] : Up (parseScriptBody r) (parseScriptBody r) := by
  unfold parseScriptBody; up

end Ease

variable [Env] {source : Str}

/-- C52: what a script started in strict mode accepts, a script accepts, with the same tree (kinds, names, values,
operators, flags and spans) but for `assign_target_type`, which the JSON does not show: the JSON is the same. -/
theorem C52_strict_only_rejects {t : Node} (h : parseStrictScript source = .ok t) :
    ∃ t', parseScript source = .ok t' ∧ EasedNode t t' ∧ nodeJson t' = nodeJson t := by
  unfold parseStrictScript at h
  unfold parseScript parseScriptState
  cases hx : Parser.new source with
  | error f => rw [hx] at h; cases h
  | ok s =>
    rw [hx] at h
    dsimp only at h ⊢
    have hs : s.ctx.strict = false := by
      unfold Parser.new at hx; split at hx <;> cases hx; rfl
    have := Ease.recUp_run (depth source)
    cases hm : parseScriptBody (run (depth source)) { s with ctx := { s.ctx with strict := true } } with
    | error f => rw [hm] at h; cases h
    | ok p =>
      rw [hm] at h
      cases h
      obtain ⟨-, a', b', h1, h2⟩ := (Ease.up_parseScriptBody (r := run (depth source))).out _ false p.1 p.2 rfl hm
      have e : Ease.mode { s with ctx := { s.ctx with strict := true } } false = s := by
        obtain ⟨_, _, _, ⟨_, _, _, _⟩, _, _, _⟩ := s
        dsimp only at hs
        subst hs
        rfl
      rw [e] at h1
      exact ⟨a', by rw [h1]; rfl, h2, Ease.j_Node _ _ h2⟩

/-- C52: so what is rejected as a script is rejected when started in strict mode; -/
theorem C52_script_rejection_is_strict {f : Fail} (h : parseScript source = .error f) : ∃ f', parseStrictScript source = .error f' := by
  cases hs : parseStrictScript source with
  | error f' => exact ⟨f', rfl⟩
  | ok t =>
    obtain ⟨t', h', -⟩ := C52_strict_only_rejects hs
    rw [h] at h'; cases h'

/-- C52: and a source accepted as a module is accepted as a script, with the same statements, unless there is an import
or an export among them. -/
theorem C52_module_to_script (hne : source ≠ []) {body : List Node} {sp : Span} (h : parseModule source = .ok (.program body cs!"module" sp))
    (hb : ∀ a ∈ body, isImportExport a = false) :
    ∃ body', parseScript source = .ok (.program body' cs!"script" sp) ∧ EasedList EasedNode body body' ∧
      listNodeJson body' = listNodeJson body := by
  have hs := C31_module_is_strict_script hne h hb
  obtain ⟨t', h1, h2, -⟩ := C52_strict_only_rejects hs
  cases h2 with | program h2 =>
  exact ⟨_, h1, h2, Ease.jl_Node _ _ h2⟩

/-- both are accepted, with different trees, the module has no imports and exports -/
def easedWitness (m s : Except Fail Node) : Bool :=
  match m with
  | .ok (.program body ty _) => decide (ty = cs!"module") && body.all (fun a => !isImportExport a) &&
    (match s with
     | .ok (.program (.expressionStatement (.identifier _ .simple _) _ :: _) _ _) =>
       (match body with | .expressionStatement (.identifier _ .strict _) _ :: _ => true | _ => false)
     | _ => false)
  | _ => false

omit [Env] in
theorem easedWitness_out {m s : Except Fail Node} (h : easedWitness m s = true) :
    ∃ body sp, m = .ok (.program body cs!"module" sp) ∧ (∀ a ∈ body, isImportExport a = false) ∧ s ≠ .ok (.program body cs!"script" sp) := by
  unfold easedWitness at h
  split at h
  · rename_i body ty sp
    simp only [Bool.and_eq_true, decide_eq_true_eq, List.all_eq_true, Bool.not_eq_true'] at h
    obtain ⟨⟨rfl, h2⟩, h3⟩ := h
    refine ⟨body, sp, rfl, h2, ?_⟩
    rintro rfl
    split at h3
    · rename_i e''
      cases e''
      cases h3
    · cases h3
  · cases h

/-- non-vacuity: these statements are accepted both ways; the trees differ (in `assign_target_type`, as the theorem says) -/
example : letI := ascii
    ∃ body sp, parseModule (cs!"eval;eval.a=arguments;let{b,c}=d") = .ok (.program body cs!"module" sp) ∧ (∀ a ∈ body, isImportExport a = false) ∧
      parseScript (cs!"eval;eval.a=arguments;let{b,c}=d") ≠ .ok (.program body cs!"script" sp) := by
  letI := ascii
  exact easedWitness_out (by decide +kernel)

/-- the converse fails: strict mode does reject, and only strict mode, `with`, `eval = a`, `eval++`, `public` as a name, a labelled function -/
example : letI := ascii
    ∀ src ∈ [cs!"with(a)b", cs!"eval=a", cs!"eval++", cs!"public", cs!"a:function b(){}", cs!"[eval]=a", cs!"for(eval in a);"],
      (parseScript src).isOk = true ∧ (parseStrictScript src).isOk = false := by
  letI := ascii
  decide +kernel

end Giron

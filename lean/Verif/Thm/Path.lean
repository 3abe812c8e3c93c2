import Verif.Proofs.Parse.Module
import Verif.Thm.Witness
/-
From the invariant of the parser to statements about paths in the returned trees.
-/
namespace Giron
open Spec Parser
variable [Env]

/-- The source was accepted, as a script or as a module, with tree `t`. -/
def Accepted (source : Str) (t : Node) : Prop := parseScript source = .ok t ∨ parseModule source = .ok t

/-- The part holds for strict code: it or a part around it is strict code by itself. -/
def StrictPath (p : List Item) : Prop := ∃ it ∈ p, it.startsStrict = true

namespace Spec
variable {L : Nat}
omit [Env]

/-- The context at the end of a path. -/
def pathCtx (p : List Item) : Ctx where
  strict := p.any Item.startsStrict
  ret := p.any Item.isFnBody
  iter := p.any Item.isLoopBody
  sw := p.any Item.isSwitch

/-- union of contexts -/
def Ctx.join (c d : Ctx) : Ctx := ⟨c.strict || d.strict, c.ret || d.ret, c.iter || d.iter, c.sw || d.sw⟩

theorem enter_join {c : Ctx} {a : Item} {p : List Item} :
    Ctx.join (enter c a) (pathCtx p) = Ctx.join c (pathCtx (a :: p)) := by
  simp [Ctx.join, enter, pathCtx, Bool.or_assoc]

theorem WF.along {c : Ctx} : ∀ {p : List Item} {a it : Item}, WF L c a → Chain (a :: p) →
    (a :: p).getLast? = some it → Local L (Ctx.join c (pathCtx (a :: p))) it
  | [], a, it, h, _, hl => by
    simp only [List.getLast?_singleton, Option.some.injEq] at hl
    subst hl
    have := h.loc
    rw [← enter_join]
    simpa [Ctx.join, pathCtx] using this
  | b :: p, a, it, h, hc, hl => by
    have hb := h.kids b hc.1
    have hl' : (b :: p).getLast? = some it := by simpa using hl
    have := WF.along hb hc.2 hl'
    rwa [enter_join] at this

/-- the same for an element in the middle of the path -/
theorem WF.path {t : Node} {p : List Item} {it : Item}
    (h : WF L ⟨false, false, false, false⟩ (.node .program t)) (hp : PathTo t p it) : Local L (pathCtx p) it := by
  obtain ⟨h1, h2, h3⟩ := hp
  cases p with
  | nil => simp at h1
  | cons a p =>
    simp only [List.head?_cons, Option.some.injEq] at h1
    subst h1
    have := WF.along h h2 h3
    simpa [Ctx.join] using this

/-- Every prefix of a path is a path. -/
theorem Chain.append {p q : List Item} (h : Chain (p ++ q)) : Chain p := by
  induction p with
  | nil => trivial
  | cons a p ih =>
    cases p with
    | nil => trivial
    | cons b p => exact ⟨h.1, ih h.2⟩

/-- Every part on a path is at the end of a path. -/
theorem PathTo.mem {t : Node} {p : List Item} {it a : Item} (h : PathTo t p it) (ha : a ∈ p) :
    ∃ q, PathTo t q a := by
  obtain ⟨l1, l2, rfl⟩ := List.append_of_mem ha
  refine ⟨l1 ++ [a], ?_, ?_, by simp⟩
  · have := h.root
    cases l1 <;> simpa using this
  · have := h.chain
    rw [show l1 ++ a :: l2 = (l1 ++ [a]) ++ l2 by simp] at this
    exact this.append

/-- The last step of a path that is longer than one. -/
theorem PathTo.parent {t : Node} {p : List Item} {it : Item} (h : PathTo t p it) :
    p = [.node .program t] ∧ it = .node .program t ∨
      ∃ q a, p = q ++ [it] ∧ PathTo t q a ∧ it ∈ children a := by
  obtain ⟨h1, h2, h3⟩ := h
  rcases List.eq_nil_or_concat p with rfl | ⟨q, b, rfl⟩
  · simp at h1
  · simp only [List.concat_eq_append, List.getLast?_append, List.getLast?_singleton, Option.some_or,
      Option.some.injEq] at h3
    subst h3
    rcases List.eq_nil_or_concat q with rfl | ⟨q', a, rfl⟩
    · left
      simp at h1
      simp [h1]
    · right
      refine ⟨q'.concat a, a, by simp, ⟨?_, ?_, by simp⟩, ?_⟩
      · rw [← h1]; cases q' <;> simp
      · simp only [List.concat_eq_append] at h2 ⊢
        exact h2.append
      · clear h1
        simp only [List.concat_eq_append, List.append_assoc] at h2
        induction q' with
        | nil => exact h2.1
        | cons x q' ih =>
          cases q' with
          | nil => exact ih h2.2
          | cons y q' => exact ih h2.2

end Spec

theorem script_wf {source : Str} {t : Node} (h : parseScript source = .ok t) :
    WF (lines source) ⟨false, false, false, false⟩ (.node .program t) ∧
      ∃ body sp, t = .program body cs!"script" sp := by
  have := parseScriptState_sat source
  unfold parseScript at h
  cases hx : parseScriptState source with
  | error f => rw [hx] at h; cases h
  | ok p =>
    rw [hx] at h this
    cases h
    exact ⟨this.wf, this.ty⟩

theorem module_wf {source : Str} {t : Node} (h : parseModule source = .ok t) :
    WF (lines source) ⟨false, false, false, false⟩ (.node .program t) ∧
      ∃ body sp, t = .program body cs!"module" sp := by
  have := parseModuleState_sat source
  unfold parseModule at h
  cases hx : parseModuleState source with
  | error f => rw [hx] at h; cases h
  | ok p =>
    rw [hx] at h this
    cases h
    exact ⟨this.wf, this.ty⟩

theorem Accepted.wf {source : Str} {t : Node} (h : Accepted source t) :
    WF (lines source) ⟨false, false, false, false⟩ (.node .program t) := by
  rcases h with h | h
  · exact (script_wf h).1
  · exact (module_wf h).1

/-- The condition at a part of an accepted tree. -/
theorem Accepted.local {source : Str} {t : Node} {p : List Item} {it : Item} (h : Accepted source t)
    (hp : PathTo t p it) : Local (lines source) (pathCtx p) it := h.wf.path hp

theorem Accepted.nodeOk {source : Str} {t : Node} {p : List Item} {r : Role} {n : Node} (h : Accepted source t)
    (hp : PathTo t p (.node r n)) : NodeOk (pathCtx p) n := (h.local hp).2.1

theorem Accepted.fits {source : Str} {t : Node} {p : List Item} {r : Role} {n : Node} (h : Accepted source t)
    (hp : PathTo t p (.node r n)) : Fits (pathCtx p).strict r n := (h.local hp).1

omit [Env] in
theorem strict_iff {p : List Item} : (pathCtx p).strict = true ↔ StrictPath p := by
  simp [pathCtx, StrictPath]

end Giron

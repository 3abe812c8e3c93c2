import Verif.Spec.Tree
import Verif.Model.Parser.Module
/-
How the theorem files show that a hypothesis is met: the model is run by the kernel on a concrete source, and a path
in the resulting tree is given by the positions of its steps.
-/
namespace Giron

/-- An environment to run the model in: ASCII identifiers, release build. -/
@[reducible] def ascii : Env where
  idStart c := c.isAlpha
  idContinue c := c.isAlphanum
  showNum n := (toString n.mant).toList
  checked := false
  usizeMax := 2 ^ 64 - 1
  printable c := 32 ≤ c.toNat ∧ c.toNat < 127

/-- The same in a build with overflow checks. -/
@[reducible] def asciiChecked : Env := { ascii with checked := true }

namespace Spec

/-- what a run returned, if anything -/
def result? {α : Type} : Except Fail α → Option α
  | .ok a => some a
  | .error _ => none

theorem result?_eq {α : Type} {e : Except Fail α} {a : α} (h : result? e = some a) : e = .ok a := by
  cases e <;> simp_all [result?]

/-- how a run failed, if it did -/
def failure? {α : Type} : Except Fail α → Option Fail
  | .ok _ => none
  | .error f => some f

theorem failure?_eq {α : Type} {e : Except Fail α} {f : Fail} (h : failure? e = some f) : e = .error f := by
  cases e <;> simp_all [failure?]

/-- The path that follows the given positions in the lists of immediate parts. -/
def walk : Item → List Nat → Option (List Item)
  | it, [] => some [it]
  | it, i :: is => do
    let k ← (children it)[i]?
    let p ← walk k is
    pure (it :: p)

theorem walk_head : ∀ {is : List Nat} {it : Item} {p : List Item}, walk it is = some p → p.head? = some it
  | [], it, p, h => by simp [walk] at h; subst h; rfl
  | i :: is, it, p, h => by
    simp only [walk, Option.pure_def, Option.bind_eq_bind, Option.bind_eq_some_iff, Option.some.injEq] at h
    obtain ⟨k, -, q, -, rfl⟩ := h
    rfl

theorem walk_chain : ∀ {is : List Nat} {it : Item} {p : List Item}, walk it is = some p → Chain p
  | [], it, p, h => by simp [walk] at h; subst h; trivial
  | i :: is, it, p, h => by
    simp only [walk, Option.pure_def, Option.bind_eq_bind, Option.bind_eq_some_iff, Option.some.injEq] at h
    obtain ⟨k, hk, q, hq, rfl⟩ := h
    have h1 := walk_head hq
    have h2 := walk_chain hq
    cases q with
    | nil => simp at h1
    | cons a q =>
      simp only [List.head?_cons, Option.some.injEq] at h1
      subst h1
      exact ⟨List.mem_of_getElem? hk, h2⟩

/-- Run, walk, test the end of the path. -/
def reaches (e : Except Fail Node) (is : List Nat) (test : Item → Bool) : Bool :=
  match e with
  | .ok t =>
    match walk (.node .program t) is with
    | some p => match p.getLast? with
      | some it => test it
      | none => false
    | none => false
  | .error _ => false

/-- A run that reaches a part with the tested quality. -/
theorem reaches_path {e : Except Fail Node} {is : List Nat} {test : Item → Bool} (h : reaches e is test = true) :
    ∃ t p it, e = .ok t ∧ PathTo t p it ∧ test it = true := by
  unfold reaches at h
  split at h
  · rename_i t
    split at h
    · rename_i p hp
      split at h
      · rename_i it hit
        exact ⟨t, p, it, rfl, ⟨walk_head hp, walk_chain hp, hit⟩, h⟩
      · cases h
    · cases h
  · cases h

/-- A path goes on to the immediate parts. -/
theorem PathTo.step {t : Node} {p : List Item} {a k : Item} (h : PathTo t p a) (hk : k ∈ children a) :
    PathTo t (p ++ [k]) k := by
  obtain ⟨h1, h2, h3⟩ := h
  refine ⟨by cases p <;> simp_all, ?_, by simp⟩
  clear h1
  induction p with
  | nil => simp at h3
  | cons x p ih =>
    cases p with
    | nil => simp at h3; subst h3; exact ⟨hk, trivial⟩
    | cons y p => exact ⟨h2.1, ih h2.2 (by simpa using h3)⟩

/-- Depth-first search for a part with the tested quality (of the path and the part), at most `n` deeper. -/
def search (test : List Item → Item → Bool) : Nat → List Item → Item → Bool
  | 0, _, _ => false
  | n + 1, p, it => test p it || (children it).any (fun k => search test n (p ++ [k]) k)

theorem search_path {t : Node} {test : List Item → Item → Bool} : ∀ {n : Nat} {p : List Item} {it : Item},
    PathTo t p it → search test n p it = true → ∃ q last, PathTo t q last ∧ test q last = true
  | 0, p, it, _, h => by cases h
  | n + 1, p, it, hp, h => by
    simp only [search, Bool.or_eq_true, List.any_eq_true] at h
    rcases h with h | ⟨k, hk, h⟩
    · exact ⟨p, it, hp, h⟩
    · exact search_path (hp.step hk) h

/-- Run, and search the tree. -/
def hasP (e : Except Fail Node) (test : List Item → Item → Bool) : Bool :=
  match e with
  | .ok t => search test 100 [.node .program t] (.node .program t)
  | .error _ => false

/-- A run whose tree has a path and part with the tested quality. -/
theorem hasP_path {e : Except Fail Node} {test : List Item → Item → Bool} (h : hasP e test = true) :
    ∃ t p it, e = .ok t ∧ PathTo t p it ∧ test p it = true := by
  unfold hasP at h
  split at h
  · rename_i t
    obtain ⟨q, last, h1, h2⟩ := search_path (t := t) (p := [.node .program t]) ⟨rfl, trivial, rfl⟩ h
    exact ⟨t, q, last, rfl, h1, h2⟩
  · cases h

/-- Run, and search the tree. -/
def has (e : Except Fail Node) (test : Item → Bool) : Bool := hasP e (fun _ => test)

/-- A run whose tree has a part with the tested quality. -/
theorem has_path {e : Except Fail Node} {test : Item → Bool} (h : has e test = true) :
    ∃ t p it, e = .ok t ∧ PathTo t p it ∧ test it = true := hasP_path h

end Spec
end Giron

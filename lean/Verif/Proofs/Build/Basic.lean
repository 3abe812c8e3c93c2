import Verif.Model.Parser.Module
import Verif.Proofs.Frame.Basic
/-
Two builds of the program do the same: with and without checks of overflow, with different tables of Unicode that agree on the
characters of the text.
-/
namespace Giron
open M

/-- another build: other tables, other checks; numbers are printed in the same way -/
abbrev other (e : Env) (st ct : Char → Bool) (ck : Bool) (um : Nat) (pr : Char → Bool) : Env := ⟨st, ct, e.showNum, ck, um, pr⟩

/-- the panics that are there only if overflow is checked -/
def PanicSite.overflow : PanicSite → Bool
  | .escOverflow | .tokenEndUnderflow | .arrayLenUnderflow => true
  | _ => false

namespace Build
variable {e : Env} {st ct : Char → Bool} {ck : Bool} {um : Nat} {pr : Char → Bool}
local notation "e'" => other e st ct ck um pr
variable {α β σ : Type}

/-- the first build checks overflow, or both do what they do in the same way -/
def Calm (e o : Env) : Prop := (e.checked = true ∧ o.checked = false) ∨ (o.checked = e.checked ∧ o.usizeMax = e.usizeMax)

/-- moreover, the tables agree on the characters beyond ASCII of the text -/
def Agree (e o : Env) (text : Str) : Prop :=
  Calm e o ∧
  ∀ c ∈ text, 128 ≤ c.toNat → o.idStart c = e.idStart c ∧ o.idContinue c = e.idContinue c

/-- states with a text -/
class HasText (σ : Type) where
  text : σ → Str

instance : HasText Scanner := ⟨Scanner.rest⟩
instance : HasText Parser := ⟨fun s => s.scanner.rest⟩

/-- a failure for overflow, that only the first build can have -/
def Burst (e o : Env) : Except Fail α → Prop
  | .error (.panic p) => (e.checked = true ∧ o.checked = false) ∧ p.overflow = true
  | _ => False

/-- the text that is left is part of the text that was left -/
def Less [HasText σ] (s : σ) : Except Fail (α × σ) → Prop
  | .ok (_, s1) => HasText.text s1 ⊆ HasText.text s
  | .error _ => True

/-- the first build overflows, or the second does the same -/
class Ag [HasText σ] (e o : Env) (m m' : M σ α) : Prop where
  out : ∀ s, Agree e o (HasText.text s) → Burst e o (m s) ∨ (m' s = m s ∧ Less s (m s))

variable [HasText σ] {o : Env}

theorem Agree.mono {a b : Str} (h : Agree e o a) (hb : b ⊆ a) : Agree e o b :=
  ⟨h.1, fun c hc => h.2 c (hb hc)⟩

theorem Less.mono {s s1 : σ} {x : Except Fail (α × σ)} (h : Less s1 x) (h1 : HasText.text s1 ⊆ HasText.text s) : Less s x := by
  cases x with
  | error f => trivial
  | ok y => exact fun c hc => h1 (h hc)

theorem ag_bind {m m' : M σ α} {k k' : α → M σ β} (h : Ag e o m m') (h' : ∀ a, Ag e o (k a) (k' a)) :
    Ag e o (m >>= k) (m' >>= k') := by
  constructor
  intro s hs
  rcases h.out s hs with h1 | ⟨h1, h2⟩
  · left
    cases hm : m s with
    | error f => rw [M.bind_err hm]; rw [hm] at h1; cases f with
      | panic p => exact h1
      | _ => exact h1.elim
    | ok x => rw [hm] at h1; exact h1.elim
  · cases hm : m s with
    | error f => right; rw [hm] at h1; rw [M.bind_err hm, M.bind_err h1]; exact ⟨rfl, trivial⟩
    | ok x =>
      obtain ⟨a, s1⟩ := x
      rw [hm] at h1 h2
      rw [M.bind_ok hm, M.bind_ok h1]
      have h2 : HasText.text s1 ⊆ HasText.text s := h2
      rcases (h' a).out s1 (hs.mono h2) with h3 | ⟨h3, h4⟩
      · exact .inl h3
      · refine .inr ⟨h3, ?_⟩
        cases hk : k a s1 with
        | error f => trivial
        | ok y => rw [hk] at h4; exact fun c hc => h2 (h4 hc)

theorem ag_pure {a a' : α} (h : a' = a) : Ag e o (pure a : M σ α) (pure a') := by
  subst h
  exact ⟨fun s _ => .inr ⟨rfl, fun _ h => h⟩⟩

theorem ag_pure' {a a' : α} (h : a' = a) : Ag e o (M.pure a : M σ α) (M.pure a') := ag_pure h

theorem ag_fail {f f' : Fail} (h : f' = f) : Ag (α := α) e o (M.fail f : M σ α) (M.fail f') := by
  subst h
  exact ⟨fun s _ => .inr ⟨rfl, trivial⟩⟩

theorem ag_panic {p : PanicSite} : Ag (α := α) e o (M.panic p : M σ α) (M.panic p) := ag_fail rfl

instance ag_get : Ag e o (M.get : M σ σ) M.get := ⟨fun s _ => .inr ⟨rfl, fun _ h => h⟩⟩

theorem ag_modify {f f' : σ → σ} (hf : f' = f) (h : ∀ s, HasText.text (f s) = HasText.text s) : Ag e o (M.modify f) (M.modify f') := by
  subst hf
  exact ⟨fun s _ => .inr ⟨rfl, fun c hc => by have := h s; rw [← this]; exact hc⟩⟩

theorem ag_ite {c c' : Prop} [Decidable c] [Decidable c'] {m m' n n' : M σ α} (hc : c' ↔ c) (h : Ag e o m m') (h' : Ag e o n n') :
    Ag e o (if c then m else n) (if c' then m' else n') := by
  by_cases h1 : c
  · rw [if_pos h1, if_pos (hc.2 h1)]; exact h
  · rw [if_neg h1, if_neg (fun x => h1 (hc.1 x))]; exact h'

theorem ag_when {c c' : Prop} [Decidable c] [Decidable c'] {m m' : M σ Unit} (hc : c' ↔ c) (h : Ag e o m m') :
    Ag e o (M.when c m) (M.when c' m') := ag_ite hc h (ag_pure rfl)

theorem ag_unwrap {p : PanicSite} {v v' : Option α} (h : v' = v) : Ag e o (M.unwrap p v : M σ α) (M.unwrap p v') := by
  subst h
  cases v' with
  | none => exact ag_panic
  | some a => exact ag_pure rfl

/-- results that are the same, unless the first is an overflow -/
def Eqx (e o : Env) (x y : Except Fail α) : Prop := Burst e o x ∨ y = x

theorem ag_ofExcept {x y : Except Fail α} (h : Calm e o → Eqx e o x y) : Ag e o (M.ofExcept x : M σ α) (M.ofExcept y) := by
  constructor
  intro s hs
  rcases h hs.1 with h | rfl
  · left
    cases x with
    | ok a => exact h.elim
    | error f =>
      cases f with
      | panic p => exact h
      | _ => exact h.elim
  · right
    cases y with
    | error f => exact ⟨rfl, trivial⟩
    | ok a => exact ⟨rfl, fun _ h => h⟩

theorem Burst.bind {x : Except Fail α} {k : α → Except Fail β} (h : Burst e o x) : Burst e o (x >>= k) := by
  cases x with
  | ok a => exact h.elim
  | error f =>
    cases f with
    | panic p => exact h
    | _ => exact h.elim

theorem eqx_bind {x y : Except Fail α} {k k' : α → Except Fail β} (h : Eqx e o x y) (hk : ∀ a, Eqx e o (k a) (k' a)) : Eqx e o (x >>= k) (y >>= k') := by
  rcases h with h | rfl
  · exact .inl h.bind
  · cases y with
    | error f => exact .inr rfl
    | ok a => exact hk a

theorem eqx_map {x y : Except Fail α} {f : Except Fail α → Except Fail β} (hf : ∀ z, Burst e o z → Burst e o (f z)) (h : Eqx e o x y) : Eqx e o (f x) (f y) := by
  rcases h with h | rfl
  · exact .inl (hf _ h)
  · exact .inr rfl

theorem ag_budget {m m' : Nat → M σ α} {f : σ → Nat} (h : ∀ n, Ag e o (m n) (m' n)) : Ag e o (fun s => m (f s) s) (fun s => m' (f s) s) :=
  ⟨fun s => (h (f s)).out s⟩

/-- one step -/
macro "ag1" : tactic => `(tactic| first
  | exact inferInstance
  | with_reducible assumption
  | (with_reducible refine ag_bind ?_ (fun _ => ?_))
  | ((with_reducible refine ag_pure ?_); rfl)
  | ((with_reducible refine ag_pure' ?_); rfl)
  | (with_reducible exact ag_panic)
  | ((with_reducible refine ag_fail ?_); rfl)
  | ((with_reducible refine ag_modify ?_ ?_); rfl; exact fun _ => rfl)
  | (with_reducible refine ag_ite Iff.rfl ?_ ?_)
  | (with_reducible refine ag_when Iff.rfl ?_)
  | ((with_reducible refine ag_unwrap ?_); rfl)
  | ((with_reducible refine ag_ofExcept ?_); exact fun _ => .inr rfl)
  | (refine ag_bind ?_ (fun _ => ?_))
  | (refine ag_ite Iff.rfl ?_ ?_)
  | split)

/-- all of them -/
macro "ag" : tactic => `(tactic| repeat ag1)

end Build
end Giron

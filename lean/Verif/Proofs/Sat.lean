import Verif.Model.Basic
/-
Weakest-precondition style reasoning about the state + failure monad.
-/
namespace Giron
open M

/-- `m` run in `s` either returns with `Q` or fails with a failure allowed by `E`. -/
def Sat {σ α : Type} (E : Fail → Prop) (m : M σ α) (s : σ) (Q : α → σ → Prop) : Prop :=
  match m s with
  | .ok (a, s') => Q a s'
  | .error f => E f

namespace Sat
variable {σ α β : Type} {E : Fail → Prop} {s : σ} {Q : α → σ → Prop}

theorem bind {m : M σ α} {k : α → M σ β} {Q : β → σ → Prop} {P : α → σ → Prop}
    (h : Sat E m s P) (hk : ∀ a s', P a s' → Sat E (k a) s' Q) : Sat E (m >>= k) s Q := by
  show Sat E (M.bind m k) s Q
  unfold Sat M.bind at *
  cases hm : m s with
  | error f => simp [hm] at h ⊢; exact h
  | ok p => simp [hm] at h ⊢; exact hk _ _ h

theorem mono {m : M σ α} {P : α → σ → Prop} (h : Sat E m s P) (hk : ∀ a s', P a s' → Q a s') :
    Sat E m s Q := by
  unfold Sat at *
  cases hm : m s with
  | error f => simp [hm] at h ⊢; exact h
  | ok p => simp [hm] at h ⊢; exact hk _ _ h

theorem monoE {m : M σ α} {E' : Fail → Prop} (h : Sat E m s Q) (hE : ∀ f, E f → E' f) : Sat E' m s Q := by
  unfold Sat at *
  cases hm : m s with
  | error f => simp [hm] at h ⊢; exact hE _ h
  | ok p => simp [hm] at h ⊢; exact h

theorem pure {a : α} (h : Q a s) : Sat E (Pure.pure a : M σ α) s Q := h

theorem pure' {a : α} (h : Q a s) : Sat E (M.pure a : M σ α) s Q := h

theorem fail {f : Fail} (h : E f) : Sat E (M.fail f : M σ α) s Q := h

theorem panic {p : PanicSite} (h : E (.panic p)) : Sat E (M.panic p : M σ α) s Q := h

theorem get {Q : σ → σ → Prop} (h : Q s s) : Sat E (M.get : M σ σ) s Q := h

theorem modify {f : σ → σ} {Q : Unit → σ → Prop} (h : Q () (f s)) : Sat E (M.modify f) s Q := h

theorem ite {c : Prop} [Decidable c] {m m' : M σ α} (ht : c → Sat E m s Q) (he : ¬ c → Sat E m' s Q) :
    Sat E (if c then m else m') s Q := by
  by_cases h : c
  · rw [if_pos h]; exact ht h
  · rw [if_neg h]; exact he h

theorem whenT {c : Prop} [Decidable c] {m : M σ Unit} {Q : Unit → σ → Prop}
    (ht : c → Sat E m s Q) (he : ¬ c → Q () s) : Sat E (M.when c m) s Q := by
  unfold M.when
  exact ite ht he

theorem unwrapSome {p : PanicSite} {o : Option α} {a : α} (h : o = some a) (hq : Q a s) :
    Sat E (M.unwrap p o : M σ α) s Q := by
  subst h; exact hq

theorem unwrap {p : PanicSite} {o : Option α} (h : ∀ a, o = some a → Q a s) (hn : o = none → E (.panic p)) :
    Sat E (M.unwrap p o : M σ α) s Q := by
  cases o with
  | none => exact hn rfl
  | some a => exact h a rfl

theorem ofExcept {r : Except Fail α} (h : ∀ a, r = .ok a → Q a s) (hn : ∀ f, r = .error f → E f) :
    Sat E (M.ofExcept r : M σ α) s Q := by
  cases r with
  | error f => exact hn f rfl
  | ok a => exact h a rfl

/-- reading off the result of a successful run -/
theorem ok {m : M σ α} {a : α} {s' : σ} (h : Sat E m s Q) (hm : m s = .ok (a, s')) : Q a s' := by
  unfold Sat at h; rw [hm] at h; exact h

theorem error {m : M σ α} {f : Fail} (h : Sat E m s Q) (hm : m s = .error f) : E f := by
  unfold Sat at h; rw [hm] at h; exact h

end Sat

theorem M.bind_apply {σ α β : Type} (m : M σ α) (k : α → M σ β) (s : σ) :
    (m >>= k) s = match m s with
      | .ok (a, s') => k a s'
      | .error e => .error e := rfl

theorem M.pure_apply {σ α : Type} (a : α) (s : σ) : (Pure.pure a : M σ α) s = .ok (a, s) := rfl

instance {σ : Type} : LawfulMonad (M σ) := LawfulMonad.mk'
  (id_map := by
    intro α x; funext s
    show (match x s with | .ok (a, s') => .ok (a, s') | .error e => .error e) = x s
    cases x s <;> rfl)
  (pure_bind := by intros; rfl)
  (bind_assoc := by
    intro α β γ x f g; funext s
    simp only [M.bind_apply]
    cases x s <;> rfl)

theorem M.bind_ok {σ α β : Type} {m : M σ α} {k : α → M σ β} {s s' : σ} {a : α} (h : m s = .ok (a, s')) :
    (m >>= k) s = k a s' := by rw [M.bind_apply, h]

theorem M.bind_err {σ α β : Type} {m : M σ α} {k : α → M σ β} {s : σ} {f : Fail} (h : m s = .error f) :
    (m >>= k) s = .error f := by rw [M.bind_apply, h]

end Giron

import Verif.Proofs.Sat
import Verif.Model.Parser.Module
/-
What a parser method leaves as it was: the context, the parameters and the saved parameters.
-/
namespace Giron
open M

namespace Parser
variable [Env] {α β : Type}

/-- When `m` succeeds, the context and the parameters are as before. -/
class Fr (m : PM α) : Prop where
  out : ∀ s a s', m s = .ok (a, s') → s'.ctx = s.ctx ∧ s'.params = s.params ∧ s'.paramsStack = s.paramsStack

/-- The same, strictness aside. -/
class FrS (m : PM α) : Prop where
  out : ∀ s a s', m s = .ok (a, s') →
    s'.ctx = { s.ctx with strict := s'.ctx.strict } ∧ (s.ctx.strict = true → s'.ctx.strict = true) ∧
      s'.params = s.params ∧ s'.paramsStack = s.paramsStack

theorem bind_ok_inv {m : PM α} {k : α → PM β} {s s'' : Parser} {b : β} (h : (m >>= k) s = .ok (b, s'')) :
    ∃ a s', m s = .ok (a, s') ∧ k a s' = .ok (b, s'') := by
  rw [M.bind_apply] at h
  cases hm : m s with
  | error f => rw [hm] at h; cases h
  | ok p => rw [hm] at h; exact ⟨p.1, p.2, rfl, h⟩

theorem fr_bind {m : PM α} {k : α → PM β} (h : Fr m) (hk : ∀ a, Fr (k a)) : Fr (m >>= k) := by
  constructor
  intro s b s'' hb
  obtain ⟨a, s', h1, h2⟩ := bind_ok_inv hb
  obtain ⟨e1, e2, e3⟩ := h.out _ _ _ h1
  obtain ⟨f1, f2, f3⟩ := (hk a).out _ _ _ h2
  exact ⟨f1.trans e1, f2.trans e2, f3.trans e3⟩

theorem frS_of {m : PM α} (h : Fr m) : FrS m :=
  ⟨fun s a s' hm => by obtain ⟨h1, h2, h3⟩ := h.out _ _ _ hm; exact ⟨by rw [h1], by rw [h1]; exact id, h2, h3⟩⟩

theorem frS_bind {m : PM α} {k : α → PM β} (h : FrS m) (hk : ∀ a, FrS (k a)) : FrS (m >>= k) := by
  constructor
  intro s b s'' hb
  obtain ⟨a, s', h1, h2⟩ := bind_ok_inv hb
  obtain ⟨e1, e0, e2, e3⟩ := h.out _ _ _ h1
  obtain ⟨f1, f0, f2, f3⟩ := (hk a).out _ _ _ h2
  refine ⟨?_, fun h => f0 (e0 h), f2.trans e2, f3.trans e3⟩
  rw [f1, e1]

instance fr_pure {a : α} : Fr (pure a : PM α) := ⟨fun s b s' h => by cases h; exact ⟨rfl, rfl, rfl⟩⟩
instance fr_pure' {a : α} : Fr (M.pure a : PM α) := fr_pure
instance fr_fail {f : Fail} : Fr (M.fail f : PM α) := ⟨fun s b s' h => by cases h⟩
instance fr_panic {p : PanicSite} : Fr (M.panic p : PM α) := fr_fail
instance fr_get : Fr (M.get : PM Parser) := ⟨fun s b s' h => by cases h; exact ⟨rfl, rfl, rfl⟩⟩
instance fr_cur : Fr cur := ⟨fun s b s' h => by cases h; exact ⟨rfl, rfl, rfl⟩⟩

theorem fr_ite {c : Prop} [Decidable c] {m n : PM α} (h : Fr m) (h' : Fr n) : Fr (if c then m else n) := by
  split <;> assumption

instance fr_when {c : Prop} [Decidable c] {m : PM Unit} [h : Fr m] : Fr (M.when c m) := fr_ite h fr_pure

instance fr_unwrap {p : PanicSite} {v : Option α} : Fr (M.unwrap p v : PM α) := by
  cases v
  · exact fr_panic
  · exact fr_pure

instance fr_ofExcept {x : Except Fail α} : Fr (M.ofExcept x : PM α) := by
  cases x
  · exact fr_fail
  · exact fr_pure

instance fr_error {t : Token} {e : ErrorType} : Fr (error t e : PM α) := fr_fail

instance fr_advance {g : LexGoal} : Fr (advance g) := by
  constructor
  intro s a s' h
  unfold advance at h
  split at h <;> cases h
  exact ⟨rfl, rfl, rfl⟩

instance fr_liftScanner {m : SM α} : Fr (liftScanner m) := by
  constructor
  intro s a s' h
  unfold liftScanner at h
  split at h <;> cases h
  exact ⟨rfl, rfl, rfl⟩

instance fr_startSpan : Fr startSpan := ⟨fun s b s' h => by cases h; exact ⟨rfl, rfl, rfl⟩⟩

instance fr_endSpan : Fr endSpan := by
  constructor
  intro s a s' h
  unfold endSpan at h
  split at h <;> cases h
  exact ⟨rfl, rfl, rfl⟩

instance fr_peekSpan : Fr peekSpan := by
  constructor
  intro s a s' h
  unfold peekSpan at h
  split at h <;> cases h
  exact ⟨rfl, rfl, rfl⟩

instance fr_unexpected {t : Token} : Fr (unexpected t : PM α) := fr_fail
instance fr_unexpectedCurrent : Fr (unexpectedCurrent : PM α) := by
  unfold unexpectedCurrent; exact fr_bind inferInstance (fun _ => inferInstance)
instance fr_errorCurrent {e : ErrorType} : Fr (errorCurrent e : PM α) := by
  unfold errorCurrent; exact fr_bind inferInstance (fun _ => inferInstance)

instance fr_withParams {f : Params → Params} {m : PM α} [h : Fr m] : Fr (withParams f m) := by
  constructor
  intro s a s' hm
  unfold withParams at hm
  obtain ⟨_, s1, h1, hm⟩ := bind_ok_inv hm; cases h1
  obtain ⟨_, s2, h2, hm⟩ := bind_ok_inv hm; cases h2
  obtain ⟨b, s3, h3, hm⟩ := bind_ok_inv hm
  obtain ⟨_, s4, h4, hm⟩ := bind_ok_inv hm; cases hm
  obtain ⟨e1, e2, e3⟩ := h.out _ _ _ h3
  unfold restoreParams at h4
  rw [e3] at h4
  cases h4
  exact ⟨e1, rfl, rfl⟩

theorem frS_withParams {f : Params → Params} {m : PM α} (h : FrS m) : FrS (withParams f m) := by
  constructor
  intro s a s' hm
  unfold withParams at hm
  obtain ⟨_, s1, h1, hm⟩ := bind_ok_inv hm; cases h1
  obtain ⟨_, s2, h2, hm⟩ := bind_ok_inv hm; cases h2
  obtain ⟨b, s3, h3, hm⟩ := bind_ok_inv hm
  obtain ⟨_, s4, h4, hm⟩ := bind_ok_inv hm; cases hm
  obtain ⟨e1, e0, e2, e3⟩ := h.out _ _ _ h3
  unfold restoreParams at h4
  rw [e3] at h4
  cases h4
  exact ⟨e1, e0, rfl, rfl⟩

/-- `m` with `strict` set -/
theorem fr_inStrict {m : PM α} (h : Fr m) : Fr (do
    let s0 ← M.get
    M.modify fun s => { s with ctx := { s.ctx with strict := true } }
    let res ← m
    M.modify fun s => { s with ctx := { s.ctx with strict := s0.ctx.strict } }
    pure res : PM α) := by
  constructor
  intro s a s' hm
  obtain ⟨_, _, h0, hm⟩ := bind_ok_inv hm; cases h0
  obtain ⟨_, s1, h1, hm⟩ := bind_ok_inv hm; cases h1
  obtain ⟨_, s2, h2, hm⟩ := bind_ok_inv hm
  obtain ⟨_, s3, h3, hm⟩ := bind_ok_inv hm; cases h3; cases hm
  have f2 := h.out _ _ _ h2
  simp_all

/-- a loop with a budget -/
theorem fr_budget {m : Nat → PM α} {f : Parser → Nat} (h : ∀ n, Fr (m n)) : Fr (fun s => m (f s) s) :=
  ⟨fun s => (h (f s)).out s⟩

/-- the recursive entry points leave the context as it was -/
class RecFr (r : Rec) : Prop where
  assignmentExpr : Fr r.assignmentExpr
  stmtListItem : Fr r.stmtListItem
  statement : Fr r.statement
  unaryExpr : Fr r.unaryExpr
  exponentiationExpr : Fr r.exponentiationExpr
  newExpr : Fr r.newExpr
  precedenceClimbing : ∀ n k, Fr (r.precedenceClimbing n k)
  bindingIdOrPat : Fr r.bindingIdOrPat
  leftHandSideExpr : Fr r.leftHandSideExpr

variable {r : Rec}
instance [h : RecFr r] : Fr r.assignmentExpr := h.assignmentExpr
instance [h : RecFr r] : Fr r.stmtListItem := h.stmtListItem
instance [h : RecFr r] : Fr r.statement := h.statement
instance [h : RecFr r] : Fr r.unaryExpr := h.unaryExpr
instance [h : RecFr r] : Fr r.exponentiationExpr := h.exponentiationExpr
instance [h : RecFr r] : Fr r.newExpr := h.newExpr
instance [h : RecFr r] {n k} : Fr (r.precedenceClimbing n k) := h.precedenceClimbing n k
instance [h : RecFr r] : Fr r.bindingIdOrPat := h.bindingIdOrPat
instance [h : RecFr r] : Fr r.leftHandSideExpr := h.leftHandSideExpr

/-- one step -/
macro "fr1" : tactic => `(tactic| first
  | exact inferInstance
  | with_reducible assumption
  | (with_reducible refine fr_bind ?_ (fun _ => ?_))
  | (with_reducible refine fr_ite ?_ ?_)
  | exact ⟨fun _ _ _ h => Fr.out _ _ _ h⟩
  | (refine fr_bind ?_ (fun _ => ?_))
  | (constructor; intro s a s' h; cases h; exact ⟨rfl, rfl, rfl⟩)
  | split)

/-- all of them -/
macro "fr" : tactic => `(tactic| repeat fr1)

instance fr_whilePuncF {p} {m : PM α} [h : Fr m] {n : Nat} : Fr (whilePuncF p m n) := by
  induction n with
  | zero => exact fr_fail
  | succ n ih => unfold whilePuncF; fr
instance fr_whilePunc {p} {m : PM α} [h : Fr m] : Fr (whilePunc p m) := fr_budget (fun _ => inferInstance)

instance fr_untilPuncF {p} {m : PM α} [h : Fr m] {n : Nat} : Fr (untilPuncF p m n) := by
  induction n with
  | zero => exact fr_fail
  | succ n ih => unfold untilPuncF; fr
instance fr_untilPunc {p} {m : PM α} [h : Fr m] : Fr (untilPunc p m) := fr_budget (fun _ => inferInstance)

instance fr_untilPuncOrRestF {p} {m : PM α} [h : Fr m] {n : Nat} : Fr (untilPuncOrRestF p m n) := by
  induction n with
  | zero => exact fr_fail
  | succ n ih => unfold untilPuncOrRestF; fr
instance fr_untilPuncOrRest {p} {m : PM α} [h : Fr m] : Fr (untilPuncOrRest p m) := fr_budget (fun _ => inferInstance)

instance fr_untilEofF {m : PM Node} [h : Fr m] {n : Nat} : Fr (untilEofF m n) := by
  induction n with
  | zero => exact fr_fail
  | succ n ih => unfold untilEofF; fr
instance fr_untilEof {m : PM Node} [h : Fr m] : Fr (untilEof m) := fr_budget (fun _ => inferInstance)

end Parser
end Giron

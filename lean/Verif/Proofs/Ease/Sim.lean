import Verif.Proofs.Ease.Tree
import Verif.Proofs.Frame.Basic
/-
Strict mode only rejects: what succeeds in strict mode succeeds without it, with the same tree.  Relation and rules.
-/
namespace Giron
open M Spec

/-- a value or an expression -/
inductive EasedVoE : ValueOrExpr → ValueOrExpr → Prop
  | value {v} : EasedVoE (.value v) (.value v)
  | expr {n n'} (h : EasedNode n n') : EasedVoE (.expr n) (.expr n')

instance : Lk ValueOrExpr := ⟨EasedVoE⟩

/-- the head of a property -/
inductive EasedPropHead : Parser.PropHead → Parser.PropHead → Prop
  | done {p p'} (h : EasedObjectExpressionProperty p p') : EasedPropHead (.done p) (.done p')
  | more {k a g} : EasedPropHead (.more k a g) (.more k a g)

instance : Lk Parser.PropHead := ⟨EasedPropHead⟩

namespace Ease
open Parser
variable [Env] {α β γ : Type} [Lk α] [Lk β] [Lk γ] {r : Rec}

/-- the same state, in strict mode or not -/
def mode (s : Parser) (b : Bool) : Parser :=
  ⟨s.scanner, s.hasLineTerminator, s.current, ⟨b, s.ctx.inFunction, s.ctx.inIteration, s.ctx.inSwitch⟩, s.params, s.paramsStack, s.markerStack⟩

/-- what succeeds on the left in strict mode succeeds on the right in any, with the same outcome -/
class Up (m m' : PM α) : Prop where
  out : ∀ s b a s1, s.ctx.strict = true → m s = .ok (a, s1) →
    s1.ctx.strict = true ∧ ∃ a' b', m' (mode s b) = .ok (a', mode s1 b') ∧ lk a a'

/-- related values -/
class Leq (a a' : α) : Prop where
  out : lk a a'

theorem up_bind {m m' : PM α} {k k' : α → PM β} (h : Up m m') (hk : ∀ a a', lk a a' → Up (k a) (k' a')) : Up (m >>= k) (m' >>= k') := by
  constructor
  intro s b c s2 hs hm
  obtain ⟨a, s1, h1, h2⟩ := bind_ok_inv hm
  obtain ⟨g1, a', b', e1, l1⟩ := h.out s b a s1 hs h1
  obtain ⟨g2, c', b'', e2, l2⟩ := (hk a a' l1).out s1 b' c s2 g1 h2
  exact ⟨g2, c', b'', by rw [M.bind_ok e1]; exact e2, l2⟩

theorem up_bindEq [LkEq α] {m m' : PM α} {k k' : α → PM β} (h : Up m m') (hk : ∀ a, Up (k a) (k' a)) : Up (m >>= k) (m' >>= k') :=
  up_bind h fun a a' e => by rw [← LkEq.out e]; exact hk a

theorem up_bindPair {m m' : PM (α × γ)} {k k' : α × γ → PM β} (h : Up m m')
    (hk : ∀ a c a' c', lk a a' → lk c c' → Up (k (a, c)) (k' (a', c'))) : Up (m >>= k) (m' >>= k') :=
  up_bind h fun a a' e => hk a.1 a.2 a'.1 a'.2 e.1 e.2

theorem up_bindPairEq [LkEq γ] {m m' : PM (α × γ)} {k k' : α × γ → PM β} (h : Up m m')
    (hk : ∀ a c a', lk a a' → Up (k (a, c)) (k' (a', c))) : Up (m >>= k) (m' >>= k') :=
  up_bindPair h fun a c a' c' e1 e2 => by rw [← LkEq.out e2]; exact hk a c a' e1

theorem up_bindEqPair [LkEq α] {m m' : PM (α × γ)} {k k' : α × γ → PM β} (h : Up m m')
    (hk : ∀ a c c', lk c c' → Up (k (a, c)) (k' (a, c'))) : Up (m >>= k) (m' >>= k') :=
  up_bindPair h fun a c a' c' e1 e2 => by rw [← LkEq.out e1]; exact hk a c c' e2

theorem up_pure {a a' : α} (h : lk a a') : Up (pure a) (pure a') :=
  ⟨fun s b _ _ hs hm => by cases hm; exact ⟨hs, a', b, rfl, h⟩⟩

/-- no success on the left -/
theorem up_never {m m' : PM α} (h : ∀ s a s1, m s ≠ .ok (a, s1)) : Up m m' := ⟨fun s _ a s1 _ hm => absurd hm (h s a s1)⟩

theorem up_ite {c : Prop} [Decidable c] {m m' n n' : PM α} (h : c → Up m m') (h' : ¬ c → Up n n') :
    Up (if c then m else n) (if c then m' else n') := by
  split
  · exact h ‹_›
  · exact h' ‹_›

/-- a check that fails less often on the right -/
theorem up_check {c c' : Prop} [Decidable c] [Decidable c'] {m m' n n' : PM α} (h : ∀ s a s1, m s ≠ .ok (a, s1)) (hc : ¬ c → ¬ c')
    (h' : Up n n') : Up (if c then m else n) (if c' then m' else n') := by
  split
  · exact up_never h
  · rw [if_neg (hc ‹_›)]; exact h'

theorem up_get {k k' : Parser → PM α}
    (h : ∀ s b, s.ctx.strict = true → Up (k s) (k' ⟨s.scanner, s.hasLineTerminator, s.current, ⟨b, s.ctx.inFunction, s.ctx.inIteration, s.ctx.inSwitch⟩,
      s.params, s.paramsStack, s.markerStack⟩)) :
    Up (M.get >>= k) (M.get >>= k') :=
  ⟨fun s b a s1 hs hm => (h s b hs).out s b a s1 hs hm⟩

theorem up_modify {f f' : Parser → Parser} (h : ∀ s b, s.ctx.strict = true → (f s).ctx.strict = true ∧ ∃ b', f' (mode s b) = mode (f s) b') :
    Up (M.modify f : PM Unit) (M.modify f') :=
  ⟨fun s b a s1 hs hm => by
    cases hm
    obtain ⟨h1, b', h2⟩ := h s b hs
    exact ⟨h1, (), b', by show Except.ok ((), f' (mode s b)) = _; rw [h2], rfl⟩⟩

theorem up_when {c : Prop} [Decidable c] {m m' : PM Unit} (h : Up m m') : Up (M.when c m) (M.when c m') := by
  unfold M.when
  split
  · exact h
  · exact up_pure rfl

theorem up_whenIff {c c' : Prop} [Decidable c] [Decidable c'] {m m' : PM Unit} (hc : c' ↔ c) (h : Up m m') : Up (M.when c m) (M.when c' m') := by
  unfold M.when
  by_cases g : c
  · rw [if_pos g, if_pos (hc.2 g)]; exact h
  · rw [if_neg g, if_neg (fun g' => g (hc.1 g'))]; exact up_pure rfl

/-- methods that do not look at the mode -/
theorem up_blind {m : PM α} (hr : ∀ a : α, lk a a) (h : ∀ s b, s.ctx.strict = true → ∀ a s1, m s = .ok (a, s1) →
    s1.ctx = s.ctx ∧ m (mode s b) = .ok (a, mode s1 b)) : Up m m :=
  ⟨fun s b a s1 hs hm => by
    obtain ⟨h1, h2⟩ := h s b hs a s1 hm
    exact ⟨by rw [h1]; exact hs, a, b, h2, hr a⟩⟩

theorem up_ofExcept {x y : Except Fail α} (h : Ok2 x y) : Up (M.ofExcept x : PM α) (M.ofExcept y) :=
  ⟨fun s b a s1 hs hm => by
    cases x with
    | error f => cases hm
    | ok v =>
      cases hm
      obtain ⟨a', rfl, l⟩ := h _ rfl
      exact ⟨hs, a', b, rfl, l⟩⟩

theorem up_unwrap {p : PanicSite} {v v' : Option α} (h : EasedOpt lk v v') : Up (M.unwrap p v : PM α) (M.unwrap p v') := by
  cases h with
  | none => exact up_never (fun _ _ _ h => by cases h)
  | some h => exact up_pure h

instance up_unwrapEq [LkEq α] {p : PanicSite} {v : Option α} : Up (M.unwrap p v : PM α) (M.unwrap p v) := by
  cases v with
  | none => exact up_never (fun _ _ _ h => by cases h)
  | some v => exact up_pure (LkEq.refl v)

theorem up_budget {F F' : Nat → PM α} (h : ∀ n, Up (F n) (F' n)) : Up (fun s => F (s.size + 1) s) (fun s => F' (s.size + 1) s) :=
  ⟨fun s b a s1 hs hm => (h (s.size + 1)).out s b a s1 hs hm⟩

instance up_fail {f : Fail} {m' : PM α} : Up (M.fail f) m' := up_never (fun _ _ _ h => by cases h)
instance up_panic {f} {m' : PM α} : Up (M.panic f) m' := up_never (fun _ _ _ h => by cases h)

instance up_advance {g} : Up (advance g) (advance g) :=
  up_blind (fun _ => rfl) fun s b hs a s1 hm => by
    unfold advance at hm ⊢
    simp only [mode] at *
    split at hm
    · cases hm
      exact ⟨rfl, rfl⟩
    · cases hm

instance up_cur : Up cur cur := up_blind (fun _ => rfl) fun s b hs a s1 hm => by cases hm; exact ⟨rfl, rfl⟩

instance up_startSpan : Up startSpan startSpan :=
  up_blind (fun _ => rfl) fun s b hs a s1 hm => by cases hm; exact ⟨rfl, rfl⟩

instance up_endSpan : Up endSpan endSpan :=
  up_blind (fun _ => rfl) fun s b hs a s1 hm => by
    unfold endSpan at hm ⊢
    simp only [mode] at *
    split at hm
    · cases hm
      exact ⟨rfl, rfl⟩
    · cases hm

instance up_peekSpan : Up peekSpan peekSpan :=
  up_blind (fun _ => rfl) fun s b hs a s1 hm => by
    unfold peekSpan at hm ⊢
    simp only [mode] at *
    split at hm
    · cases hm
      exact ⟨rfl, rfl⟩
    · cases hm

instance up_saveParams : Up saveParams saveParams :=
  up_blind (fun _ => rfl) fun s b hs a s1 hm => by cases hm; exact ⟨rfl, rfl⟩

instance up_restoreParams : Up restoreParams restoreParams :=
  up_blind (fun _ => rfl) fun s b hs a s1 hm => by
    unfold restoreParams at hm ⊢
    simp only [mode] at *
    split at hm
    · cases hm
      exact ⟨rfl, rfl⟩
    · cases hm

theorem up_liftScanner {m : SM α} (hr : ∀ a : α, lk a a) : Up (liftScanner m) (liftScanner m) :=
  up_blind hr fun s b hs a s1 hm => by
    unfold liftScanner at hm ⊢
    simp only [mode] at *
    split at hm
    · cases hm
      exact ⟨rfl, rfl⟩
    · cases hm

instance up_errorCurrent {e} {m' : PM α} : Up (errorCurrent e) m' := up_never fun s a s1 h => by
  obtain ⟨t, s', _, h⟩ := bind_ok_inv h
  cases h
instance up_unexpectedCurrent {m' : PM α} : Up unexpectedCurrent m' := up_never fun s a s1 h => by
  obtain ⟨t, s', _, h⟩ := bind_ok_inv h
  cases h
instance up_error {t e} {m' : PM α} : Up (error t e) m' := up_never (fun _ _ _ h => by cases h)
instance up_unexpected {t} {m' : PM α} : Up (unexpected t) m' := up_never (fun _ _ _ h => by cases h)

/-- the recursive entry points are related -/
class RecUp (r : Rec) : Prop where
  assignmentExpr : Up r.assignmentExpr r.assignmentExpr
  stmtListItem : Up r.stmtListItem r.stmtListItem
  statement : Up r.statement r.statement
  unaryExpr : Up r.unaryExpr r.unaryExpr
  exponentiationExpr : Up r.exponentiationExpr r.exponentiationExpr
  newExpr : Up r.newExpr r.newExpr
  precedenceClimbing : ∀ n n' k, EasedNode n n' → Up (r.precedenceClimbing n k) (r.precedenceClimbing n' k)
  bindingIdOrPat : Up r.bindingIdOrPat r.bindingIdOrPat
  leftHandSideExpr : Up r.leftHandSideExpr r.leftHandSideExpr

instance up_rAssign [h : RecUp r] : Up r.assignmentExpr r.assignmentExpr := h.assignmentExpr
instance up_rItem [h : RecUp r] : Up r.stmtListItem r.stmtListItem := h.stmtListItem
instance up_rStatement [h : RecUp r] : Up r.statement r.statement := h.statement
instance up_rUnary [h : RecUp r] : Up r.unaryExpr r.unaryExpr := h.unaryExpr
instance up_rExp [h : RecUp r] : Up r.exponentiationExpr r.exponentiationExpr := h.exponentiationExpr
instance up_rNew [h : RecUp r] : Up r.newExpr r.newExpr := h.newExpr
instance up_rClimb [h : RecUp r] {n n' : Node} {k} [g : Leq n n'] : Up (r.precedenceClimbing n k) (r.precedenceClimbing n' k) :=
  h.precedenceClimbing n n' k g.out
instance up_rBinding [h : RecUp r] : Up r.bindingIdOrPat r.bindingIdOrPat := h.bindingIdOrPat
instance up_rLhs [h : RecUp r] : Up r.leftHandSideExpr r.leftHandSideExpr := h.leftHandSideExpr

theorem easedList_append {R : α → α → Prop} {l l' m m' : List α} (h : EasedList R l l') (h' : EasedList R m m') : EasedList R (l ++ m) (l' ++ m') := by
  induction h with
  | nil => exact h'
  | cons h _ ih => exact .cons h ih

theorem easedOpt_isSome {R : α → α → Prop} {v v' : Option α} (h : EasedOpt R v v') : v'.isSome = v.isSome := by cases h <;> rfl

theorem lk_pair {a a' : α} {c c' : β} (h : lk a a') (h' : lk c c') : lk (a, c) (a', c') := ⟨h, h'⟩

/-- related values: rule by rule -/
macro "ease" : tactic => `(tactic| (
  (repeat' with_reducible refine lk_pair ?_ ?_)
  all_goals (try exact LkEq.refl _)
  all_goals (try simp only [lk])
  (repeat' (first
    | with_reducible assumption
    | exact EasedAtt.same
    | with_reducible exact rfl
    | exact LkEq.refl _
    | exact (Leq.out (α := Node) (self := by assumption))
    | exact (Leq.out (α := PropertyKey) (self := by assumption))
    | (with_reducible refine easedList_append ?_ ?_)
    | (with_reducible refine eased_keyAsNode ?_)
    | (with_reducible refine ⟨?_, ?_⟩)
    | constructor))))

/-- keep a related value -/
macro "keep" h:ident : tactic => `(tactic| (have := Leq.mk $h; (try simp only [lk] at $h:ident)))

/-- one step -/
macro "up1" : tactic => `(tactic| first
  | exact inferInstance
  | (with_reducible refine up_ite (fun _ => ?_) (fun _ => ?_))
  | (with_reducible refine up_get (fun _ _ _ => ?_); try dsimp only)
  | ((with_reducible refine up_pure ?_); focus (ease; done))
  | (refine up_bindEq inferInstance (fun _ => ?_))
  | (refine up_bindPairEq inferInstance (fun _ _ _ h => ?_); keep h; try dsimp only)
  | (refine up_bindEqPair inferInstance (fun _ _ _ h => ?_); keep h; try dsimp only)
  | (refine up_bindPair inferInstance (fun _ _ _ _ h h' => ?_); keep h; keep h'; try dsimp only)
  | (refine up_bind inferInstance (fun _ _ h => ?_); keep h)
  | (with_reducible exact up_modify fun _ _ hs => ⟨by first | exact hs | assumption | rfl, _, rfl⟩)
  | (with_reducible refine up_when ?_)
  | (with_reducible refine up_bindEq ?_ (fun _ => ?_))
  | focus ((with_reducible refine up_bindPairEq ?_ (fun _ _ _ h => ?_)); rotate_left; keep h; (try dsimp only); rotate_right)
  | focus ((with_reducible refine up_bind ?_ (fun _ _ h => ?_)); rotate_left; keep h; rotate_right))

/-- all of them -/
macro "up" : tactic => `(tactic| repeat' up1)

instance up_consume {p g} : Up (consume p g) (consume p g) := by unfold consume; up
instance up_consumeKw {p g} : Up (consumeKw p g) (consumeKw p g) := by unfold consumeKw; up
instance up_consumeId {p g} : Up (consumeId p g) (consumeId p g) := by unfold consumeId; up
instance up_consumeSemicolon {g} : Up (consumeSemicolon g) (consumeSemicolon g) := by unfold consumeSemicolon; up

variable {m m' : PM α}

instance up_withParams {f : Params → Params} [Up m m'] : Up (withParams f m) (withParams f m') := by
  unfold withParams; up
instance up_withIn {b} [Up m m'] : Up (withIn b m) (withIn b m') := by unfold withIn; up
instance up_withDefault {b} [Up m m'] : Up (withDefault b m) (withDefault b m') := by unfold withDefault; up
instance up_withReturn {b} [Up m m'] : Up (withReturn b m) (withReturn b m') := by unfold withReturn; up
instance up_withYield {b} [Up m m'] : Up (withYield b m) (withYield b m') := by unfold withYield; up
instance up_withAwait {b} [Up m m'] : Up (withAwait b m) (withAwait b m') := by unfold withAwait; up
instance up_withYieldAwait {b c} [Up m m'] : Up (withYieldAwait b c m) (withYieldAwait b c m') := by unfold withYieldAwait; up

theorem up_loop {F F' : Nat → PM α} (h0 : F 0 = M.fail .fuel) (hs : ∀ n, Up (F n) (F' n) → Up (F (n + 1)) (F' (n + 1))) (n : Nat) : Up (F n) (F' n) := by
  induction n with
  | zero => rw [h0]; exact inferInstance
  | succ n ih => exact hs n ih

instance up_whilePunc {p} [Up m m'] : Up (whilePunc p m) (whilePunc p m') :=
  up_budget (up_loop rfl fun n ih => by unfold whilePuncF; up)

end Ease
end Giron

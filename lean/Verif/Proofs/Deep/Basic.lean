import Verif.Model.Parser.Module
import Verif.Proofs.Frame.Basic
/-
More depth changes nothing: if a run does not run out of depth, every run with more depth is the same.
-/
namespace Giron
open M

namespace Parser
variable [Env] {α β : Type} {r r' : Rec}

variable {σ : Type}

/-- the run `m` runs out, or `m'` does the same -/
class Dp (m m' : M σ α) : Prop where
  out : ∀ s, m s = .error .fuel ∨ m' s = m s

instance (priority := low) dp_refl {m : M σ α} : Dp m m := ⟨fun _ => .inr rfl⟩

theorem dp_fuel {m : M σ α} : Dp (M.fail .fuel) m := ⟨fun _ => .inl rfl⟩

theorem dp_bind {m m' : M σ α} {k k' : α → M σ β} (h : Dp m m') (h' : ∀ a, Dp (k a) (k' a)) : Dp (m >>= k) (m' >>= k') := by
  constructor
  intro s
  rcases h.out s with h1 | h1
  · left; exact M.bind_err h1
  · cases hm : m s with
    | error f => right; rw [hm] at h1; rw [M.bind_err hm, M.bind_err h1]
    | ok x =>
      obtain ⟨a, s1⟩ := x
      rw [hm] at h1
      rw [M.bind_ok hm, M.bind_ok h1]
      exact (h' a).out s1

theorem dp_ite {c : Prop} [Decidable c] {m m' n n' : M σ α} (h : Dp m m') (h' : Dp n n') :
    Dp (if c then m else n) (if c then m' else n') := by
  split <;> assumption

theorem dp_budget {m m' : Nat → PM α} {f : Parser → Nat} (h : ∀ n, Dp (m n) (m' n)) : Dp (fun s => m (f s) s) (fun s => m' (f s) s) :=
  ⟨fun s => (h (f s)).out s⟩

/-- the recursive entry points do the same, or run out -/
class RecDp (r r' : Rec) : Prop where
  assignmentExpr : Dp r.assignmentExpr r'.assignmentExpr
  stmtListItem : Dp r.stmtListItem r'.stmtListItem
  statement : Dp r.statement r'.statement
  unaryExpr : Dp r.unaryExpr r'.unaryExpr
  exponentiationExpr : Dp r.exponentiationExpr r'.exponentiationExpr
  newExpr : Dp r.newExpr r'.newExpr
  precedenceClimbing : ∀ n k, Dp (r.precedenceClimbing n k) (r'.precedenceClimbing n k)
  bindingIdOrPat : Dp r.bindingIdOrPat r'.bindingIdOrPat
  leftHandSideExpr : Dp r.leftHandSideExpr r'.leftHandSideExpr

instance [h : RecDp r r'] : Dp r.assignmentExpr r'.assignmentExpr := h.assignmentExpr
instance [h : RecDp r r'] : Dp r.stmtListItem r'.stmtListItem := h.stmtListItem
instance [h : RecDp r r'] : Dp r.statement r'.statement := h.statement
instance [h : RecDp r r'] : Dp r.unaryExpr r'.unaryExpr := h.unaryExpr
instance [h : RecDp r r'] : Dp r.exponentiationExpr r'.exponentiationExpr := h.exponentiationExpr
instance [h : RecDp r r'] : Dp r.newExpr r'.newExpr := h.newExpr
instance [h : RecDp r r'] {n k} : Dp (r.precedenceClimbing n k) (r'.precedenceClimbing n k) := h.precedenceClimbing n k
instance [h : RecDp r r'] : Dp r.bindingIdOrPat r'.bindingIdOrPat := h.bindingIdOrPat
instance [h : RecDp r r'] : Dp r.leftHandSideExpr r'.leftHandSideExpr := h.leftHandSideExpr

/-- one step -/
macro "dp1" : tactic => `(tactic| first
  | exact inferInstance
  | with_reducible assumption
  | (with_reducible refine dp_bind ?_ (fun _ => ?_))
  | (with_reducible refine dp_ite ?_ ?_)
  | exact ⟨fun s => Dp.out s⟩
  | (refine dp_bind ?_ (fun _ => ?_))
  | split)

/-- all of them -/
macro "dp" : tactic => `(tactic| repeat dp1)

instance dp_withParams {f : Params → Params} {m m' : PM α} [h : Dp m m'] : Dp (withParams f m) (withParams f m') := by
  unfold withParams; dp
instance dp_withIn {b : Bool} {m m' : PM α} [Dp m m'] : Dp (withIn b m) (withIn b m') := by unfold withIn; dp
instance dp_withDefault {b : Bool} {m m' : PM α} [Dp m m'] : Dp (withDefault b m) (withDefault b m') := by unfold withDefault; dp
instance dp_withReturn {b : Bool} {m m' : PM α} [Dp m m'] : Dp (withReturn b m) (withReturn b m') := by unfold withReturn; dp
instance dp_withYield {b : Bool} {m m' : PM α} [Dp m m'] : Dp (withYield b m) (withYield b m') := by unfold withYield; dp
instance dp_withAwait {b : Bool} {m m' : PM α} [Dp m m'] : Dp (withAwait b m) (withAwait b m') := by unfold withAwait; dp
instance dp_withYieldAwait {y a : Bool} {m m' : PM α} [Dp m m'] : Dp (withYieldAwait y a m) (withYieldAwait y a m') := by
  unfold withYieldAwait; dp

/-! loops: more rounds change nothing, either -/

theorem dp_whilePuncF {p} {m m' : PM α} [h : Dp m m'] {n n' : Nat} (hn : n ≤ n') : Dp (whilePuncF p m n) (whilePuncF p m' n') := by
  induction n generalizing n' with
  | zero => exact dp_fuel
  | succ n ih =>
    cases n' with
    | zero => cases hn
    | succ n' => have := ih (Nat.le_of_succ_le_succ hn); unfold whilePuncF; dp
instance dp_whilePunc {p} {m m' : PM α} [h : Dp m m'] : Dp (whilePunc p m) (whilePunc p m') := dp_budget (fun _ => dp_whilePuncF (Nat.le_refl _))

theorem dp_untilPuncF {p} {m m' : PM α} [h : Dp m m'] {n n' : Nat} (hn : n ≤ n') : Dp (untilPuncF p m n) (untilPuncF p m' n') := by
  induction n generalizing n' with
  | zero => exact dp_fuel
  | succ n ih =>
    cases n' with
    | zero => cases hn
    | succ n' => have := ih (Nat.le_of_succ_le_succ hn); unfold untilPuncF; dp
instance dp_untilPunc {p} {m m' : PM α} [h : Dp m m'] : Dp (untilPunc p m) (untilPunc p m') := dp_budget (fun _ => dp_untilPuncF (Nat.le_refl _))

theorem dp_untilPuncOrRestF {p} {m m' : PM α} [h : Dp m m'] {n n' : Nat} (hn : n ≤ n') : Dp (untilPuncOrRestF p m n) (untilPuncOrRestF p m' n') := by
  induction n generalizing n' with
  | zero => exact dp_fuel
  | succ n ih =>
    cases n' with
    | zero => cases hn
    | succ n' => have := ih (Nat.le_of_succ_le_succ hn); unfold untilPuncOrRestF; dp
instance dp_untilPuncOrRest {p} {m m' : PM α} [h : Dp m m'] : Dp (untilPuncOrRest p m) (untilPuncOrRest p m') :=
  dp_budget (fun _ => dp_untilPuncOrRestF (Nat.le_refl _))

theorem dp_untilEofF {m m' : PM Node} [h : Dp m m'] {n n' : Nat} (hn : n ≤ n') : Dp (untilEofF m n) (untilEofF m' n') := by
  induction n generalizing n' with
  | zero => exact dp_fuel
  | succ n ih =>
    cases n' with
    | zero => cases hn
    | succ n' => have := ih (Nat.le_of_succ_le_succ hn); unfold untilEofF; dp
instance dp_untilEof {m m' : PM Node} [h : Dp m m'] : Dp (untilEof m) (untilEof m') := dp_budget (fun _ => dp_untilEofF (Nat.le_refl _))

/-! the loops of the scanner -/

open Scanner

theorem dp_scanUntilF {α : Type} {pred : Char → Bool} {read : SM α} {n n' : Nat} (hn : n ≤ n') : Dp (scanUntilF pred read n) (scanUntilF pred read n') := by
  induction n generalizing n' with
  | zero => exact dp_fuel
  | succ n ih =>
    cases n' with
    | zero => cases hn
    | succ n' => have := ih (Nat.le_of_succ_le_succ hn); unfold scanUntilF; dp

theorem dp_scan2UntilF {pred : Option Char → Option Char → Bool} {read : SM Char} {n n' : Nat} (hn : n ≤ n') : Dp (scan2UntilF pred read n) (scan2UntilF pred read n') := by
  induction n generalizing n' with
  | zero => exact dp_fuel
  | succ n ih =>
    cases n' with
    | zero => cases hn
    | succ n' => have := ih (Nat.le_of_succ_le_succ hn); unfold scan2UntilF; dp

theorem dp_singleLineLoop {n n' : Nat} (hn : n ≤ n') : Dp (singleLineLoop n) (singleLineLoop n') := by
  induction n generalizing n' with
  | zero => exact dp_fuel
  | succ n ih =>
    cases n' with
    | zero => cases hn
    | succ n' => have := ih (Nat.le_of_succ_le_succ hn); unfold singleLineLoop; dp

theorem dp_multiLineLoop {n n' : Nat} (hn : n ≤ n') : Dp (multiLineLoop n) (multiLineLoop n') := by
  induction n generalizing n' with
  | zero => exact dp_fuel
  | succ n ih =>
    cases n' with
    | zero => cases hn
    | succ n' => have := ih (Nat.le_of_succ_le_succ hn); unfold multiLineLoop; dp

theorem dp_scanCommentsF {n n' : Nat} (hn : n ≤ n') : Dp (scanCommentsF n) (scanCommentsF n') := by
  induction n generalizing n' with
  | zero => exact dp_fuel
  | succ n ih =>
    cases n' with
    | zero => cases hn
    | succ n' => have := ih (Nat.le_of_succ_le_succ hn); unfold scanCommentsF; dp

theorem dp_scanStringCpF {n n' : Nat} (hn : n ≤ n') : Dp (scanStringCpF n) (scanStringCpF n') := by
  induction n generalizing n' with
  | zero => exact dp_fuel
  | succ n ih =>
    cases n' with
    | zero => cases hn
    | succ n' => have := ih (Nat.le_of_succ_le_succ hn); unfold scanStringCpF; dp

theorem dp_regexpBodyF {n n' : Nat} (hn : n ≤ n') : Dp (regexpBodyF n) (regexpBodyF n') := by
  induction n generalizing n' with
  | zero => exact dp_fuel
  | succ n ih =>
    cases n' with
    | zero => cases hn
    | succ n' => have := ih (Nat.le_of_succ_le_succ hn); unfold regexpBodyF; dp

end Parser
end Giron

import Verif.Proofs.Sat
import Verif.Spec.Text
import Verif.Model.Scanner
/-
The effect of consuming characters on the scanner state, and the exact behaviour of the reading loops.
-/
namespace Giron
open M Spec
namespace Scanner

/-- The state after `k` calls of `consume`. -/
def afterN : Nat → Scanner → Scanner
  | 0, s => s
  | k + 1, s => afterN k (afterConsume s)

@[simp] theorem afterN_zero (s : Scanner) : afterN 0 s = s := rfl
theorem afterN_succ (k : Nat) (s : Scanner) : afterN (k + 1) s = afterN k (afterConsume s) := rfl
theorem afterN_one (s : Scanner) : afterN 1 s = afterConsume s := rfl

theorem afterN_add (j k : Nat) (s : Scanner) : afterN (j + k) s = afterN k (afterN j s) := by
  induction j generalizing s with
  | zero => simp
  | succ j ih => rw [Nat.succ_add, afterN_succ, afterN_succ, ih]

theorem afterN_succ' (k : Nat) (s : Scanner) : afterN (k + 1) s = afterConsume (afterN k s) := by
  rw [afterN_add]; rfl

@[simp] theorem afterConsume_rest (s : Scanner) : (afterConsume s).rest = s.rest.tail := by
  unfold afterConsume
  split <;> (try split) <;> (try split) <;> (try split) <;> simp_all

@[simp] theorem afterConsume_current (s : Scanner) : (afterConsume s).current = s.current + 1 := by
  unfold afterConsume
  split <;> (try split) <;> (try split) <;> (try split) <;> simp_all

@[simp] theorem afterConsume_start (s : Scanner) : (afterConsume s).start = s.start := by
  unfold afterConsume
  split <;> (try split) <;> (try split) <;> (try split) <;> simp_all

@[simp] theorem afterConsume_curly (s : Scanner) : (afterConsume s).curly = s.curly := by
  unfold afterConsume
  split <;> (try split) <;> (try split) <;> (try split) <;> simp_all

@[simp] theorem afterConsume_unscanned (s : Scanner) : (afterConsume s).unscanned = s.unscanned := by
  unfold afterConsume
  split <;> (try split) <;> (try split) <;> (try split) <;> simp_all

@[simp] theorem afterConsume_state (s : Scanner) : (afterConsume s).state = s.state := by
  unfold afterConsume
  split <;> (try split) <;> (try split) <;> (try split) <;> simp_all

@[simp] theorem afterConsume_recordRaw (s : Scanner) : (afterConsume s).recordRaw = s.recordRaw := by
  unfold afterConsume
  split <;> (try split) <;> (try split) <;> (try split) <;> simp_all

theorem afterConsume_rawString (s : Scanner) :
    (afterConsume s).rawString = if s.recordRaw then s.rawString ++ s.rest.take 1 else s.rawString := by
  unfold afterConsume
  split <;> (try split) <;> (try split) <;> (try split) <;> simp_all

theorem afterConsume_lines (s : Scanner) :
    (afterConsume s).line + lineBreaks (afterConsume s).rest = s.line + lineBreaks s.rest := by
  rw [afterConsume_rest]
  unfold afterConsume
  cases h : s.rest with
  | nil => simp [lineBreaks]
  | cons c rest =>
    simp only [List.tail_cons, lineBreaks]
    by_cases h1 : c = '\r' ∧ rest.head? = some '\n'
    · simp [h1]
    · by_cases h2 : isLineTerminator c = true
      · simp [h1, h2]; omega
      · simp [h1, h2]

@[simp] theorem afterN_rest (k : Nat) (s : Scanner) : (afterN k s).rest = s.rest.drop k := by
  induction k generalizing s with
  | zero => simp
  | succ k ih => rw [afterN_succ, ih]; simp

@[simp] theorem afterN_current (k : Nat) (s : Scanner) : (afterN k s).current = s.current + k := by
  induction k generalizing s with
  | zero => simp
  | succ k ih => rw [afterN_succ, ih]; simp; omega

@[simp] theorem afterN_start (k : Nat) (s : Scanner) : (afterN k s).start = s.start := by
  induction k generalizing s with
  | zero => simp
  | succ k ih => rw [afterN_succ, ih]; simp

@[simp] theorem afterN_curly (k : Nat) (s : Scanner) : (afterN k s).curly = s.curly := by
  induction k generalizing s with
  | zero => simp
  | succ k ih => rw [afterN_succ, ih]; simp

@[simp] theorem afterN_unscanned (k : Nat) (s : Scanner) : (afterN k s).unscanned = s.unscanned := by
  induction k generalizing s with
  | zero => simp
  | succ k ih => rw [afterN_succ, ih]; simp

@[simp] theorem afterN_state (k : Nat) (s : Scanner) : (afterN k s).state = s.state := by
  induction k generalizing s with
  | zero => simp
  | succ k ih => rw [afterN_succ, ih]; simp

@[simp] theorem afterN_recordRaw (k : Nat) (s : Scanner) : (afterN k s).recordRaw = s.recordRaw := by
  induction k generalizing s with
  | zero => simp
  | succ k ih => rw [afterN_succ, ih]; simp

theorem afterN_rawString (k : Nat) (s : Scanner) :
    (afterN k s).rawString = if s.recordRaw then s.rawString ++ s.rest.take k else s.rawString := by
  induction k generalizing s with
  | zero => simp
  | succ k ih =>
    rw [afterN_succ, ih, afterConsume_rawString]
    by_cases h : s.recordRaw = true
    · simp only [afterConsume_recordRaw, h, if_true, afterConsume_rest, List.append_assoc]
      cases hr : s.rest <;> simp
    · simp [h]

theorem afterN_lines (k : Nat) (s : Scanner) :
    (afterN k s).line + lineBreaks (s.rest.drop k) = s.line + lineBreaks s.rest := by
  induction k generalizing s with
  | zero => simp
  | succ k ih =>
    have h1 := afterConsume_lines s
    have h2 := ih (afterConsume s)
    rw [afterN_succ]
    rw [afterConsume_rest] at h1 h2
    rw [List.drop_tail] at h2
    omega

theorem afterConsume_line_mono (s : Scanner) : s.line ≤ (afterConsume s).line := by
  unfold afterConsume
  split <;> (try split) <;> (try split) <;> (try split) <;> simp_all

theorem afterN_line_mono (k : Nat) (s : Scanner) : s.line ≤ (afterN k s).line := by
  induction k generalizing s with
  | zero => simp
  | succ k ih => exact Nat.le_trans (afterConsume_line_mono s) (ih _)

/-! ### One-step equations -/

theorem consume_eq (s : Scanner) : consume s = .ok (s.rest.head?, afterConsume s) := rfl
theorem peek_eq (s : Scanner) : peek s = .ok (s.rest.head?, s) := rfl
theorem peek2_eq (s : Scanner) : peek2 s = .ok ((s.rest[0]?, s.rest[1]?), s) := rfl

theorem consumeOr_cons {s : Scanner} {c : Char} {r : Str} (t : ErrorType) (h : s.rest = c :: r) :
    consumeOr t s = .ok (c, afterConsume s) := by
  unfold consumeOr
  rw [M.bind_ok (consume_eq s)]
  simp [h, M.pure_apply]

theorem consumeUnwrap_cons {s : Scanner} {c : Char} {r : Str} (h : s.rest = c :: r) :
    consumeUnwrap s = .ok (c, afterConsume s) := by
  unfold consumeUnwrap
  rw [M.bind_ok (consume_eq s)]
  simp [h, M.unwrap, M.pure]

theorem expect_cons {s : Scanner} {c : Char} {r : Str} (h : s.rest = c :: r) :
    expect c s = .ok ((), afterConsume s) := by
  unfold expect
  rw [M.bind_ok (consume_eq s)]
  simp [h, M.pure_apply]

theorem matches_eq (c : Char) (s : Scanner) : «matches» c s = .ok (decide (s.rest.head? = some c), s) := by
  unfold «matches»
  rw [M.bind_ok (peek_eq s)]; rfl

/-- Reading character by character until `pred`. -/
theorem scanUntilF_consumeOr (pred : Char → Bool) (t : ErrorType) (n : Nat) (s : Scanner)
    (h : s.rest.length < n) :
    scanUntilF pred (consumeOr t) n s =
      .ok (s.rest.takeWhile (fun c => !pred c), afterN (s.rest.takeWhile (fun c => !pred c)).length s) := by
  induction n generalizing s with
  | zero => omega
  | succ n ih =>
    unfold scanUntilF
    rw [M.bind_ok (peek_eq s)]
    cases hr : s.rest with
    | nil => simp [M.pure_apply]
    | cons c r =>
      simp only [List.head?_cons]
      by_cases hp : pred c = true
      · simp [hp, M.pure_apply]
      · rw [if_neg hp, M.bind_ok (consumeOr_cons t hr)]
        have := ih (afterConsume s) (by simp [hr] at h ⊢; omega)
        rw [M.bind_ok this]
        simp only [afterConsume_rest, hr, List.tail_cons, M.pure_apply]
        simp [hp, afterN_succ]

theorem scanUntil_consumeOr (pred : Char → Bool) (t : ErrorType) (s : Scanner) :
    scanUntil pred (consumeOr t) s =
      .ok (s.rest.takeWhile (fun c => !pred c), afterN (s.rest.takeWhile (fun c => !pred c)).length s) :=
  scanUntilF_consumeOr pred t _ s (Nat.lt_succ_self _)

end Scanner
end Giron

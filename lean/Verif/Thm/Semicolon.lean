import Verif.Thm.Witness
import Verif.Proofs.Sat
/-
C34: when a statement may end.
-/
namespace Giron
open Parser

/-- A statement may end before the current token without a semicolon: it is `}`, the end of input, or it is on a later
line than the token before it. -/
def MayEnd (s : Parser) : Prop :=
  (s.current.tokentype = .punctuator ∧ s.current.value = .punc .rBrace) ∨ s.current.tokentype = .eof ∨
    s.hasLineTerminator = true

/-- The current token is `;`. -/
def AtSemicolon (s : Parser) : Prop := s.current.tokentype = .punctuator ∧ s.current.value = .punc .semicolon

/-- The flag that C34 speaks of: after reading a token, it tells whether that token is on a later line than the one
before. -/
theorem C34_line_flag [Env] {goal : LexGoal} {s s' : Parser} {t : Token} (h : advance goal s = .ok (t, s')) :
    t = s.current ∧ (s'.hasLineTerminator = true ↔ s.current.lineNum < s'.current.lineNum) := by
  unfold advance at h
  split at h
  · cases h; simp
  · cases h

/-- C34: the end of a statement is accepted exactly at `;`, `}`, the end of input or on a new line.  Then `;` is read
and nothing else is; otherwise the outcome is a failure, never a tree. -/
theorem C34_semicolon [Env] (goal : LexGoal) (s : Parser) :
    (AtSemicolon s → consumeSemicolon goal s = (advance goal s).map (fun r => ((), r.2))) ∧
    (¬ AtSemicolon s → MayEnd s → consumeSemicolon goal s = .ok ((), s)) ∧
    (¬ AtSemicolon s → ¬ MayEnd s → ∀ r, consumeSemicolon goal s ≠ .ok r) ∧
    (¬ AtSemicolon s → ¬ MayEnd s → ∀ r, Scanner.next .regExp s.scanner = .ok r →
      consumeSemicolon goal s =
        .error (.err ⟨s.current.lineNum, s.current.col, .unexpectedToken s.current.value.toString⟩)) := by
  have hP : ∀ p, s.current.isP p = true ↔ s.current.tokentype = .punctuator ∧ s.current.value = .punc p := by
    intro p
    simp only [Token.isP, Token.matchesPunc, Bool.and_eq_true, decide_eq_true_eq]
  have hadv : ∀ {α : Type} (k : Token → PM α), (advance goal >>= k) s =
      match advance goal s with | .ok (a, s') => k a s' | .error e => .error e := fun k => by
    rw [M.bind_apply]; cases advance goal s <;> rfl
  have run : consumeSemicolon goal s =
      (if s.current.isP .semicolon = true then (advance goal >>= fun _ => pure ()) s
       else if (!s.hasLineTerminator) = true then
         if s.current.isP .rBrace = true then .ok ((), s)
         else if s.current.tokentype = .eof then .ok ((), s) else unexpectedCurrent s
       else .ok ((), s)) := by
    show (if s.current.isP .semicolon = true then _ else _ : PM Unit) s = _
    repeat' split
    all_goals rfl
  have bad : ∀ r, (unexpectedCurrent : PM Unit) s ≠ .ok r := by
    intro r h
    have : (unexpectedCurrent : PM Unit) s =
      match advance .regExp s with | .ok (a, s') => unexpected a s' | .error e => .error e := by
      unfold unexpectedCurrent; rw [M.bind_apply]; cases advance .regExp s <;> rfl
    rw [this] at h
    split at h <;> cases h
  refine ⟨fun h => ?_, fun h h' => ?_, fun h h' r => ?_, fun h h' r hr => ?_⟩
  · rw [run, if_pos ((hP _).2 h), hadv]
    cases advance goal s <;> rfl
  · rw [run, if_neg (fun e => h ((hP _).1 e))]
    rcases h' with h' | h' | h'
    · simp [(hP _).2 h']
    · simp [h']
    · simp [h']
  · rw [run, if_neg (fun e => h ((hP _).1 e))]
    simp only [MayEnd, not_or] at h'
    rw [if_pos (by simp [h'.2.2]), if_neg (fun e => h'.1 ((hP _).1 e)), if_neg h'.2.1]
    exact bad r
  · rw [run, if_neg (fun e => h ((hP _).1 e))]
    simp only [MayEnd, not_or] at h'
    rw [if_pos (by simp [h'.2.2]), if_neg (fun e => h'.1 ((hP _).1 e)), if_neg h'.2.1]
    have : (unexpectedCurrent : PM Unit) s =
      match advance .regExp s with | .ok (a, s') => unexpected a s' | .error e => .error e := by
      unfold unexpectedCurrent; rw [M.bind_apply]; cases advance .regExp s <;> rfl
    rw [this]
    have e : advance .regExp s = .ok (s.current, { s with scanner := r.2, current := r.1, hasLineTerminator := decide (r.1.lineNum > s.current.lineNum) }) := by
      unfold advance; rw [hr]
    rw [e]; rfl

/-- Witnesses for C34: a new line ends a statement, a space does not. -/
example :
    letI := ascii
    (Spec.result? (parseScript cs!"a\nb")).isSome = true ∧ (Spec.result? (parseScript cs!"a b")).isSome = false ∧
      (Spec.result? (parseScript cs!"{a}")).isSome = true ∧ (Spec.result? (parseScript cs!"a;b")).isSome = true := by
  decide +kernel

end Giron

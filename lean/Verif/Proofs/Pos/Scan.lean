import Verif.Proofs.Lex.Scan
import Verif.Proofs.Frame.Basic
import Verif.Spec.Scan
/-
Where the scanner stops: at a place that it reaches by consuming characters.
-/
namespace Giron
namespace Pos
open M Scanner
variable [Env] {α β : Type}

/-- the errors of the scanner -/
abbrev LexErr (t : ErrorType) : Prop :=
  t = .invalidOrUnexpectedToken ∨ t = .unexpectedEOS ∨ t = .invalidUnicodeEscapeSequence

/-- what is left, the line and the column -/
def core (s : Scanner) : Str × Nat × Nat := (s.rest, s.line, s.col)

/-- the effect of consuming a character -/
def stepc : Str × Nat × Nat → Str × Nat × Nat
  | ([], l, k) => ([], l, k + 1)
  | (c :: r, l, k) =>
    if c = '\r' ∧ r.head? = some '\n' then (r, l, k + 1)
    else if isLineTerminator c then (r, l + 1, 1)
    else (r, l, k + 1)

/-- the effect of consuming characters -/
def stepcs : Nat → Str × Nat × Nat → Str × Nat × Nat
  | 0, x => x
  | n + 1, x => stepcs n (stepc x)

theorem stepcs_add (j k : Nat) (x) : stepcs (j + k) x = stepcs k (stepcs j x) := by
  induction j generalizing x with
  | zero => simp [stepcs]
  | succ j ih => rw [Nat.succ_add]; exact ih _

theorem core_afterConsume (s : Scanner) : core (afterConsume s) = stepc (core s) := by
  unfold core afterConsume
  cases s.rest with
  | nil => rfl
  | cons c r =>
    simp only [stepc]
    split
    · rfl
    · split <;> rfl

theorem core_afterN (k : Nat) (s : Scanner) : core (afterN k s) = stepcs k (core s) := by
  induction k generalizing s with
  | zero => rfl
  | succ k ih => rw [afterN_succ, ih, core_afterConsume]; rfl

/-- `m` only consumes characters, and its errors are where it has come to -/
class Sc (m : SM α) : Prop where
  out : ∀ s a s', m s = .ok (a, s') → ∃ k, core s' = stepcs k (core s)
  bad : ∀ s e, m s = .error (.err e) → LexErr e.errortype ∧ ∃ k, (e.line, e.col) = (stepcs k (core s)).2

theorem bind_err_inv' {σ : Type} {m : M σ α} {k : α → M σ β} {s : σ} {f : Fail} (h : (m >>= k) s = .error f) :
    m s = .error f ∨ ∃ a s', m s = .ok (a, s') ∧ k a s' = .error f := by
  cases hm : m s with
  | error g =>
    left
    rw [M.bind_err hm] at h
    cases h
    rfl
  | ok p =>
    obtain ⟨a, s'⟩ := p
    right
    rw [M.bind_ok hm] at h
    exact ⟨a, s', rfl, h⟩

theorem bind_ok_inv' {σ : Type} {m : M σ α} {k : α → M σ β} {s s'' : σ} {b : β} (h : (m >>= k) s = .ok (b, s'')) :
    ∃ a s', m s = .ok (a, s') ∧ k a s' = .ok (b, s'') := by
  cases hm : m s with
  | error g => rw [M.bind_err hm] at h; cases h
  | ok p =>
    obtain ⟨a, s'⟩ := p
    rw [M.bind_ok hm] at h
    exact ⟨a, s', rfl, h⟩

theorem sc_bind {m : SM α} {k : α → SM β} (h : Sc m) (hk : ∀ a, Sc (k a)) : Sc (m >>= k) := by
  constructor
  · intro s b s'' hb
    obtain ⟨a, s', h1, h2⟩ := bind_ok_inv' hb
    obtain ⟨j, e1⟩ := h.out _ _ _ h1
    obtain ⟨i, e2⟩ := (hk a).out _ _ _ h2
    exact ⟨j + i, by rw [stepcs_add, ← e1, e2]⟩
  · intro s e hb
    rcases bind_err_inv' hb with h1 | ⟨a, s', h1, h2⟩
    · exact h.bad _ _ h1
    · obtain ⟨j, e1⟩ := h.out _ _ _ h1
      obtain ⟨e2, i, e3⟩ := (hk a).bad _ _ h2
      exact ⟨e2, j + i, by rw [stepcs_add, ← e1, e3]⟩

theorem sc_pure {a : α} : Sc (pure a : SM α) := ⟨fun s b s' h => ⟨0, by cases h; rfl⟩, fun s e h => by (cases h)⟩
instance : Sc (pure a : SM α) := sc_pure
instance : Sc (M.pure a : SM α) := sc_pure
instance : Sc (M.fail .fuel : SM α) := ⟨fun s b s' h => by (cases h), fun s e h => by (cases h)⟩
instance {p : PanicSite} : Sc (M.panic p : SM α) := ⟨fun s b s' h => by (cases h), fun s e h => by (cases h)⟩
instance sc_unwrap {p : PanicSite} {v : Option α} : Sc (M.unwrap p v : SM α) := by
  cases v
  · exact (inferInstance : Sc (M.panic p : SM α))
  · exact sc_pure
theorem sc_ite {c : Prop} [Decidable c] {m n : SM α} (h : Sc m) (h' : Sc n) : Sc (if c then m else n) := by
  split <;> assumption
theorem sc_when {c : Prop} [Decidable c] {m : SM Unit} (h : Sc m) : Sc (M.when c m) := sc_ite h sc_pure
theorem sc_error {t : ErrorType} (h : LexErr t) : Sc (Scanner.error t : SM α) :=
  ⟨fun s b s' h => by (cases h), fun s e he => by cases he; exact ⟨h, 0, rfl⟩⟩
instance : Sc (Scanner.error .invalidOrUnexpectedToken : SM α) := sc_error (.inl rfl)
instance : Sc (Scanner.error .unexpectedEOS : SM α) := sc_error (.inr (.inl rfl))
instance : Sc (Scanner.error .invalidUnicodeEscapeSequence : SM α) := sc_error (.inr (.inr rfl))
instance : Sc peek := ⟨fun s b s' h => by cases h; exact ⟨0, rfl⟩, fun s e h => by (cases h)⟩
instance : Sc peek2 := ⟨fun s b s' h => by cases h; exact ⟨0, rfl⟩, fun s e h => by (cases h)⟩
instance : Sc consume := ⟨fun s b s' h => by cases h; exact ⟨1, core_afterConsume s⟩, fun s e h => by (cases h)⟩
instance : Sc startRecording := ⟨fun s b s' h => by cases h; exact ⟨0, rfl⟩, fun s e h => by (cases h)⟩
instance : Sc stopRecording := ⟨fun s b s' h => by cases h; exact ⟨0, rfl⟩, fun s e h => by (cases h)⟩
instance {f : Scanner → List Brace} : Sc (M.modify fun s : Scanner => { s with curly := f s }) :=
  ⟨fun s b s' h => by cases h; exact ⟨0, rfl⟩, fun s e h => by (cases h)⟩
instance {a b c d e f g h} : Sc (token a b c d e f g h) := by
  constructor
  · intro s x s' hx
    unfold token at hx
    split at hx <;> cases hx
    exact ⟨0, rfl⟩
  · intro s x hx
    unfold token at hx
    split at hx <;> cases hx
instance {a b} : Sc (tokenSimple a b) := by unfold tokenSimple; exact inferInstance
theorem sc_budget {m : Nat → SM α} {f : Scanner → Nat} (h : ∀ n, Sc (m n)) : Sc (fun s => m (f s) s) :=
  ⟨fun s => (h (f s)).out s, fun s => (h (f s)).bad s⟩

/-- one step -/
macro "sc1" : tactic => `(tactic| first
  | exact inferInstance
  | with_reducible assumption
  | (with_reducible refine sc_bind ?_ (fun _ => ?_))
  | (with_reducible refine sc_ite ?_ ?_)
  | (with_reducible refine sc_when ?_)
  | (refine sc_bind ?_ (fun _ => ?_))
  | split)
/-- all of them -/
macro "sc" : tactic => `(tactic| repeat sc1)

instance : Sc consumeUnwrap := by unfold consumeUnwrap; sc
theorem sc_consumeOr {t} (h : LexErr t) : Sc (consumeOr t) := by
  have := sc_error (α := Char) h
  unfold consumeOr; sc
instance : Sc (consumeOr .invalidOrUnexpectedToken) := sc_consumeOr (.inl rfl)
instance : Sc (consumeOr .unexpectedEOS) := sc_consumeOr (.inr (.inl rfl))
instance {c} : Sc (expect c) := by unfold expect; sc
instance {c} : Sc («matches» c) := by unfold «matches»; sc
instance {p} {m : SM α} [h : Sc m] {n} : Sc (scanUntilF p m n) := by
  induction n with
  | zero => unfold scanUntilF; sc
  | succ n ih => unfold scanUntilF; sc
instance {p} {m : SM α} [h : Sc m] : Sc (scanUntil p m) := sc_budget (fun _ => inferInstance)
instance {p} {m : SM Char} [h : Sc m] {n} : Sc (scan2UntilF p m n) := by
  induction n with
  | zero => unfold scan2UntilF; sc
  | succ n ih => unfold scan2UntilF; sc
instance {p} {m : SM Char} [h : Sc m] : Sc (scan2Until p m) := sc_budget (fun _ => inferInstance)
instance {v c} : Sc (foldHexStep v c) := by unfold foldHexStep; sc
instance sc_foldHex : ∀ {v l}, Sc (foldHex v l)
  | v, [] => by unfold foldHex; sc
  | v, c :: l => by
    unfold foldHex
    exact sc_bind inferInstance fun _ => sc_foldHex
theorem sc_hexDigits {t} (h : LexErr t) {n} : ∀ {v}, Sc (hexDigits t n v) := by
  have := sc_error (α := Nat) h
  induction n with
  | zero => intro v; unfold hexDigits; sc
  | succ n ih => intro v; unfold hexDigits; sc
instance {n v} : Sc (hexDigits .invalidOrUnexpectedToken n v) := sc_hexDigits (.inl rfl)
instance {n v} : Sc (hexDigits .invalidUnicodeEscapeSequence n v) := sc_hexDigits (.inr (.inr rfl))
theorem sc_charOr {t} (h : LexErr t) {v} : Sc (charOr t v) := by
  have := sc_error (α := Char) h
  unfold charOr; sc
instance {v} : Sc (charOr .invalidOrUnexpectedToken v) := sc_charOr (.inl rfl)
instance {v} : Sc (charOr .invalidUnicodeEscapeSequence v) := sc_charOr (.inr (.inr rfl))
instance : Sc scanUnicodeEscSeq := by unfold scanUnicodeEscSeq; sc
instance : Sc scanIdentifierStart := by unfold scanIdentifierStart; sc
instance : Sc readIdPart := by unfold readIdPart; sc
instance {v} : Sc (identifierToken v) := by unfold identifierToken; sc
instance : Sc scanIdentifier := by unfold scanIdentifier; sc
instance {n} : Sc (numOr n) := by unfold numOr; sc
instance : Sc scanExponent := by unfold scanExponent; sc
instance {v} : Sc (scanFractionalPart v) := by unfold scanFractionalPart; sc
instance {v} : Sc (scanRadixLiteral v) := by unfold scanRadixLiteral; sc
instance : Sc scanNumericValue := by unfold scanNumericValue; sc
instance : Sc scanNumericLiteral := by unfold scanNumericLiteral; sc
instance : Sc scanHexEscSeq := by unfold scanHexEscSeq; sc
instance : Sc scanOctalEscSeq := by unfold scanOctalEscSeq; sc
instance {n} : Sc (scanStringCpF n) := by
  induction n with
  | zero => unfold scanStringCpF; sc
  | succ n ih => unfold scanStringCpF; sc
instance : Sc scanStringCp := sc_budget (fun _ => inferInstance)
instance : Sc scanStringLiteral := by unfold scanStringLiteral; sc
instance {n} : Sc (regexpBodyF n) := by
  induction n with
  | zero => unfold regexpBodyF; sc
  | succ n ih => unfold regexpBodyF; sc
instance : Sc (fun s => regexpBodyF (s.rest.length + 1) s) := sc_budget (fun _ => inferInstance)
instance : Sc scanRegexpBody := by unfold scanRegexpBody; sc
instance : Sc scanRegexpFlags := by unfold scanRegexpFlags; sc
instance : Sc scanRegexpLiteral := by unfold scanRegexpLiteral; sc
instance : Sc scanTemplateChar := by unfold scanTemplateChar; sc
instance {o h} : Sc (scanTemplateChunk o h) := by unfold scanTemplateChunk; sc
instance {v} : Sc (punc0 v) := by unfold punc0; sc
instance {v} : Sc (punc1 v) := by unfold punc1; sc
instance {v} : Sc (punc2 v) := by unfold punc2; sc
instance : Sc scanPunctuator := by unfold scanPunctuator; sc
instance : Sc scanDivPunctuator := by unfold scanDivPunctuator; sc

theorem sc_at {m : SM α} (h : Sc m) {s s0 : Scanner} {e : Error} (hc : core s = core s0) (he : m s = .error (.err e)) :
    LexErr e.errortype ∧ ∃ k, (e.line, e.col) = (stepcs k (core s0)).2 := hc ▸ h.bad s e he

theorem scanToken_bad {g : LexGoal} {s : Scanner} {e : Error} (h : scanToken g s = .error (.err e)) :
    LexErr e.errortype ∧ ∃ k, (e.line, e.col) = (stepcs k (core s)).2 := by
  unfold scanToken at h
  split at h
  · exact sc_at (inferInstance : Sc (tokenSimple _ _)) rfl h
  · split at h
    · exact sc_at (inferInstance : Sc scanIdentifier) rfl h
    split at h
    · exact sc_at (inferInstance : Sc scanStringLiteral) rfl h
    split at h
    · exact sc_at (inferInstance : Sc scanNumericLiteral) rfl h
    split at h
    · exact sc_at (inferInstance : Sc scanNumericLiteral) rfl h
    split at h
    · exact sc_at (inferInstance : Sc (scanTemplateChunk _ _)) rfl h
    split at h
    · exact sc_at (s := { s with curly := s.curly.tail }) (s0 := s) (inferInstance : Sc (scanTemplateChunk _ _)) rfl h
    split at h
    · exact sc_at (inferInstance : Sc scanDivPunctuator) rfl h
    split at h
    · exact sc_at (inferInstance : Sc scanRegexpLiteral) rfl h
    · exact sc_at (inferInstance : Sc scanPunctuator) rfl h

open Spec

theorem stepcs_nil (k l j : Nat) : stepcs k ([], l, j) = ([], l, j + k) := by
  induction k generalizing j with
  | zero => rfl
  | succ k ih => show stepcs k ([], l, j + 1) = _; rw [ih]; simp only [Prod.mk.injEq, true_and]; omega

/-- where consuming characters leads -/
theorem stepcs_place (k : Nat) (s : Scanner) : ∃ x r, s.rest = x ++ r ∧
    (stepcs k (core s)).2.1 + lineBreaks r = s.line + lineBreaks s.rest ∧
    ((stepcs k (core s)).2.2 = columnAfter s.col x r ∨ r = [] ∧ columnAfter s.col x [] < (stepcs k (core s)).2.2) := by
  by_cases hk : k ≤ s.rest.length
  · refine ⟨s.rest.take k, s.rest.drop k, (List.take_append_drop _ _).symm, ?_, .inl ?_⟩
    · rw [← core_afterN]; exact afterN_lines k s
    · rw [← core_afterN]
      have h := afterN_col (s := s) (x := s.rest.take k) (r := s.rest.drop k) (List.take_append_drop _ _).symm
      rw [List.length_take, Nat.min_eq_left hk] at h
      exact h
  · refine ⟨s.rest, [], (List.append_nil _).symm, ?_, .inr ⟨rfl, ?_⟩⟩
    · rw [← core_afterN]
      have := afterN_lines k s
      rw [List.drop_of_length_le (by omega)] at this
      exact this
    · obtain ⟨j, rfl⟩ : ∃ j, k = s.rest.length + (j + 1) := ⟨k - s.rest.length - 1, by omega⟩
      rw [stepcs_add, ← core_afterN]
      have h1 : core (afterN s.rest.length s) = ([], (afterN s.rest.length s).line, columnAfter s.col s.rest []) := by
        unfold core
        rw [afterN_rest, List.drop_length, afterN_col (x := s.rest) (r := []) (List.append_nil _).symm]
      rw [h1, stepcs_nil]
      show _ < _ + (j + 1)
      omega

/-- what is known if there is no next token -/
theorem next_stop {s : Scanner} {g : LexGoal} {e : Error} (hf : Fresh s) (hu : s.unscanned = none)
    (h : Scanner.next g s = .error (.err e)) :
    ∃ w x r, s.rest = w ++ (x ++ r) ∧ Trivia w (x ++ r) ∧ ¬ StartsTrivia (x ++ r) ∧ LexErr e.errortype ∧
      (∃ q, ∀ y r' c, x ++ r = y ++ r' → ¬ Lexeme g q y r' c) ∧
      e.line + lineBreaks r = s.line + lineBreaks s.rest ∧ (e.col = columnAfter 1 x r ∨ r = [] ∧ columnAfter 1 x [] < e.col) := by
  obtain ⟨w, r0, h0, hw, hn⟩ := exists_trivia s.rest
  have hno : ∀ y r' c, r0 = y ++ r' → ¬ Lexeme g (decide (s.curly.head? = some .template)) y r' c := by
    intro y r' c hy hl
    rw [hy] at h0 hw hn
    rw [next_eq hu hf h0 hw hn hl] at h
    unfold emit at h
    split at h <;> cases h
  unfold Scanner.next at h
  rw [hu] at h
  dsimp only at h
  unfold scanFresh at h
  let s0 : Scanner := { s with newline := false }
  have h1 : (M.modify fun s : Scanner => { s with newline := false }) s = .ok ((), s0) := rfl
  rw [M.bind_ok h1, M.bind_ok (scanComments_eq (s := s0) hw hn h0)] at h
  let s2 : Scanner := { afterN w.length s0 with col := 1, start := (afterN w.length s0).current }
  have h2 : startNewToken (afterN w.length s0) = .ok ((), s2) := rfl
  rw [M.bind_ok h2] at h
  obtain ⟨he, k, hk⟩ := scanToken_bad h
  have hr2 : s2.rest = r0 := by
    show (afterN w.length s0).rest = r0
    rw [afterN_rest]
    show s.rest.drop _ = r0
    rw [h0, List.drop_left]
  obtain ⟨x, r, j1, j2, j3⟩ := stepcs_place k s2
  rw [← hk] at j2 j3
  rw [hr2] at j1 j2
  subst j1
  refine ⟨w, x, r, h0, hw, hn, he, ⟨_, hno⟩, ?_, j3⟩
  have h3 := afterN_lines w.length s0
  have h4 : s0.rest.drop w.length = x ++ r := by
    show s.rest.drop _ = _
    rw [h0, List.drop_left]
  rw [h4] at h3
  have h5 : s2.line = (afterN w.length s0).line := rfl
  have h6 : s0.line = s.line := rfl
  have h7 : s0.rest = s.rest := rfl
  rw [h7] at h3
  dsimp only at j2
  omega

theorem next_stop' {s : Scanner} {g : LexGoal} {e : Error} (hf : Scanner.Fresh s) (h : Scanner.next g s = .error (.err e)) :
    LexErr e.errortype := by
  cases hu : s.unscanned with
  | some u => unfold Scanner.next at h; rw [hu] at h; cases h
  | none => obtain ⟨_, _, _, _, _, _, h, _⟩ := next_stop hf hu h; exact h

/-- errors that say nothing more -/
class Plain (e : ErrorType) : Prop where
  out : ∀ t, e ≠ .unexpectedToken t

instance : Plain .unexpectedReserved := ⟨fun _ h => by cases h⟩
instance : Plain .illegalReturn := ⟨fun _ h => by cases h⟩
instance : Plain .missingInitializer := ⟨fun _ h => by cases h⟩
instance : Plain .invalidLhsInFor := ⟨fun _ h => by cases h⟩
instance : Plain .multipleDefaultsInSwitch := ⟨fun _ h => by cases h⟩
instance : Plain .noIterationStatement := ⟨fun _ h => by cases h⟩
instance : Plain .illegalBreak := ⟨fun _ h => by cases h⟩
instance : Plain .strictWith := ⟨fun _ h => by cases h⟩
instance : Plain .strictFunction := ⟨fun _ h => by cases h⟩
instance : Plain .newlineAfterThrow := ⟨fun _ h => by cases h⟩
instance : Plain .generatorInSingleStatementContext := ⟨fun _ h => by cases h⟩
instance : Plain .missingFunctionName := ⟨fun _ h => by cases h⟩
instance : Plain .invalidLhsInAssignment := ⟨fun _ h => by cases h⟩
instance : Plain .unexpectedTokenUnaryExponentiation := ⟨fun _ h => by cases h⟩
instance : Plain .invalidLhsInPostfixOp := ⟨fun _ h => by cases h⟩
instance : Plain .invalidLhsInPrefixOp := ⟨fun _ h => by cases h⟩
instance : Plain .paramAfterRest := ⟨fun _ h => by cases h⟩
instance : Plain .invalidDestructuringTarget := ⟨fun _ h => by cases h⟩
instance : Plain .unexpectedTemplateString := ⟨fun _ h => by cases h⟩
instance : Plain .yieldInParameter := ⟨fun _ h => by cases h⟩
instance : Plain .awaitExpressionFormalParameter := ⟨fun _ h => by cases h⟩
instance : Plain .unexpectedEOS := ⟨fun _ h => by cases h⟩
instance : Plain .invalidOrUnexpectedToken := ⟨fun _ h => by cases h⟩
instance : Plain .invalidUnicodeEscapeSequence := ⟨fun _ h => by cases h⟩
instance : Plain .invalidRestBindingPattern := ⟨fun _ h => by cases h⟩
instance : Plain .unexpectedStrictReserved := ⟨fun _ h => by cases h⟩

/-- errors that the conversions to patterns raise -/
class Mild (e : ErrorType) : Prop where
  out : e = .invalidOrUnexpectedToken ∨ e = .paramAfterRest ∨ e = .invalidLhsInAssignment ∨ e = .invalidRestBindingPattern

instance : Mild .invalidOrUnexpectedToken := ⟨.inl rfl⟩
instance : Mild .paramAfterRest := ⟨.inr (.inl rfl)⟩
instance : Mild .invalidLhsInAssignment := ⟨.inr (.inr (.inl rfl))⟩
instance : Mild .invalidRestBindingPattern := ⟨.inr (.inr (.inr rfl))⟩

omit [Env] in
theorem Mild.plain {e : ErrorType} (h : Mild e) : Plain e := by
  rcases h.out with rfl | rfl | rfl | rfl <;> infer_instance

theorem LexErr.ne {e : ErrorType} (h : LexErr e) (v : Str) : e ≠ .unexpectedToken v := by
  rintro rfl
  rcases h with h | h | h <;> cases h

end Pos
end Giron

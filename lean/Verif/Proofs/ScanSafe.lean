import Verif.Proofs.ScanBasic
/-
Safety of the scanner: every method, in every state, terminates within its loop budget, fails only with a
line of the source or at one of three panic sites, and consumes characters one after another.
-/
namespace Giron
open M Spec
variable [Env]

/-- How scanning a text of `L` lines may fail. -/
def ScanFail (L : Nat) : Fail → Prop
  | .err e => 1 ≤ e.line ∧ e.line ≤ L
  | .panic p => (p = .escOverflow ∧ Env.checked = true) ∨ p = .unterminatedTemplate ∨
      (p = .tokenEndUnderflow ∧ Env.checked = true)
  | .fuel => False

/-- The line counter is right for a text of `L` lines (or behind, after a push-back). -/
def Pos (L : Nat) (s : Scanner) : Prop := 1 ≤ s.line ∧ s.line + lineBreaks s.rest ≤ L

/-- The value of a token fits its type. -/
def TokShape (t : Token) : Prop :=
  match t.tokentype with
  | .booleanLiteral => t.value = .str cs!"true" ∨ t.value = .str cs!"false"
  | .identifier => ∃ v, t.value = .str v ∧ Scanner.isKeyword v = false ∧
      v ≠ cs!"null" ∧ v ≠ cs!"true" ∧ v ≠ cs!"false"
  | .keyword => ∃ v, t.value = .str v ∧ Scanner.isKeyword v = true
  | .nullLiteral => t.value = .null
  | .numericLiteral => ∃ x, t.value = .num x
  | .stringLiteral => ∃ v, t.value = .str v
  | .punctuator => ∃ p, t.value = .punc p
  | .regularExpression => (∃ v, t.value = .str v) ∧ (∃ p, t.pattern = some p) ∧ ∃ f, t.flags = some f
  | .template => (∃ v, t.value = .str v) ∧ (∃ c, t.cooked = some c) ∧ (∃ b, t.tail = some b)
  | .eof => t.value = .null

/-- A token of a text of `L` lines. -/
def TokOk (L : Nat) (t : Token) : Prop := TokShape t ∧ 1 ≤ t.lineNum ∧ t.lineNum ≤ L

namespace Scanner

omit [Env] in
theorem Pos.afterN {L : Nat} {s : Scanner} (h : Pos L s) (k : Nat) : Pos L (afterN k s) := by
  have h1 := afterN_lines k s
  have h2 := afterN_line_mono k s
  unfold Pos at *
  rw [afterN_rest]
  omega

omit [Env] in
theorem Pos.afterConsume {L : Nat} {s : Scanner} (h : Pos L s) : Pos L (afterConsume s) := Pos.afterN h 1

/-- `m` only consumes characters: `Q a k` relates the result to the number of characters. -/
def Reads {α : Type} (L : Nat) (m : SM α) (s : Scanner) (Q : α → Nat → Prop) : Prop :=
  Sat (ScanFail L) m s (fun a s' => ∃ k, k ≤ s.rest.length ∧ s' = afterN k s ∧ Q a k)

variable {L : Nat} {s : Scanner}

theorem error_sat {α : Type} {Q : α → Scanner → Prop} (h : Pos L s) (t : ErrorType) :
    Sat (ScanFail L) (error t : SM α) s Q := by
  unfold Pos at h
  exact ⟨h.1, by show s.line ≤ L; omega⟩

theorem Reads.bind {α β : Type} {m : SM α} {f : α → SM β} {P : α → Nat → Prop} {Q : β → Nat → Prop}
    (h : Reads L m s P)
    (hf : ∀ a k, k ≤ s.rest.length → P a k → Reads L (f a) (afterN k s) (fun b j => Q b (k + j))) :
    Reads L (m >>= f) s Q := by
  refine Sat.bind h ?_
  rintro a _ ⟨k, hk, rfl, hp⟩
  refine (hf a k hk hp).mono ?_
  rintro b _ ⟨j, hj, rfl, hq⟩
  refine ⟨k + j, ?_, (afterN_add _ _ _).symm, hq⟩
  simp at hj; omega

theorem Reads.pure {α : Type} {a : α} {Q : α → Nat → Prop} (h : Q a 0) : Reads L (Pure.pure a) s Q :=
  ⟨0, Nat.zero_le _, rfl, h⟩

theorem Reads.error {α : Type} {Q : α → Nat → Prop} (h : Pos L s) (t : ErrorType) :
    Reads L (error t : SM α) s Q := error_sat h t

theorem Reads.mono {α : Type} {m : SM α} {P Q : α → Nat → Prop} (h : Reads L m s P)
    (hk : ∀ a k, k ≤ s.rest.length → P a k → Q a k) : Reads L m s Q := by
  refine Sat.mono h ?_
  rintro a _ ⟨k, hk', rfl, hp⟩
  exact ⟨k, hk', rfl, hk _ _ hk' hp⟩

theorem Reads.of_eq {α : Type} {m : SM α} {a : α} {k : Nat} {Q : α → Nat → Prop}
    (h : m s = .ok (a, afterN k s)) (hk : k ≤ s.rest.length) (hq : Q a k) : Reads L m s Q := by
  unfold Reads Sat; rw [h]; exact ⟨k, hk, rfl, hq⟩

theorem Reads.ite {α : Type} {c : Prop} [Decidable c] {m m' : SM α} {Q : α → Nat → Prop}
    (ht : c → Reads L m s Q) (he : ¬ c → Reads L m' s Q) : Reads L (if c then m else m') s Q :=
  Sat.ite ht he

/-- `consume` of a character that is there -/
theorem consume_reads (h : s.rest ≠ []) :
    Reads L consume s (fun a k => a = s.rest.head? ∧ k = 1) := by
  refine Reads.of_eq (k := 1) rfl ?_ ⟨rfl, rfl⟩
  cases hr : s.rest with
  | nil => exact absurd hr h
  | cons => simp

theorem consumeOr_reads (h : Pos L s) (t : ErrorType) :
    Reads L (consumeOr t) s (fun a k => s.rest.head? = some a ∧ k = 1) := by
  cases hr : s.rest with
  | nil =>
    unfold consumeOr
    refine Sat.bind (P := fun a s' => a = none ∧ s' = afterConsume s) ?_ ?_
    · show _ ∧ _; simp [hr]
    · rintro a _ ⟨rfl, rfl⟩
      exact error_sat (Pos.afterConsume h) t
  | cons c r => exact Reads.of_eq (k := 1) (consumeOr_cons t hr) (by simp [hr]) ⟨by simp, rfl⟩

theorem consumeUnwrap_reads (h : s.rest ≠ []) :
    Reads L consumeUnwrap s (fun a k => s.rest.head? = some a ∧ k = 1) := by
  cases hr : s.rest with
  | nil => exact absurd hr h
  | cons c r => exact Reads.of_eq (k := 1) (consumeUnwrap_cons hr) (by simp [hr]) ⟨by simp, rfl⟩

theorem expect_reads (h : Pos L s) (c : Char) :
    Reads L (expect c) s (fun _ k => s.rest.head? = some c ∧ k = 1) := by
  unfold expect
  cases hr : s.rest with
  | nil =>
    refine Sat.bind (P := fun a s' => a = none ∧ s' = afterConsume s) ?_ ?_
    · show _ ∧ _; simp [hr]
    · rintro a _ ⟨rfl, rfl⟩
      simp only [reduceCtorEq, if_false]
      exact error_sat (Pos.afterConsume h) _
  | cons d r =>
    refine Reads.bind (consume_reads (by simp [hr])) ?_
    rintro a k hk ⟨rfl, rfl⟩
    refine Reads.ite (fun hc => Reads.pure ?_) (fun _ => Reads.error (Pos.afterN h _) _)
    simp [hr] at hc ⊢; exact hc

theorem charOr_reads (h : Pos L s) (t : ErrorType) (v : Nat) :
    Reads L (charOr t v) s (fun a k => charFromU32 v = some a ∧ k = 0) := by
  unfold charOr
  split
  · next c hc => exact Reads.pure ⟨hc, rfl⟩
  · exact Reads.error h _

theorem numOr_reads (h : Pos L s) (o : Option Num) :
    Reads L (numOr o) s (fun a k => o = some a ∧ k = 0) := by
  unfold numOr
  split
  · exact Reads.pure ⟨rfl, rfl⟩
  · exact Reads.error h _

omit [Env] in
theorem toDigit16_of_hex {c : Char} (h : isHexDigit c = true) : ∃ d, toDigit16 c = some d ∧ d < 16 := by
  unfold isHexDigit at h
  unfold toDigit16
  unfold inRange at *
  simp at h
  split
  · next h1 => simp at h1; exact ⟨_, rfl, by change 48 ≤ _ ∧ _ ≤ 57 at h1; omega⟩
  · split
    · next h1 => simp at h1; exact ⟨_, rfl, by change 97 ≤ _ ∧ _ ≤ 102 at h1; omega⟩
    · split
      · next h1 => simp at h1; exact ⟨_, rfl, by change 65 ≤ _ ∧ _ ≤ 70 at h1; omega⟩
      · simp_all; omega

theorem hexDigits_reads (h : Pos L s) (t : ErrorType) (n v : Nat) :
    Reads L (hexDigits t n v) s (fun _ k => k = n) := by
  induction n generalizing s v with
  | zero => exact Reads.pure rfl
  | succ n ih =>
    unfold hexDigits
    cases hr : s.rest with
    | nil =>
      refine Sat.bind (P := fun a s' => a = none ∧ s' = afterConsume s) ?_ ?_
      · show _ ∧ _; simp [hr]
      · rintro a _ ⟨rfl, rfl⟩
        exact error_sat (Pos.afterConsume h) _
    | cons d r =>
      refine Reads.bind (consume_reads (by simp [hr])) ?_
      rintro a k hk ⟨rfl, rfl⟩
      simp only [hr, List.head?_cons]
      refine Reads.ite (fun hc => ?_) (fun _ => Reads.error (Pos.afterN h _) _)
      obtain ⟨x, hx, _⟩ := toDigit16_of_hex hc
      refine Reads.bind (P := fun a k => k = 0) ?_ ?_
      · rw [hx]; exact Reads.pure rfl
      · rintro a k hk rfl
        refine (ih (Pos.afterN (Pos.afterN h _) _) _).mono ?_
        rintro _ k _ rfl
        omega

theorem foldHex_reads (v : Nat) (ds : Str) (hd : ∀ c ∈ ds, isHexDigit c = true) :
    Reads L (foldHex v ds) s (fun _ k => k = 0) := by
  induction ds generalizing v s with
  | nil => exact Reads.pure rfl
  | cons c cs ih =>
    unfold foldHex
    obtain ⟨x, hx, _⟩ := toDigit16_of_hex (hd c (by simp))
    refine Reads.bind (P := fun a k => k = 0) ?_ ?_
    · unfold foldHexStep
      rw [hx]
      refine Reads.bind (P := fun a k => k = 0) (Reads.pure rfl) ?_
      rintro a k hk rfl
      refine Reads.ite (fun _ => Reads.pure rfl) (fun _ => Reads.ite (fun hc => ?_) (fun _ => Reads.pure rfl))
      exact Or.inl ⟨rfl, hc⟩
    · rintro a k hk rfl
      refine (ih _ (fun c hc => hd c (by simp [hc]))).mono ?_
      rintro _ k _ rfl; rfl

omit [Env] in
theorem mem_takeWhile {α : Type} {p : α → Bool} {l : List α} {a : α} (h : a ∈ l.takeWhile p) : p a = true := by
  induction l with
  | nil => simp at h
  | cons b l ih =>
    rw [List.takeWhile_cons] at h
    split at h
    · next hb =>
      rcases List.mem_cons.1 h with rfl | h
      · exact hb
      · exact ih h
    · simp at h

omit [Env] in
theorem takeWhile_length_le (p : Char → Bool) (l : Str) : (l.takeWhile p).length ≤ l.length :=
  (List.takeWhile_prefix p).length_le

theorem scanUntil_consumeOr_reads (pred : Char → Bool) (t : ErrorType) :
    Reads L (scanUntil pred (consumeOr t)) s
      (fun a k => a = s.rest.takeWhile (fun c => !pred c) ∧ k = a.length) :=
  Reads.of_eq (scanUntil_consumeOr pred t s) (takeWhile_length_le _ _) ⟨rfl, rfl⟩

theorem scanUntilF_reads {α : Type} (pred : Char → Bool) (read : SM α)
    (hread : ∀ s, Pos L s → (∃ c r, s.rest = c :: r ∧ pred c = false) → Reads L read s (fun _ k => 1 ≤ k))
    (n : Nat) (h : Pos L s) (hn : s.rest.length < n) :
    Reads L (scanUntilF pred read n) s (fun _ _ => True) := by
  induction n generalizing s with
  | zero => omega
  | succ n ih =>
    unfold scanUntilF
    refine Reads.bind (P := fun a k => a = s.rest.head? ∧ k = 0) (Reads.of_eq (k := 0) rfl (by simp) ⟨rfl, rfl⟩) ?_
    rintro a k hk ⟨rfl, rfl⟩
    cases hr : s.rest with
    | nil => exact Reads.pure trivial
    | cons c r =>
      simp only [List.head?_cons]
      refine Reads.ite (fun _ => Reads.pure trivial) (fun hp => ?_)
      refine Reads.bind (hread s h ⟨c, r, hr, by simpa using hp⟩) ?_
      rintro x k hk h1
      refine Reads.bind (ih (Pos.afterN h _) ?_) ?_
      · simp only [afterN_zero, afterN_rest, List.length_drop, hr] at *; omega
      · rintro _ _ _ _; exact Reads.pure trivial

theorem scanUntil_reads {α : Type} (pred : Char → Bool) (read : SM α)
    (hread : ∀ s, Pos L s → (∃ c r, s.rest = c :: r ∧ pred c = false) → Reads L read s (fun _ k => 1 ≤ k))
    (h : Pos L s) : Reads L (scanUntil pred read) s (fun _ _ => True) :=
  scanUntilF_reads pred read hread _ h (Nat.lt_succ_self _)

theorem matches_reads (c : Char) :
    Reads L («matches» c) s (fun a k => a = decide (s.rest.head? = some c) ∧ k = 0) :=
  Reads.of_eq (k := 0) (matches_eq c s) (Nat.zero_le _) ⟨rfl, rfl⟩

theorem peek_reads : Reads L peek s (fun a k => a = s.rest.head? ∧ k = 0) :=
  Reads.of_eq (k := 0) rfl (Nat.zero_le _) ⟨rfl, rfl⟩

theorem peek2_reads : Reads L peek2 s (fun a k => a = (s.rest[0]?, s.rest[1]?) ∧ k = 0) :=
  Reads.of_eq (k := 0) rfl (Nat.zero_le _) ⟨rfl, rfl⟩

theorem scanUnicodeEscSeq_reads (h : Pos L s) :
    Reads L scanUnicodeEscSeq s (fun _ k => 1 ≤ k) := by
  unfold scanUnicodeEscSeq
  refine Reads.bind (expect_reads h _) ?_
  rintro _ k1 _ ⟨_, rfl⟩
  refine Reads.bind (expect_reads (Pos.afterN h _) _) ?_
  rintro _ k2 _ ⟨_, rfl⟩
  refine Reads.bind (matches_reads _) ?_
  rintro _ k3 _ ⟨rfl, rfl⟩
  refine Reads.ite (fun hm => ?_) (fun _ => ?_)
  · refine Reads.bind (consume_reads ?_) ?_
    · intro hn; simp at hm; simp at hn
      rw [List.getElem?_eq_none (by omega)] at hm; cases hm
    rintro _ k4 _ ⟨_, rfl⟩
    refine Reads.bind (scanUntil_consumeOr_reads _ _) ?_
    rintro ds k5 _ ⟨hds, rfl⟩
    refine Reads.bind (foldHex_reads 0 ds ?_) ?_
    · intro c hc
      rw [hds] at hc
      have := mem_takeWhile hc
      simpa using this
    rintro v k6 _ rfl
    refine Reads.bind (expect_reads (by repeat' first | exact h | refine Pos.afterN ?_ _) _) ?_
    rintro _ k7 _ ⟨_, rfl⟩
    refine (charOr_reads (by repeat' first | exact h | refine Pos.afterN ?_ _) _ _).mono ?_
    intros; omega
  · refine Reads.bind (hexDigits_reads (by repeat' first | exact h | refine Pos.afterN ?_ _) _ _ _) ?_
    rintro v k4 _ rfl
    refine (charOr_reads (by repeat' first | exact h | refine Pos.afterN ?_ _) _ _).mono ?_
    intros; omega

end Scanner
end Giron

import Verif.Proofs.Build.Basic
/-
Two builds of the scanner do the same.  (Partly generated: one instance per method.)
-/
namespace Giron
open M Scanner

namespace Build
variable {e o : Env} {st ct : Char → Bool} {ck : Bool} {um : Nat} {pr : Char → Bool}
local notation "e'" => other e st ct ck um pr
variable {α β : Type}

instance ag_peek : Ag e o peek peek := ⟨fun _ _ => .inr ⟨rfl, fun _ h => h⟩⟩

instance ag_peek2 : Ag e o peek2 peek2 := ⟨fun _ _ => .inr ⟨rfl, fun _ h => h⟩⟩

theorem afterConsume_less (s : Scanner) : (afterConsume s).rest ⊆ s.rest := by
  unfold afterConsume
  cases h : s.rest with
  | nil => intro c hc; rw [← h]; simpa [h] using hc
  | cons a r =>
    dsimp only
    split
    · exact List.subset_cons_self _ _
    · split <;> exact List.subset_cons_self _ _

instance ag_consume : Ag e o consume consume := ⟨fun s _ => .inr ⟨rfl, afterConsume_less s⟩⟩

instance ag_error {t : ErrorType} : Ag (α := α) e o (Scanner.error t) (Scanner.error t) := ⟨fun _ _ => .inr ⟨rfl, trivial⟩⟩

instance ag_consumeUnwrap : Ag e o (consumeUnwrap) (consumeUnwrap) := by
  unfold consumeUnwrap; ag

instance ag_consumeOr {t : ErrorType} : Ag e o (consumeOr t) (consumeOr t) := by
  unfold consumeOr; ag

instance ag_startNewToken : Ag e o (startNewToken) (startNewToken) := by
  unfold startNewToken; ag

instance ag_startRecording : Ag e o (startRecording) (startRecording) := by
  unfold startRecording; ag

instance ag_stopRecording : Ag e o stopRecording stopRecording := ⟨fun _ _ => .inr ⟨rfl, fun _ h => h⟩⟩

instance ag_token {tokentype : TokenType} {value : Value} {pattern : Option Str} {flags : Option (List Char)} {octal : Option Bool}
    {cooked : Option Str} {head tail : Option Bool} :
    Ag e e' (@token e tokentype value pattern flags octal cooked head tail) (@token e' tokentype value pattern flags octal cooked head tail) := by
  constructor
  intro s hs
  unfold token
  rcases hs.1 with h | ⟨h1, h2⟩
  · by_cases h0 : s.current = 0
    · left; rw [if_pos ⟨h0, h.1⟩]; exact ⟨h, rfl⟩
    · right
      simp only [h0, false_and, if_false, true_and]
      exact fun _ h => h
  · right
    rw [h1, h2]
    refine ⟨rfl, ?_⟩
    split
    · trivial
    · exact fun _ h => h

instance ag_tokenSimple {tokentype : TokenType} {value : Value} : Ag e e' (@tokenSimple e tokentype value) (@tokenSimple e' tokentype value) := by
  unfold tokenSimple; ag

instance ag_expect {expected : Char} : Ag e o (expect expected) (expect expected) := by
  unfold expect; ag

instance ag_matches {expected : Char} : Ag e o («matches» expected) («matches» expected) := by
  unfold «matches»; ag

theorem ag_scanUntilF' {pred pred' : Char → Bool} {read read' : SM α} (h : Ag e o read read')
    (hp : ∀ c text, Agree e o text → c ∈ text → pred' c = pred c) (n : Nat) : Ag e o (scanUntilF pred read n) (scanUntilF pred' read' n) := by
  induction n with
  | zero => exact ag_fail rfl
  | succ n ih =>
    constructor
    intro s hs
    unfold scanUntilF
    rw [M.bind_ok (show peek s = .ok (s.rest.head?, s) from rfl)]
    rw [M.bind_ok (show peek s = .ok (s.rest.head?, s) from rfl)]
    cases hr : s.rest.head? with
    | none => exact (ag_pure rfl : Ag e o (pure [] : SM (List α)) (pure [])).out s hs
    | some c =>
      have : c ∈ s.rest := List.mem_of_mem_head? hr
      dsimp only
      rw [hp c s.rest hs this]
      have k : Ag e o (if pred c = true then pure [] else do
          let x ← read
          let xs ← scanUntilF pred read n
          pure (x :: xs)) (if pred c = true then pure [] else do
          let x ← read'
          let xs ← scanUntilF pred' read' n
          pure (x :: xs)) := ag_ite Iff.rfl (ag_pure rfl) (ag_bind h fun _ => ag_bind ih fun _ => ag_pure rfl)
      exact k.out s hs
instance ag_scanUntilF {pred : Char → Bool} {read read' : SM α} [h : Ag e o read read'] {n : Nat} :
    Ag e o (scanUntilF pred read n) (scanUntilF pred read' n) := ag_scanUntilF' h (fun _ _ _ _ => rfl) n

theorem ag_scanUntil' {pred pred' : Char → Bool} {read read' : SM α} (h : Ag e o read read')
    (hp : ∀ c text, Agree e o text → c ∈ text → pred' c = pred c) : Ag e o (scanUntil pred read) (scanUntil pred' read') :=
  ag_budget fun n => ag_scanUntilF' h hp n
instance ag_scanUntil {pred : Char → Bool} {read read' : SM α} [h : Ag e o read read'] :
    Ag e o (scanUntil pred read) (scanUntil pred read') := ag_scanUntil' h (fun _ _ _ _ => rfl)

instance ag_scan2UntilF {pred : Option Char → Option Char → Bool} {read read' : SM Char} [h : Ag e o read read'] {n : Nat} :
    Ag e o (scan2UntilF pred read n) (scan2UntilF pred read' n) := by
  induction n with
  | zero => exact ag_fail rfl
  | succ n ih => unfold scan2UntilF; ag

instance ag_scan2Until {pred : Option Char → Option Char → Bool} {read read' : SM Char} [h : Ag e o read read'] :
    Ag e o (scan2Until pred read) (scan2Until pred read') := ag_budget fun _ => inferInstance

instance ag_saveState : Ag e o saveState saveState := ⟨fun _ _ => .inr ⟨rfl, fun _ h => h⟩⟩

instance ag_restoreState {t : Token} : Ag e o (restoreState t) (restoreState t) := by
  constructor
  intro s _
  refine .inr ⟨rfl, ?_⟩
  unfold restoreState
  split
  · exact fun _ h => h
  · trivial

instance ag_singleLineLoop {n : Nat} : Ag e o (singleLineLoop n) (singleLineLoop n) := by
  induction n with
  | zero => exact ag_fail rfl
  | succ n ih => unfold singleLineLoop; ag

instance ag_scanSinglelineComment : Ag e o scanSinglelineComment scanSinglelineComment :=
  ag_bind inferInstance fun _ => ag_bind inferInstance fun _ => ag_budget fun _ => inferInstance

instance ag_multiLineLoop {n : Nat} : Ag e o (multiLineLoop n) (multiLineLoop n) := by
  induction n with
  | zero => exact ag_fail rfl
  | succ n ih => unfold multiLineLoop; ag

instance ag_scanMultilineComment : Ag e o scanMultilineComment scanMultilineComment :=
  ag_bind inferInstance fun _ => ag_bind inferInstance fun _ => ag_budget fun _ => inferInstance

instance ag_scanCommentsF {n : Nat} : Ag e o (scanCommentsF n) (scanCommentsF n) := by
  induction n with
  | zero => exact ag_fail rfl
  | succ n ih => unfold scanCommentsF; ag

instance ag_scanComments : Ag e o scanComments scanComments := ag_budget fun _ => inferInstance

instance ag_foldHexStep {value : Nat} {cp : Char} : Ag e e' (@foldHexStep e value cp) (@foldHexStep e' value cp) := by
  unfold foldHexStep
  refine ag_bind (ag_unwrap rfl) fun d => ?_
  refine ag_ite Iff.rfl (ag_pure rfl) ?_
  constructor
  intro s hs
  rcases hs.1 with h | ⟨h1, h2⟩
  · left; rw [if_pos h.1]; exact ⟨h, rfl⟩
  · right
    rw [h1]
    refine ⟨rfl, ?_⟩
    split
    · trivial
    · exact fun _ h => h

instance ag_foldHex {value : Nat} {ds : Str} : Ag e e' (@foldHex e value ds) (@foldHex e' value ds) := by
  induction ds generalizing value with
  | nil => exact ag_pure rfl
  | cons c ds ih => unfold foldHex; exact ag_bind inferInstance fun _ => ih

instance ag_hexDigits {t : ErrorType} {n value : Nat} : Ag e o (hexDigits t n value) (hexDigits t n value) := by
  induction n generalizing value with
  | zero => exact ag_pure rfl
  | succ n ih => unfold hexDigits; ag

instance ag_charOr {t : ErrorType} {v : Nat} : Ag e o (charOr t v) (charOr t v) := by
  unfold charOr; ag

instance ag_scanUnicodeEscSeq : Ag e e' (@scanUnicodeEscSeq e) (@scanUnicodeEscSeq e') := by
  unfold scanUnicodeEscSeq; ag



instance ag_readIdPart : Ag e e' (@readIdPart e) (@readIdPart e') := by
  unfold readIdPart; ag

instance ag_identifierToken {value : Str} : Ag e e' (@identifierToken e value) (@identifierToken e' value) := by
  unfold identifierToken; ag

theorem same_start {c : Char} {text : Str} (h : Agree e e' text) (hc : c ∈ text) : @isIdentifierStart e' c = @isIdentifierStart e c := by
  unfold isIdentifierStart ucdIdStart
  by_cases hl : c.toNat < 128
  · simp [hl]
  · rw [(h.2 c hc (by omega)).1]

theorem same_continue {c : Char} {text : Str} (h : Agree e e' text) (hc : c ∈ text) : @isIdentifierContinue e' c = @isIdentifierContinue e c := by
  unfold isIdentifierContinue ucdIdContinue
  by_cases hl : c.toNat < 128
  · simp [hl]
  · rw [(h.2 c hc (by omega)).2]

theorem start_eq [Env] {s : Scanner} {c : Char} {r : Str} (hr : s.rest = c :: r) (hb : c ≠ '\\') :
    scanIdentifierStart s = (if isIdentifierStart c then pure c else Scanner.error .invalidOrUnexpectedToken) (afterConsume s) := by
  unfold scanIdentifierStart
  have h1 : (do
      match ← peek with
      | some '\\' => scanUnicodeEscSeq
      | some _ => consumeUnwrap
      | none => Scanner.error .unexpectedEOS) s = .ok (c, afterConsume s) := by
    refine (M.bind_ok (show peek s = .ok (some c, s) by unfold peek; rw [hr]; rfl)).trans ?_
    generalize hx : some c = x
    split
    · cases hx; exact absurd rfl hb
    · refine (M.bind_ok (show consume s = .ok (some c, afterConsume s) by unfold consume; rw [hr]; rfl)).trans rfl
    · cases hx
  exact (M.bind_ok h1).trans rfl

theorem start_nil [Env] {s : Scanner} (hr : s.rest = []) : scanIdentifierStart s = .error (.err ⟨s.line, s.col, .unexpectedEOS⟩) := by
  unfold scanIdentifierStart
  refine M.bind_err ?_
  exact (M.bind_ok (show peek s = .ok (none, s) by unfold peek; rw [hr]; rfl)).trans rfl

/-- identifiers, where there is no escape at the beginning -/
theorem ag_scanIdentifier (s : Scanner) (hs : Agree e e' s.rest) (hb : s.rest.head? ≠ some '\\') :
    Burst e e' (@scanIdentifier e s) ∨ (@scanIdentifier e' s = @scanIdentifier e s ∧ Less s (@scanIdentifier e s)) := by
  unfold scanIdentifier
  cases hr : s.rest with
  | nil =>
    rw [M.bind_err (@start_nil e s hr), M.bind_err (@start_nil e' s hr)]
    exact .inr ⟨rfl, trivial⟩
  | cons c r =>
    have hc : c ∈ s.rest := by rw [hr]; exact List.mem_cons_self
    have h1 := @start_eq e s c r hr (fun h => hb (by rw [hr, h]; rfl))
    have h2 := @start_eq e' s c r hr (fun h => hb (by rw [hr, h]; rfl))
    rw [same_start hs hc] at h2
    cases hi : @isIdentifierStart e c with
    | false =>
      rw [hi] at h1 h2
      rw [M.bind_err h1, M.bind_err h2]
      exact .inr ⟨rfl, trivial⟩
    | true =>
      rw [hi] at h1 h2
      rw [M.bind_ok h1, M.bind_ok h2]
      have hk : Ag e e' (do
          let part ← scanUntil (fun cp => cp != '\\' && !(@isIdentifierContinue e cp)) (@readIdPart e)
          @identifierToken e (c :: part)) (do
          let part ← scanUntil (fun cp => cp != '\\' && !(@isIdentifierContinue e' cp)) (@readIdPart e')
          @identifierToken e' (c :: part)) :=
        ag_bind (ag_scanUntil' inferInstance fun c text h hc => by rw [same_continue h hc]) fun _ => inferInstance
      rcases hk.out (afterConsume s) (hs.mono (afterConsume_less s)) with h | ⟨h, hl⟩
      · exact .inl h
      · refine .inr ⟨h, ?_⟩
        exact hl.mono (afterConsume_less s)

instance ag_numOr {r : Option Num} : Ag e o (numOr r) (numOr r) := by
  unfold numOr; ag

instance ag_scanExponent : Ag e o (scanExponent) (scanExponent) := by
  unfold scanExponent; ag

instance ag_scanFractionalPart {value : Str} : Ag e o (scanFractionalPart value) (scanFractionalPart value) := by
  unfold scanFractionalPart; ag

instance ag_scanRadixLiteral {radix : Nat} : Ag e o (scanRadixLiteral radix) (scanRadixLiteral radix) := by
  unfold scanRadixLiteral; ag

instance ag_scanNumericValue : Ag e o (scanNumericValue) (scanNumericValue) := by
  unfold scanNumericValue; ag

instance ag_scanNumericLiteral : Ag e e' (@scanNumericLiteral e) (@scanNumericLiteral e') := by
  unfold scanNumericLiteral; ag

instance ag_scanHexEscSeq : Ag e o (scanHexEscSeq) (scanHexEscSeq) := by
  unfold scanHexEscSeq; ag

instance ag_scanOctalEscSeq : Ag e o (scanOctalEscSeq) (scanOctalEscSeq) := by
  unfold scanOctalEscSeq; ag

instance ag_scanStringCpF {n : Nat} : Ag e e' (@scanStringCpF e n) (@scanStringCpF e' n) := by
  induction n with
  | zero => exact ag_fail rfl
  | succ n ih => unfold scanStringCpF; ag

instance ag_scanStringCp : Ag e e' (@scanStringCp e) (@scanStringCp e') := ag_budget (m := @scanStringCpF e) (m' := @scanStringCpF e') fun _ => inferInstance

instance ag_scanStringLiteral : Ag e e' (@scanStringLiteral e) (@scanStringLiteral e') := by
  unfold scanStringLiteral; ag

instance ag_regexpBodyF {n : Nat} : Ag e o (regexpBodyF n) (regexpBodyF n) := by
  induction n with
  | zero => exact ag_fail rfl
  | succ n ih => unfold regexpBodyF; ag

instance ag_scanRegexpBody : Ag e o scanRegexpBody scanRegexpBody :=
  ag_bind inferInstance fun _ => ag_bind inferInstance fun _ => ag_ite Iff.rfl inferInstance
    (ag_bind (ag_budget fun _ => inferInstance) fun _ => ag_bind inferInstance fun _ => ag_pure rfl)

instance ag_scanRegexpFlags : Ag e e' (@scanRegexpFlags e) (@scanRegexpFlags e') := by
  unfold scanRegexpFlags
  exact ag_scanUntil' inferInstance fun c text h hc => by rw [same_continue h hc]

instance ag_scanRegexpLiteral : Ag e e' (@scanRegexpLiteral e) (@scanRegexpLiteral e') := by
  unfold scanRegexpLiteral; ag

instance ag_scanTemplateChar : Ag e e' (@scanTemplateChar e) (@scanTemplateChar e') := by
  unfold scanTemplateChar; ag

instance ag_scanTemplateChunk {opening : Char} {head : Bool} : Ag e e' (@scanTemplateChunk e opening head) (@scanTemplateChunk e' opening head) := by
  unfold scanTemplateChunk; ag

instance ag_scanTemplate : Ag e e' (@scanTemplate e) (@scanTemplate e') := by
  unfold scanTemplate; ag

instance ag_scanTemplateSubstitutionTail : Ag e e' (@scanTemplateSubstitutionTail e) (@scanTemplateSubstitutionTail e') := by
  unfold scanTemplateSubstitutionTail; ag

instance ag_punc0 {value : Str} : Ag e e' (@punc0 e value) (@punc0 e' value) := by
  unfold punc0; ag

instance ag_punc1 {value : Str} : Ag e e' (@punc1 e value) (@punc1 e' value) := by
  unfold punc1; ag

instance ag_punc2 {value : Str} : Ag e e' (@punc2 e value) (@punc2 e' value) := by
  unfold punc2; ag

instance ag_scanPunctuator : Ag e e' (@scanPunctuator e) (@scanPunctuator e') := by
  unfold scanPunctuator; ag

instance ag_scanDivPunctuator : Ag e e' (@scanDivPunctuator e) (@scanDivPunctuator e') := by
  unfold scanDivPunctuator; ag

instance ag_scanToken {goal : LexGoal} : Ag e e' (@scanToken e goal) (@scanToken e' goal) := by
  constructor
  intro s hs
  unfold scanToken
  cases hr : s.rest with
  | nil => exact (inferInstance : Ag e e' (@tokenSimple e .eof .null) (@tokenSimple e' .eof .null)).out s hs
  | cons c rest =>
    dsimp only
    have hc : c ∈ s.rest := by rw [hr]; exact List.mem_cons_self
    rw [same_start hs hc]
    by_cases h1 : @isIdentifierStart e c = true
    · rw [if_pos h1, if_pos h1]
      refine ag_scanIdentifier s hs ?_
      rw [hr]
      intro h
      cases h
      revert h1
      simp [isIdentifierStart, ucdIdStart, inRange]
    rw [if_neg h1, if_neg h1]
    by_cases h2 : c = '"' ∨ c = '\''
    · rw [if_pos h2, if_pos h2]; exact Ag.out s hs
    rw [if_neg h2, if_neg h2]
    by_cases h3 : c = '.' ∧ rest.head?.any isDecimalDigit
    · rw [if_pos h3, if_pos h3]; exact Ag.out s hs
    rw [if_neg h3, if_neg h3]
    by_cases h4 : isDecimalDigit c = true
    · rw [if_pos h4, if_pos h4]; exact Ag.out s hs
    rw [if_neg h4, if_neg h4]
    by_cases h5 : c = '`'
    · rw [if_pos h5, if_pos h5]; exact Ag.out s hs
    rw [if_neg h5, if_neg h5]
    by_cases h6 : c = '}' ∧ s.curly.head? = some .template
    · rw [if_pos h6, if_pos h6, ← hr]
      exact Ag.out (m := @scanTemplateSubstitutionTail e) (m' := @scanTemplateSubstitutionTail e') { s with curly := s.curly.tail } hs
    rw [if_neg h6, if_neg h6]
    by_cases h7 : c = '/' ∧ goal = .div
    · rw [if_pos h7, if_pos h7]; exact Ag.out s hs
    rw [if_neg h7, if_neg h7]
    by_cases h8 : c = '/' ∧ goal = .regExp
    · rw [if_pos h8, if_pos h8]; exact Ag.out s hs
    rw [if_neg h8, if_neg h8]
    exact Ag.out s hs

instance ag_scanFresh {goal : LexGoal} : Ag e e' (@scanFresh e goal) (@scanFresh e' goal) := by
  unfold scanFresh; ag

instance ag_next {goal : LexGoal} : Ag e e' (@next e goal) (@next e' goal) := by
  constructor
  intro s hs
  unfold next
  cases s.unscanned with
  | some t => exact .inr ⟨rfl, fun _ h => h⟩
  | none => exact Ag.out (m := @scanFresh e goal) (m' := @scanFresh e' goal) s hs

end Build
end Giron

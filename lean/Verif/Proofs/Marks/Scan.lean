import Verif.Model.Parser.Module
import Verif.Proofs.Sat
/-
What does not use the span stack does not find it empty: the scanner.  (Partly generated: one instance per method.)
-/
namespace Giron
open M Scanner

namespace Marks
variable {σ α β : Type}

/-- never finds the span stack empty -/
class Nsp (m : M σ α) : Prop where
  out : ∀ s, m s ≠ .error (.panic .spanStack)

theorem ns_bind {m : M σ α} {k : α → M σ β} (h : Nsp m) (hk : ∀ a, Nsp (k a)) : Nsp (m >>= k) := by
  constructor
  intro s hs
  cases hm : m s with
  | error f => rw [M.bind_err hm] at hs; cases hs; exact h.out s hm
  | ok x => obtain ⟨a, s'⟩ := x; rw [M.bind_ok hm] at hs; exact (hk a).out s' hs

theorem ns_fail {f : Fail} (h : f ≠ .panic .spanStack) : Nsp (M.fail f : M σ α) := ⟨fun s hs => by cases hs; exact h rfl⟩
theorem ns_panic {p : PanicSite} (h : p ≠ .spanStack) : Nsp (M.panic p : M σ α) := ns_fail fun e => by cases e; exact h rfl
instance ns_pure {a : α} : Nsp (Pure.pure a : M σ α) := ⟨fun s hs => by cases hs⟩
instance ns_pure' {a : α} : Nsp (M.pure a : M σ α) := ns_pure
instance ns_get : Nsp (M.get : M σ σ) := ⟨fun s hs => by cases hs⟩
instance ns_modify {f : σ → σ} : Nsp (M.modify f) := ⟨fun s hs => by cases hs⟩
theorem ns_ite {c : Prop} [Decidable c] {m n : M σ α} (h : Nsp m) (h' : Nsp n) : Nsp (if c then m else n) := by
  split <;> assumption
theorem ns_when {c : Prop} [Decidable c] {m : M σ Unit} (h : Nsp m) : Nsp (M.when c m) := by
  unfold M.when
  exact ns_ite h ns_pure
theorem ns_unwrap {p : PanicSite} {v : Option α} (h : p ≠ .spanStack) : Nsp (M.unwrap p v : M σ α) := by
  cases v
  · exact ns_panic h
  · exact ns_pure
theorem ns_ofExcept {x : Except Fail α} (h : x ≠ .error (.panic .spanStack)) : Nsp (M.ofExcept x : M σ α) := by
  cases x with
  | error f => exact ns_fail fun e => h (by rw [e])
  | ok a => exact ns_pure

/-- one step -/
macro "ns1" : tactic => `(tactic| first
  | exact inferInstance
  | with_reducible assumption
  | (with_reducible exact ns_panic (fun h => by cases h))
  | (with_reducible exact ns_fail (fun h => by cases h))
  | (with_reducible exact ns_unwrap (fun h => by cases h))
  | (with_reducible refine ns_bind ?_ (fun _ => ?_))
  | (with_reducible refine ns_ite ?_ ?_)
  | (with_reducible refine ns_when ?_)
  | exact ⟨fun _ => Nsp.out _⟩
  | (refine ns_bind ?_ (fun _ => ?_))
  | (refine ns_ite ?_ ?_)
  | split)

/-- all of them -/
macro "ns" : tactic => `(tactic| repeat ns1)

section
variable [Env]

instance ns_peek : Nsp (peek) := by
  refine ⟨fun s h => ?_⟩
  unfold peek at h
  (repeat' split at h) <;> cases h

instance ns_peek2 : Nsp (peek2) := by
  refine ⟨fun s h => ?_⟩
  unfold peek2 at h
  (repeat' split at h) <;> cases h

instance ns_consume : Nsp (consume) := by
  refine ⟨fun s h => ?_⟩
  unfold consume at h
  (repeat' split at h) <;> cases h

instance ns_error {t : ErrorType} : Nsp (α := α) (error t) := by
  refine ⟨fun s h => ?_⟩
  unfold error at h
  (repeat' split at h) <;> cases h

instance ns_consumeUnwrap : Nsp (consumeUnwrap) := by
  unfold consumeUnwrap; ns

instance ns_consumeOr {t : ErrorType} : Nsp (consumeOr t) := by
  unfold consumeOr; ns

instance ns_startNewToken : Nsp (startNewToken) := by
  unfold startNewToken; ns

instance ns_startRecording : Nsp (startRecording) := by
  unfold startRecording; ns

instance ns_stopRecording : Nsp (stopRecording) := by
  refine ⟨fun s h => ?_⟩
  unfold stopRecording at h
  (repeat' split at h) <;> cases h

instance ns_token {tokentype : TokenType} {value : Value} {pattern : Option Str} {flags : Option (List Char)} {octal : Option Bool} {cooked : Option Str} {head : Option Bool} {tail : Option Bool} : Nsp (token tokentype value pattern flags octal cooked head tail) := by
  refine ⟨fun s h => ?_⟩
  unfold token at h
  (repeat' split at h) <;> cases h

instance ns_tokenSimple {tokentype : TokenType} {value : Value} : Nsp (tokenSimple tokentype value) := by
  unfold tokenSimple; ns

instance ns_expect {expected : Char} : Nsp (expect expected) := by
  unfold expect; ns

instance ns_matches {expected : Char} : Nsp («matches» expected) := by
  unfold «matches»; ns

instance ns_scanUntilF {pred : Char → Bool} {m : SM α} [Nsp m] (n : Nat) : Nsp (scanUntilF pred m n) := by
  induction n with
  | zero => unfold scanUntilF; ns
  | succ n ih => unfold scanUntilF; ns

instance ns_scanUntil {pred : Char → Bool} {m : SM α} [Nsp m] : Nsp (scanUntil pred m) := by
  unfold scanUntil; ns

instance ns_scan2UntilF {pred : Option Char → Option Char → Bool} {m : SM Char} [Nsp m] (n : Nat) : Nsp (scan2UntilF pred m n) := by
  induction n with
  | zero => unfold scan2UntilF; ns
  | succ n ih => unfold scan2UntilF; ns

instance ns_scan2Until {pred : Option Char → Option Char → Bool} {m : SM Char} [Nsp m] : Nsp (scan2Until pred m) := by
  unfold scan2Until; ns

instance ns_saveState : Nsp (saveState) := by
  refine ⟨fun s h => ?_⟩
  unfold saveState at h
  (repeat' split at h) <;> cases h

instance ns_restoreState {t : Token} : Nsp (restoreState t) := by
  refine ⟨fun s h => ?_⟩
  unfold restoreState at h
  (repeat' split at h) <;> cases h

instance ns_singleLineLoop (n : Nat) : Nsp (singleLineLoop n) := by
  induction n with
  | zero => unfold singleLineLoop; ns
  | succ n ih => unfold singleLineLoop; ns

instance ns_scanSinglelineComment : Nsp (scanSinglelineComment) := by
  unfold scanSinglelineComment; ns

instance ns_multiLineLoop (n : Nat) : Nsp (multiLineLoop n) := by
  induction n with
  | zero => unfold multiLineLoop; ns
  | succ n ih => unfold multiLineLoop; ns

instance ns_scanMultilineComment : Nsp (scanMultilineComment) := by
  unfold scanMultilineComment; ns

instance ns_scanCommentsF (n : Nat) : Nsp (scanCommentsF n) := by
  induction n with
  | zero => unfold scanCommentsF; ns
  | succ n ih => unfold scanCommentsF; ns

instance ns_scanComments : Nsp (scanComments) := by
  unfold scanComments; ns

instance ns_foldHexStep {value : Nat} {cp : Char} : Nsp (foldHexStep value cp) := by
  unfold foldHexStep; ns

theorem ns_foldHex (l : Str) : ∀ n : Nat, Nsp (foldHex n l) := by
  induction l with
  | nil => intro n; unfold foldHex; ns
  | cons c l ih => intro n; unfold foldHex; exact ns_bind inferInstance fun _ => ih _
instance ns_foldHex' {n : Nat} {l : Str} : Nsp (foldHex n l) := ns_foldHex l n

instance ns_hexDigits {t : ErrorType} (n : Nat) (z : Nat) : Nsp (hexDigits t n z) := by
  induction n generalizing z with
  | zero => unfold hexDigits; ns
  | succ n ih => unfold hexDigits; ns

instance ns_charOr {t : ErrorType} {v : Nat} : Nsp (charOr t v) := by
  unfold charOr; ns

instance ns_scanUnicodeEscSeq : Nsp (scanUnicodeEscSeq) := by
  unfold scanUnicodeEscSeq; ns

instance ns_scanIdentifierStart : Nsp (scanIdentifierStart) := by
  unfold scanIdentifierStart; ns

instance ns_readIdPart : Nsp (readIdPart) := by
  unfold readIdPart; ns

instance ns_identifierToken {value : Str} : Nsp (identifierToken value) := by
  unfold identifierToken; ns

instance ns_scanIdentifier : Nsp (scanIdentifier) := by
  unfold scanIdentifier; ns

instance ns_numOr {r : Option Num} : Nsp (numOr r) := by
  unfold numOr; ns

instance ns_scanExponent : Nsp (scanExponent) := by
  unfold scanExponent; ns

instance ns_scanFractionalPart {value : Str} : Nsp (scanFractionalPart value) := by
  unfold scanFractionalPart; ns

instance ns_scanRadixLiteral {radix : Nat} : Nsp (scanRadixLiteral radix) := by
  unfold scanRadixLiteral; ns

instance ns_scanNumericValue : Nsp (scanNumericValue) := by
  unfold scanNumericValue; ns

instance ns_scanNumericLiteral : Nsp (scanNumericLiteral) := by
  unfold scanNumericLiteral; ns

instance ns_scanHexEscSeq : Nsp (scanHexEscSeq) := by
  unfold scanHexEscSeq; ns

instance ns_scanOctalEscSeq : Nsp (scanOctalEscSeq) := by
  unfold scanOctalEscSeq; ns

instance ns_scanStringCpF (n : Nat) : Nsp (scanStringCpF n) := by
  induction n with
  | zero => unfold scanStringCpF; ns
  | succ n ih => unfold scanStringCpF; ns

instance ns_scanStringCp : Nsp (scanStringCp) := by
  unfold scanStringCp; ns

instance ns_scanStringLiteral : Nsp (scanStringLiteral) := by
  unfold scanStringLiteral; ns

instance ns_regexpBodyF (n : Nat) : Nsp (regexpBodyF n) := by
  induction n with
  | zero => unfold regexpBodyF; ns
  | succ n ih => unfold regexpBodyF; ns

instance ns_scanRegexpBody : Nsp (scanRegexpBody) := by
  unfold scanRegexpBody; ns

instance ns_scanRegexpFlags : Nsp (scanRegexpFlags) := by
  unfold scanRegexpFlags; ns

instance ns_scanRegexpLiteral : Nsp (scanRegexpLiteral) := by
  unfold scanRegexpLiteral; ns

instance ns_scanTemplateChar : Nsp (scanTemplateChar) := by
  unfold scanTemplateChar; ns

instance ns_scanTemplateChunk {opening : Char} {head : Bool} : Nsp (scanTemplateChunk opening head) := by
  unfold scanTemplateChunk; ns

instance ns_scanTemplate : Nsp (scanTemplate) := by
  unfold scanTemplate; ns

instance ns_scanTemplateSubstitutionTail : Nsp (scanTemplateSubstitutionTail) := by
  unfold scanTemplateSubstitutionTail; ns

instance ns_punc0 {value : Str} : Nsp (punc0 value) := by
  unfold punc0; ns

instance ns_punc1 {value : Str} : Nsp (punc1 value) := by
  unfold punc1; ns

instance ns_punc2 {value : Str} : Nsp (punc2 value) := by
  unfold punc2; ns

instance ns_scanPunctuator : Nsp (scanPunctuator) := by
  unfold scanPunctuator; ns

instance ns_scanDivPunctuator : Nsp (scanDivPunctuator) := by
  unfold scanDivPunctuator; ns

instance ns_scanToken {goal : LexGoal} : Nsp (scanToken goal) := by
  refine ⟨fun s h => ?_⟩
  unfold scanToken at h
  (repeat' split at h) <;> first | exact absurd h (Nsp.out _) | cases h

instance ns_scanFresh {goal : LexGoal} : Nsp (scanFresh goal) := by
  unfold scanFresh; ns

instance ns_next {goal : LexGoal} : Nsp (next goal) := by
  refine ⟨fun s h => ?_⟩
  unfold next at h
  (repeat' split at h) <;> first | exact absurd h (Nsp.out _) | cases h

end
end Marks
end Giron

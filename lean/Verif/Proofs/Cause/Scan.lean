import Verif.Model.Parser.Module
import Verif.Proofs.Sat
import Verif.Proofs.Lex.Scan
import Verif.Spec.Causes
/-
The panics whose cause is in the words are not raised by the scanner.  (Partly generated: one instance per method.)
-/
namespace Giron
open M Scanner

namespace Cause
variable {σ α β : Type}

/-- the panics looked for -/
def Watched : Fail → Prop
  | .panic .tokenNotStr => True
  | .panic .invalidPunctuator => True
  | .panic .importString => True
  | .panic (.unreachableArm l) => l = 2965
  | .panic .unterminatedTemplate => True
  | _ => False

/-- never panics in one of these ways -/
class Nop (m : M σ α) : Prop where
  out : ∀ s f, m s = .error f → ¬ Watched f

theorem ns_bind {m : M σ α} {k : α → M σ β} (h : Nop m) (hk : ∀ a, Nop (k a)) : Nop (m >>= k) := by
  constructor
  intro s f hs
  cases hm : m s with
  | error g => rw [M.bind_err hm] at hs; cases hs; exact h.out s _ hm
  | ok x => obtain ⟨a, s'⟩ := x; rw [M.bind_ok hm] at hs; exact (hk a).out s' f hs

theorem ns_fail {f : Fail} (h : ¬ Watched f) : Nop (M.fail f : M σ α) := ⟨fun s g hs => by cases hs; exact h⟩
theorem ns_panic {p : PanicSite} (h : ¬ Watched (.panic p)) : Nop (M.panic p : M σ α) := ns_fail h
instance ns_pure {a : α} : Nop (Pure.pure a : M σ α) := ⟨fun s f hs => by cases hs⟩
instance ns_pure' {a : α} : Nop (M.pure a : M σ α) := ns_pure
instance ns_get : Nop (M.get : M σ σ) := ⟨fun s f hs => by cases hs⟩
instance ns_modify {f : σ → σ} : Nop (M.modify f) := ⟨fun s f hs => by cases hs⟩
theorem ns_ite {c : Prop} [Decidable c] {m n : M σ α} (h : Nop m) (h' : Nop n) : Nop (if c then m else n) := by
  split <;> assumption
theorem ns_when {c : Prop} [Decidable c] {m : M σ Unit} (h : Nop m) : Nop (M.when c m) := by
  unfold M.when
  exact ns_ite h ns_pure
theorem ns_unwrap {p : PanicSite} {v : Option α} (h : ¬ Watched (.panic p)) : Nop (M.unwrap p v : M σ α) := by
  cases v
  · exact ns_panic h
  · exact ns_pure
theorem ns_ofExcept {x : Except Fail α} (h : ∀ f, x = .error f → ¬ Watched f) : Nop (M.ofExcept x : M σ α) := by
  cases x with
  | error f => exact ns_fail (h f rfl)
  | ok a => exact ns_pure

/-- one step -/
macro "ns1" : tactic => `(tactic| first
  | exact inferInstance
  | with_reducible assumption
  | (with_reducible exact ns_panic (by simp [Watched]))
  | (with_reducible exact ns_fail (by simp [Watched]))
  | (with_reducible exact ns_unwrap (by simp [Watched]))
  | (with_reducible refine ns_bind ?_ (fun _ => ?_))
  | (with_reducible refine ns_ite ?_ ?_)
  | (with_reducible refine ns_when ?_)
  | exact ⟨fun _ _ => Nop.out _ _⟩
  | (refine ns_bind ?_ (fun _ => ?_))
  | (refine ns_ite ?_ ?_)
  | split)

/-- all of them -/
macro "ns" : tactic => `(tactic| repeat ns1)

section
variable [Env]

instance ns_peek : Nop (peek) := by
  refine ⟨fun s f h => ?_⟩
  unfold peek at h
  (repeat' split at h) <;> cases h <;> try simp [Watched]

instance ns_peek2 : Nop (peek2) := by
  refine ⟨fun s f h => ?_⟩
  unfold peek2 at h
  (repeat' split at h) <;> cases h <;> try simp [Watched]

instance ns_consume : Nop (consume) := by
  refine ⟨fun s f h => ?_⟩
  unfold consume at h
  (repeat' split at h) <;> cases h <;> try simp [Watched]

instance ns_error {t : ErrorType} : Nop (α := α) (error t) := by
  refine ⟨fun s f h => ?_⟩
  unfold error at h
  (repeat' split at h) <;> cases h <;> try simp [Watched]

instance ns_consumeUnwrap : Nop (consumeUnwrap) := by
  unfold consumeUnwrap; ns

instance ns_consumeOr {t : ErrorType} : Nop (consumeOr t) := by
  unfold consumeOr; ns

instance ns_startNewToken : Nop (startNewToken) := by
  unfold startNewToken; ns

instance ns_startRecording : Nop (startRecording) := by
  unfold startRecording; ns

instance ns_stopRecording : Nop (stopRecording) := by
  refine ⟨fun s f h => ?_⟩
  unfold stopRecording at h
  (repeat' split at h) <;> cases h <;> try simp [Watched]

instance ns_token {tokentype : TokenType} {value : Value} {pattern : Option Str} {flags : Option (List Char)} {octal : Option Bool} {cooked : Option Str} {head : Option Bool} {tail : Option Bool} : Nop (token tokentype value pattern flags octal cooked head tail) := by
  refine ⟨fun s f h => ?_⟩
  unfold token at h
  (repeat' split at h) <;> cases h <;> try simp [Watched]

instance ns_tokenSimple {tokentype : TokenType} {value : Value} : Nop (tokenSimple tokentype value) := by
  unfold tokenSimple; ns

instance ns_expect {expected : Char} : Nop (expect expected) := by
  unfold expect; ns

instance ns_matches {expected : Char} : Nop («matches» expected) := by
  unfold «matches»; ns

instance ns_scanUntilF {pred : Char → Bool} {m : SM α} [Nop m] (n : Nat) : Nop (scanUntilF pred m n) := by
  induction n with
  | zero => unfold scanUntilF; ns
  | succ n ih => unfold scanUntilF; ns

instance ns_scanUntil {pred : Char → Bool} {m : SM α} [Nop m] : Nop (scanUntil pred m) := by
  unfold scanUntil; ns

instance ns_scan2UntilF {pred : Option Char → Option Char → Bool} {m : SM Char} [Nop m] (n : Nat) : Nop (scan2UntilF pred m n) := by
  induction n with
  | zero => unfold scan2UntilF; ns
  | succ n ih => unfold scan2UntilF; ns

instance ns_scan2Until {pred : Option Char → Option Char → Bool} {m : SM Char} [Nop m] : Nop (scan2Until pred m) := by
  unfold scan2Until; ns

instance ns_saveState : Nop (saveState) := by
  refine ⟨fun s f h => ?_⟩
  unfold saveState at h
  (repeat' split at h) <;> cases h <;> try simp [Watched]

instance ns_restoreState {t : Token} : Nop (restoreState t) := by
  refine ⟨fun s f h => ?_⟩
  unfold restoreState at h
  (repeat' split at h) <;> cases h <;> try simp [Watched]

instance ns_singleLineLoop (n : Nat) : Nop (singleLineLoop n) := by
  induction n with
  | zero => unfold singleLineLoop; ns
  | succ n ih => unfold singleLineLoop; ns

instance ns_scanSinglelineComment : Nop (scanSinglelineComment) := by
  unfold scanSinglelineComment; ns

instance ns_multiLineLoop (n : Nat) : Nop (multiLineLoop n) := by
  induction n with
  | zero => unfold multiLineLoop; ns
  | succ n ih => unfold multiLineLoop; ns

instance ns_scanMultilineComment : Nop (scanMultilineComment) := by
  unfold scanMultilineComment; ns

instance ns_scanCommentsF (n : Nat) : Nop (scanCommentsF n) := by
  induction n with
  | zero => unfold scanCommentsF; ns
  | succ n ih => unfold scanCommentsF; ns

instance ns_scanComments : Nop (scanComments) := by
  unfold scanComments; ns

instance ns_foldHexStep {value : Nat} {cp : Char} : Nop (foldHexStep value cp) := by
  unfold foldHexStep; ns

theorem ns_foldHex (l : Str) : ∀ n : Nat, Nop (foldHex n l) := by
  induction l with
  | nil => intro n; unfold foldHex; ns
  | cons c l ih => intro n; unfold foldHex; exact ns_bind inferInstance fun _ => ih _
instance ns_foldHex' {n : Nat} {l : Str} : Nop (foldHex n l) := ns_foldHex l n

instance ns_hexDigits {t : ErrorType} (n : Nat) (z : Nat) : Nop (hexDigits t n z) := by
  induction n generalizing z with
  | zero => unfold hexDigits; ns
  | succ n ih => unfold hexDigits; ns

instance ns_charOr {t : ErrorType} {v : Nat} : Nop (charOr t v) := by
  unfold charOr; ns

instance ns_scanUnicodeEscSeq : Nop (scanUnicodeEscSeq) := by
  unfold scanUnicodeEscSeq; ns

instance ns_scanIdentifierStart : Nop (scanIdentifierStart) := by
  unfold scanIdentifierStart; ns

instance ns_readIdPart : Nop (readIdPart) := by
  unfold readIdPart; ns

instance ns_identifierToken {value : Str} : Nop (identifierToken value) := by
  unfold identifierToken; ns

instance ns_scanIdentifier : Nop (scanIdentifier) := by
  unfold scanIdentifier; ns

instance ns_numOr {r : Option Num} : Nop (numOr r) := by
  unfold numOr; ns

instance ns_scanExponent : Nop (scanExponent) := by
  unfold scanExponent; ns

instance ns_scanFractionalPart {value : Str} : Nop (scanFractionalPart value) := by
  unfold scanFractionalPart; ns

instance ns_scanRadixLiteral {radix : Nat} : Nop (scanRadixLiteral radix) := by
  unfold scanRadixLiteral; ns

instance ns_scanNumericValue : Nop (scanNumericValue) := by
  unfold scanNumericValue; ns

instance ns_scanNumericLiteral : Nop (scanNumericLiteral) := by
  unfold scanNumericLiteral; ns

instance ns_scanHexEscSeq : Nop (scanHexEscSeq) := by
  unfold scanHexEscSeq; ns

instance ns_scanOctalEscSeq : Nop (scanOctalEscSeq) := by
  unfold scanOctalEscSeq; ns

instance ns_scanStringCpF (n : Nat) : Nop (scanStringCpF n) := by
  induction n with
  | zero => unfold scanStringCpF; ns
  | succ n ih => unfold scanStringCpF; ns

instance ns_scanStringCp : Nop (scanStringCp) := by
  unfold scanStringCp; ns

instance ns_scanStringLiteral : Nop (scanStringLiteral) := by
  unfold scanStringLiteral; ns

instance ns_regexpBodyF (n : Nat) : Nop (regexpBodyF n) := by
  induction n with
  | zero => unfold regexpBodyF; ns
  | succ n ih => unfold regexpBodyF; ns

instance ns_scanRegexpBody : Nop (scanRegexpBody) := by
  unfold scanRegexpBody; ns

instance ns_scanRegexpFlags : Nop (scanRegexpFlags) := by
  unfold scanRegexpFlags; ns

instance ns_scanRegexpLiteral : Nop (scanRegexpLiteral) := by
  unfold scanRegexpLiteral; ns

instance ns_scanTemplateChar : Nop (scanTemplateChar) := by
  unfold scanTemplateChar; ns

/-- a chunk of a template: it goes on to the end of the source -/
theorem chunk_runs {b : Char} {head : Bool} {s : Scanner} {f : Fail} (h : scanTemplateChunk b head s = .error f) (hf : Watched f) :
    f = .panic .unterminatedTemplate ∧ ∃ body v, s.rest = b :: body ∧ Spec.TemplateBody body [] v := by
  unfold scanTemplateChunk at h
  cases ha : expect b s with
  | error g => rw [M.bind_err ha] at h; cases h; exact absurd hf (Nop.out (m := expect b) _ _ ha)
  | ok y =>
  obtain ⟨_, sa⟩ := y
  rw [M.bind_ok ha] at h
  obtain ⟨r0, hr0⟩ : ∃ r0, s.rest = b :: r0 := by
    unfold expect at ha
    rw [M.bind_ok (consume_eq s)] at ha
    by_cases hb : s.rest.head? = some b
    · exact head?_cases _ hb
    · rw [if_neg hb] at ha; cases ha
  rw [expect_cons hr0] at ha
  cases ha
  let s1 : Scanner := { afterConsume s with recordRaw := true }
  have hs1 : startRecording (afterConsume s) = .ok ((), s1) := rfl
  rw [M.bind_ok hs1] at h
  cases h2 : scan2Until templateStop scanTemplateChar s1 with
  | error g => rw [M.bind_err h2] at h; cases h; exact absurd hf (Nop.out (m := scan2Until templateStop scanTemplateChar) _ _ h2)
  | ok y =>
  obtain ⟨v, s2⟩ := y
  rw [M.bind_ok h2] at h
  obtain ⟨x, r1, hx, rfl, hb, hends⟩ := templateBodyF_eats (s := s1) _ _ _ h2
  have hx' : r0 = x ++ r1 := by
    rw [← hx]
    show _ = (afterConsume s).rest
    rw [rest_afterConsume hr0]
  by_cases hne : r1 = []
  · subst hne
    refine ⟨?_, x, v, by rw [hr0, hx']; simp, hb⟩
    have hrest : (afterN x.length s1).rest = [] := by rw [rest_afterN_append hx]
    have hs2 : stopRecording (afterN x.length s1) = .ok ((afterN x.length s1).rawString, erase (afterN x.length s1)) := rfl
    rw [M.bind_ok hs2, bind_peek2, show (erase (afterN x.length s1)).rest = [] from hrest] at h
    simp only [List.getElem?_nil, reduceCtorEq, false_and, if_false] at h
    cases h
    rfl
  · refine absurd hf ?_
    have hs2 : stopRecording (afterN x.length s1) = .ok ((afterN x.length s1).rawString, erase (afterN x.length s1)) := rfl
    rw [M.bind_ok hs2, bind_peek2, show (erase (afterN x.length s1)).rest = r1 from rest_afterN_append hx] at h
    dsimp only at h
    rcases hends hne with ⟨y, rfl⟩ | ⟨y, rfl⟩
    · rw [if_neg (by simp), if_pos (by simp)] at h
      refine (?_ : Nop _).out _ _ h; ns
    · rw [if_pos (by simp)] at h
      refine (?_ : Nop _).out _ _ h; ns

theorem ns_punc0 {value : Str} (h : (Punctuator.ofStr value).isSome = true) : Nop (punc0 value) := by
  unfold punc0
  cases hv : Punctuator.ofStr value with
  | none => rw [hv] at h; cases h
  | some p => exact ns_bind ns_pure fun _ => by ns

theorem ns_punc1 {value : Str} (h : (Punctuator.ofStr value).isSome = true) : Nop (punc1 value) := by
  unfold punc1; exact ns_bind inferInstance fun _ => ns_punc0 h

theorem ns_punc2 {value : Str} (h : (Punctuator.ofStr value).isSome = true) : Nop (punc2 value) := by
  unfold punc2; exact ns_bind inferInstance fun _ => ns_bind inferInstance fun _ => ns_punc0 h

theorem single_isSome {c : Char} (h : isSingleCharPunctuator c = true) : (Punctuator.ofStr [c]).isSome = true := by
  unfold isSingleCharPunctuator at h
  simp only [Bool.or_eq_true, beq_iff_eq] at h
  rcases h with (((((((((h | h) | h) | h) | h) | h) | h) | h) | h) | h) <;> subst h <;> decide

theorem ns_ite' {c : Prop} [Decidable c] {m n : M σ α} (h : c → Nop m) (h' : ¬ c → Nop n) : Nop (if c then m else n) := by
  split
  · exact h ‹_›
  · exact h' ‹_›

macro "np1" : tactic => `(tactic| first
  | exact ns_punc0 (by decide)
  | exact ns_punc1 (by decide)
  | exact ns_punc2 (by decide)
  | exact ns_punc1 (single_isSome (by assumption))
  | (refine ns_ite' (fun _ => ?_) (fun _ => ?_))
  | ns1)
macro "np" : tactic => `(tactic| repeat np1)

instance ns_scanPunctuator : Nop (scanPunctuator) := by
  unfold scanPunctuator; np

instance ns_scanDivPunctuator : Nop (scanDivPunctuator) := by
  unfold scanDivPunctuator; np

theorem scanToken_runs {goal : LexGoal} {s : Scanner} {f : Fail} (h : scanToken goal s = .error f) (hf : Watched f) :
    f = .panic .unterminatedTemplate ∧ ∃ b body v, s.rest = b :: body ∧ (b = '`' ∨ b = '}' ∧ s.curly.head? = some .template) ∧
      Spec.TemplateBody body [] v := by
  have key : ∀ {m : SM Token} {s' : Scanner}, Nop m → m s' = .error f → False := fun hm e => hm.out _ _ e hf
  cases hr : s.rest with
  | nil =>
    unfold scanToken at h
    rw [hr] at h
    exact (key (m := tokenSimple .eof .null) inferInstance h).elim
  | cons c rest =>
    rw [scanToken_cons hr] at h
    by_cases h1 : isIdentifierStart c = true
    · rw [if_pos h1] at h; exact (key inferInstance h).elim
    rw [if_neg h1] at h
    by_cases h2 : c = '"' ∨ c = '\''
    · rw [if_pos h2] at h; exact (key inferInstance h).elim
    rw [if_neg h2] at h
    by_cases h3 : c = '.' ∧ rest.head?.any isDecimalDigit
    · rw [if_pos h3] at h; exact (key inferInstance h).elim
    rw [if_neg h3] at h
    by_cases h4 : isDecimalDigit c = true
    · rw [if_pos h4] at h; exact (key inferInstance h).elim
    rw [if_neg h4] at h
    by_cases h5 : c = '`'
    · rw [if_pos h5] at h
      obtain ⟨e, body, v, h6, h7⟩ := chunk_runs (b := '`') (head := true) h hf
      rw [hr] at h6
      cases h6
      exact ⟨e, _, _, v, rfl, .inl rfl, h7⟩
    rw [if_neg h5] at h
    by_cases h6 : c = '}' ∧ s.curly.head? = some .template
    · rw [if_pos h6] at h
      obtain ⟨e, body, v, h8, h7⟩ := chunk_runs (b := '}') (head := false) h hf
      have h8 : s.rest = '}' :: body := h8
      rw [hr] at h8
      cases h8
      exact ⟨e, _, _, v, rfl, .inr ⟨rfl, h6.2⟩, h7⟩
    rw [if_neg h6] at h
    refine (?_ : False).elim
    (repeat' split at h) <;> exact key inferInstance h

/-- the scanner: there is a template that goes on to the end of the source -/
theorem next_runs {goal : LexGoal} {s : Scanner} {f : Fail} (h : next goal s = .error f) (hf : Watched f) :
    f = .panic .unterminatedTemplate ∧ s.unscanned = none ∧ ∃ w b body v, s.rest = w ++ b :: body ∧ Spec.Trivia w (b :: body) ∧
      (b = '`' ∨ b = '}' ∧ s.curly.head? = some .template) ∧ Spec.TemplateBody body [] v := by
  unfold next at h
  split at h
  · cases h
  next hu =>
  obtain ⟨w, r0, h0, hw, hn⟩ := exists_trivia s.rest
  unfold scanFresh at h
  let s0 : Scanner := { s with newline := false }
  have h1 : (M.modify fun s : Scanner => { s with newline := false }) s = .ok ((), s0) := rfl
  rw [M.bind_ok h1, M.bind_ok (scanComments_eq (s := s0) hw hn h0)] at h
  let s2 : Scanner := { afterN w.length s0 with col := 1, start := (afterN w.length s0).current }
  have h2 : startNewToken (afterN w.length s0) = .ok ((), s2) := rfl
  rw [M.bind_ok h2] at h
  obtain ⟨e, b, body, v, k1, k2, k3⟩ := scanToken_runs h hf
  have hr2 : s2.rest = r0 := by
    show (afterN w.length s0).rest = r0
    exact rest_afterN_append (s := s0) h0
  have hc : s2.curly = s.curly := by
    show (afterN w.length s0).curly = s.curly
    simp [s0]
  rw [hr2] at k1
  subst k1
  rw [hc] at k2
  exact ⟨e, hu, w, b, body, v, h0, hw, k2, k3⟩

/-- What the scanner remembers: it is at a place in the source, and a substitution is open only if there is a backquote. -/
structure Mind (source : Str) (s : Scanner) : Prop where
  fresh : Fresh s
  text : s.rest <:+ source
  curly : '`' ∉ source → Brace.template ∉ s.curly

theorem braces_mind {goal : LexGoal} {source x r : Str} {b : List Brace} {c : Spec.Content} (hx : x ++ r <:+ source)
    (h : '`' ∉ source → Brace.template ∉ b) (hl : Spec.Lexeme goal (decide (b.head? = some .template)) x r c)
    (hn : '`' ∉ source) : Brace.template ∉ c.braces b := by
  have hb := h hn
  have ht : Brace.template ∉ b.tail := fun h => hb (List.mem_of_mem_tail h)
  cases hl with
  | @template q x e r v head tail he hbody =>
    cases he with
    | whole => exact absurd (hx.subset (by simp)) hn
    | first => exact absurd (hx.subset (by simp)) hn
    | middle h1 =>
      cases b with
      | nil => simp at h1
      | cons d b => simp at h1; subst h1; exact absurd List.mem_cons_self hb
    | last h1 => exact ht
  | @punct x r p =>
    cases p <;> first
      | exact hb
      | exact ht
      | (intro h; rcases List.mem_cons.1 h with h | h
         · cases h
         · exact hb h)
  | _ => exact hb

theorem mind_next {goal : LexGoal} {source : Str} {s s' : Scanner} {t : Token} (h : Mind source s) (hn : next goal s = .ok (t, s')) :
    Mind source s' ∧ s'.state = s.state := by
  cases hu : s.unscanned with
  | some t' =>
    unfold next at hn
    rw [hu] at hn
    cases hn
    exact ⟨⟨h.fresh, h.text, h.curly⟩, rfl⟩
  | none =>
    obtain ⟨w, x, r, c, h1, h2, h3, h4⟩ := next_inv hu hn
    rw [next_eq hu h.fresh h1 h2 h3 h4] at hn
    unfold emit at hn
    split at hn
    · cases hn
    cases hn
    let s0 : Scanner := { s with newline := false }
    have hr0 : s0.rest = w ++ (x ++ r) := h1
    let s2 : Scanner := { afterN w.length s0 with col := 1, start := s.current + w.length }
    have hr2 : s2.rest = x ++ r := by
      show (afterN w.length s0).rest = x ++ r
      exact rest_afterN_append hr0
    have hr3 : (afterN x.length s2).rest = r := rest_afterN_append hr2
    have hf2 : Fresh s2 := Fresh.afterN (s := s0) h.fresh w.length
    have hxr : x ++ r <:+ source := List.IsSuffix.trans ⟨w, h1.symm⟩ h.text
    refine ⟨⟨Fresh.afterN hf2 x.length, (show (afterN x.length s2).rest <:+ source by rw [hr3]; exact List.IsSuffix.trans ⟨x, rfl⟩ hxr),
      fun hq => braces_mind hxr h.curly h4 hq⟩, ?_⟩
    show (Scanner.afterN x.length s2).state = s.state
    rw [Scanner.afterN_state]
    show (Scanner.afterN w.length s0).state = s.state
    rw [Scanner.afterN_state]

end
end Cause
end Giron

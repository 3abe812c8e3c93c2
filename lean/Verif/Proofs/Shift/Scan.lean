import Verif.Model.Scanner
import Verif.Proofs.Sat
import Verif.Spec.Moved
/-
Moving the text: a scanner that has read `d` more characters and `ℓ` more line breaks before the same remaining text
does the same, with all positions moved.
-/
namespace Giron
open M

/-- the token with its position moved by `d` characters and `ℓ` lines -/
def Token.moved (d ℓ : Nat) (t : Token) : Token :=
  { t with lineNum := t.lineNum + ℓ, start := t.start + d, «end» := t.end + d }

namespace Scanner
variable [Env] {α β : Type} {d ℓ : Nat} {p q o : Bool}

/-- saved states: moved, the newline flag aside; something has been read -/
def StMoved (d ℓ : Nat) : Option ScannerState → Option ScannerState → Prop
  | none, x => x = none
  | some a, x => 1 ≤ a.current ∧ ∃ nl, x = some ⟨a.start + d, a.current + d, a.line + ℓ, a.col, nl, a.rawString, a.curly⟩

/-- `s'` is `s` moved, the newline flag aside.  With `p`, something has been read. -/
structure MovedBy (d ℓ : Nat) (p : Bool) (s s' : Scanner) : Prop where
  eq : ∃ nl st, s' = ⟨s.start + d, s.current + d, s.line + ℓ, s.col, nl, s.rest, s.recordRaw, s.rawString, s.curly,
    s.unscanned.map (Token.moved d ℓ), st⟩ ∧ StMoved d ℓ s.state st
  pos : p = true → 1 ≤ s.current

/-- the second outcome is the first one moved -/
def Out (d ℓ : Nat) (q : Bool) (V : α → α → Prop) (x y : Except Fail (α × Scanner)) : Prop :=
  match x with
  | .ok (a, t) => ∃ b t', y = .ok (b, t') ∧ V a b ∧ MovedBy d ℓ q t t'
  | .error f => y = .error (f.moved ℓ)

/-- `m` does the same on moved states. -/
class Shift (d ℓ : Nat) (p : Bool) (q : outParam Bool) (m : SM α) (V : outParam (α → α → Prop)) : Prop where
  out : ∀ s s', MovedBy d ℓ p s s' →
    Out d ℓ q V (m s) (m s')

theorem sh_bind {m : SM α} {k : α → SM β} {V : α → α → Prop} {W : β → β → Prop} (h : Shift d ℓ p q m V)
    (hk : ∀ a b, V a b → ∀ s s', MovedBy d ℓ q s s' →
      Out d ℓ o W (k a s) (k b s')) : Shift d ℓ p o (m >>= k) W := by
  constructor
  intro s s' hs
  have h1 := h.out s s' hs
  cases hm : m s with
  | error f =>
    rw [hm] at h1
    rw [M.bind_err hm]
    exact M.bind_err h1
  | ok r =>
    obtain ⟨a, t⟩ := r
    rw [hm] at h1
    obtain ⟨b, t', e, hv, ht⟩ := h1
    rw [M.bind_ok hm, M.bind_ok e]
    exact hk a b hv t t' ht

/-- bind with equal values -/
theorem sh_bindEq {m : SM α} {k : α → SM β} {W : β → β → Prop} (h : Shift d ℓ p q m Eq)
    (hk : ∀ a, Shift d ℓ q o (k a) W) : Shift d ℓ p o (m >>= k) W :=
  sh_bind h (fun a b e s s' hs => by subst e; exact (hk a).out s s' hs)

theorem sh_weaken {m : SM α} {V : α → α → Prop} (h : Shift d ℓ false q m V) : Shift d ℓ p q m V :=
  ⟨fun s s' hs => h.out s s' ⟨hs.eq, by intro h; cases h⟩⟩

theorem sh_weakenR {m : SM α} {V : α → α → Prop} (h : Shift d ℓ p q m V) : Shift d ℓ p false m V := by
  constructor
  intro s s' hs
  have := h.out s s' hs
  cases hm : m s with
  | error f => rw [hm] at this; exact this
  | ok r =>
    rw [hm] at this
    obtain ⟨b, t', e, hv, ht⟩ := this
    exact ⟨b, t', e, hv, ht.eq, by intro h; cases h⟩

theorem sh_pureV {V : α → α → Prop} {a : α} (h : V a a) : Shift d ℓ p p (pure a : SM α) V :=
  ⟨fun s s' hs => ⟨a, s', rfl, h, hs⟩⟩

instance sh_pure {a : α} : Shift d ℓ p p (Pure.pure a : SM α) Eq := sh_pureV rfl

instance sh_pure' {a : α} : Shift d ℓ p p (M.pure a : SM α) Eq := sh_pureV rfl

theorem sh_failV {f : Fail} {V : α → α → Prop} (h : f.moved ℓ = f) : Shift d ℓ p q (M.fail f : SM α) V :=
  ⟨fun _ _ _ => by show Except.error f = Except.error (f.moved ℓ); rw [h]⟩

theorem sh_fuel {V : α → α → Prop} : Shift d ℓ p q (M.fail .fuel : SM α) V := sh_failV rfl

theorem sh_panicV {x : PanicSite} {V : α → α → Prop} : Shift d ℓ p q (M.panic x : SM α) V := sh_failV rfl

theorem sh_ite {c : Prop} [Decidable c] {m m' : SM α} {V : α → α → Prop} (h : c → Shift d ℓ p q m V)
    (h' : ¬ c → Shift d ℓ p q m' V) : Shift d ℓ p q (if c then m else m') V := by
  by_cases hc : c
  · rw [if_pos hc]; exact h hc
  · rw [if_neg hc]; exact h' hc

theorem sh_cond {c : Bool} {m m' : SM α} {V : α → α → Prop} (h : c = true → Shift d ℓ p q m V)
    (h' : ¬ c = true → Shift d ℓ p q m' V) : Shift d ℓ p q (if c then m else m') V := sh_ite h h'

instance sh_unwrap {x : PanicSite} {v : Option α} : Shift d ℓ p p (M.unwrap x v : SM α) Eq := by
  cases v
  · exact sh_panicV
  · exact sh_pureV rfl

/-- `scanner.error` -/
theorem sh_errorV {t : ErrorType} {V : α → α → Prop} : Shift d ℓ p q (error t : SM α) V := by
  constructor
  intro s s' hs
  obtain ⟨nl, st, rfl, -⟩ := hs.eq
  rfl

instance sh_peek : Shift d ℓ p p peek Eq := by
  constructor
  intro s s' hs
  obtain ⟨nl, st, rfl, -⟩ := hs.eq
  exact ⟨_, _, rfl, rfl, hs⟩

instance sh_peek2 : Shift d ℓ p p peek2 Eq := by
  constructor
  intro s s' hs
  obtain ⟨nl, st, rfl, -⟩ := hs.eq
  exact ⟨_, _, rfl, rfl, hs⟩

instance sh_consume : Shift d ℓ p true consume Eq := by
  constructor
  intro s s' hs
  obtain ⟨nl, st, rfl, hst⟩ := hs.eq
  refine ⟨_, _, rfl, rfl, ?_⟩
  unfold afterConsume
  cases hr : s.rest with
  | nil => exact ⟨⟨nl, st, by simp [Nat.add_right_comm], hst⟩, fun _ => by simp⟩
  | cons c rest =>
    simp only []
    split
    · exact ⟨⟨nl, st, by simp [Nat.add_right_comm], hst⟩, fun _ => by simp⟩
    · split
      · exact ⟨⟨true, st, by simp [Nat.add_right_comm], hst⟩, fun _ => by simp⟩
      · exact ⟨⟨nl, st, by simp [Nat.add_right_comm], hst⟩, fun _ => by simp⟩

/-- tokens are moved -/
abbrev TV (d ℓ : Nat) (t t' : Token) : Prop := t' = t.moved d ℓ

theorem token_read {s : Scanner} (h : 1 ≤ s.current) {tt v pa fl oc co he ta} :
    token tt v pa fl oc co he ta s = .ok (⟨tt, v, pa, fl, oc, co, he, ta, s.line, s.col, s.start, s.current - 1⟩, s) := by
  unfold Scanner.token
  rw [if_neg (by omega), if_neg (by omega)]

instance sh_token {tt v pa fl oc co he ta} : Shift d ℓ true true (token tt v pa fl oc co he ta) (TV d ℓ) := by
  constructor
  intro s s' hs
  have hp := hs.pos rfl
  obtain ⟨nl, st, rfl, hst⟩ := hs.eq
  rw [token_read hp, token_read (by simp; omega)]
  refine ⟨_, _, rfl, ?_, hs⟩
  simp only [TV, Token.moved, Token.mk.injEq, true_and]
  omega

instance sh_tokenSimple {tt v} : Shift d ℓ true true (tokenSimple tt v) (TV d ℓ) := sh_token

/-- a budget that depends on the remaining text only -/
theorem sh_budget {F : Nat → SM α} {V : α → α → Prop} (h : ∀ n, Shift d ℓ p q (F n) V) :
    Shift d ℓ p q (fun s => F (s.rest.length + 1) s) V := by
  constructor
  intro s s' hs
  have := (h (s.rest.length + 1)).out s s' hs
  obtain ⟨nl, st, rfl, hst⟩ := hs.eq
  exact this

theorem sh_modifyV {f : Scanner → Scanner} (h : ∀ s s', MovedBy d ℓ p s s' → MovedBy d ℓ q (f s) (f s')) :
    Shift d ℓ p q (M.modify f : SM Unit) Eq := by
  constructor
  intro s s' hs
  exact ⟨_, _, rfl, rfl, h s s' hs⟩

/-! ### the functions -/

/-- one step of a proof -/
macro "sstep" : tactic => `(tactic| first
  | exact inferInstance
  | exact sh_errorV
  | exact sh_panicV
  | exact sh_fuel
  | exact sh_pureV rfl
  | (refine sh_bindEq inferInstance (fun _ => ?_))
  | (refine sh_ite (fun _ => ?_) (fun _ => ?_)))

instance sh_consumeUnwrap : Shift d ℓ p true consumeUnwrap Eq := by
  unfold Scanner.consumeUnwrap; repeat sstep

instance sh_consumeOr {t} : Shift d ℓ p true (consumeOr t) Eq := by
  unfold Scanner.consumeOr
  refine sh_bindEq inferInstance (fun c => ?_)
  cases c <;> repeat sstep

instance sh_expect {c} : Shift d ℓ p true (expect c) Eq := by
  unfold Scanner.expect; repeat sstep

instance sh_matches {c} : Shift d ℓ p p («matches» c) Eq := by
  unfold Scanner.«matches»; repeat sstep

instance sh_startRecording : Shift d ℓ p p startRecording Eq :=
  sh_modifyV (fun s s' h => by obtain ⟨nl, st, rfl, hst⟩ := h.eq; exact ⟨⟨nl, st, rfl, hst⟩, h.pos⟩)

instance sh_startNewToken : Shift d ℓ p p startNewToken Eq :=
  sh_modifyV (fun s s' h => by obtain ⟨nl, st, rfl, hst⟩ := h.eq; exact ⟨⟨nl, st, rfl, hst⟩, h.pos⟩)

instance sh_stopRecording : Shift d ℓ p p stopRecording Eq := by
  constructor
  intro s s' h
  obtain ⟨nl, st, rfl, hst⟩ := h.eq
  exact ⟨_, _, rfl, rfl, ⟨nl, st, rfl, hst⟩, h.pos⟩

theorem sh_saveState : Shift d ℓ true true saveState Eq :=
  sh_modifyV (fun s s' h => by
    obtain ⟨nl, st, rfl, hst⟩ := h.eq
    exact ⟨⟨nl, _, rfl, h.pos rfl, nl, rfl⟩, h.pos⟩)

theorem sh_restoreState {t : Token} {s s' : Scanner} (h : MovedBy d ℓ p s s') :
    Out d ℓ true Eq (restoreState t s) (restoreState (t.moved d ℓ) s') := by
  obtain ⟨nl, st, rfl, hst⟩ := h.eq
  unfold Scanner.restoreState
  cases hs : s.state with
  | none => rw [hs] at hst; cases hst; rfl
  | some a =>
    rw [hs] at hst
    obtain ⟨h1, nl', rfl⟩ := hst
    exact ⟨_, _, rfl, rfl, ⟨nl', none, rfl, rfl⟩, fun _ => h1⟩

theorem sh_scanUntilF {pred : Char → Bool} {read : SM α} (h : Shift d ℓ p p read Eq) (n : Nat) :
    Shift d ℓ p p (scanUntilF pred read n) Eq := by
  induction n with
  | zero => exact sh_fuel
  | succ n ih =>
    unfold Scanner.scanUntilF
    refine sh_bindEq inferInstance (fun c => ?_)
    cases c <;> repeat sstep

instance sh_scanUntil {pred : Char → Bool} {read : SM α} [h : Shift d ℓ true true read Eq] :
    Shift d ℓ true true (scanUntil pred read) Eq := sh_budget (fun n => sh_scanUntilF h n)

/-- when the first character is read, something has been read -/
theorem sh_scanUntil_first {pred : Char → Bool} {read : SM α} (h : ∀ p, Shift d ℓ p true read Eq) {s s' : Scanner}
    (hs : MovedBy d ℓ p s s') {c : Char} (hc : s.rest.head? = some c) (hp : pred c = false) :
    Out d ℓ true Eq (scanUntil pred read s) (scanUntil pred read s') := by
  have e : ∀ (k : Nat) (x : Scanner), x.rest.head? = some c → scanUntilF pred read (k + 1) x =
      (read >>= fun x => scanUntilF pred read k >>= fun xs => pure (x :: xs)) x := by
    intro k x hx
    conv => lhs; unfold Scanner.scanUntilF
    rw [M.bind_apply]
    simp [Scanner.peek, hx, hp]
  have hr : s'.rest = s.rest := by obtain ⟨nl, st, rfl, hst⟩ := hs.eq; rfl
  unfold Scanner.scanUntil
  rw [hr, e _ s hc, e _ s' (by rw [hr]; exact hc)]
  have key : ∀ n, Shift d ℓ p true (read >>= fun x => scanUntilF pred read n >>= fun xs => pure (x :: xs)) Eq :=
    fun n => sh_bindEq (h p) (fun a => sh_bindEq (sh_scanUntilF (h true) n) (fun as => sh_pureV (V := Eq) rfl))
  exact (key _).out s s' hs

theorem sh_scan2UntilF {pred} {read : SM Char} (h : Shift d ℓ p p read Eq) (n : Nat) :
    Shift d ℓ p p (scan2UntilF pred read n) Eq := by
  induction n with
  | zero => exact sh_fuel
  | succ n ih =>
    unfold Scanner.scan2UntilF
    refine sh_bindEq inferInstance (fun c => ?_)
    obtain ⟨c1, c2⟩ := c
    cases c1 <;> repeat sstep

instance sh_scan2Until {pred} {read : SM Char} [h : Shift d ℓ true true read Eq] :
    Shift d ℓ true true (scan2Until pred read) Eq := sh_budget (fun n => sh_scan2UntilF h n)

/-! ### comments -/

instance sh_singleLineLoop (n : Nat) : Shift d ℓ true true (singleLineLoop n) Eq := by
  induction n with
  | zero => exact sh_fuel
  | succ n ih =>
    unfold Scanner.singleLineLoop
    refine sh_bindEq inferInstance (fun c => ?_)
    cases c <;> repeat sstep

instance sh_scanSinglelineComment : Shift d ℓ p true scanSinglelineComment Eq := by
  unfold Scanner.scanSinglelineComment
  sstep; sstep
  exact sh_budget (fun n => inferInstance)

instance sh_multiLineLoop (n : Nat) : Shift d ℓ true true (multiLineLoop n) Eq := by
  induction n with
  | zero => exact sh_fuel
  | succ n ih =>
    unfold Scanner.multiLineLoop
    refine sh_bindEq inferInstance (fun c => ?_)
    obtain ⟨c1, c2⟩ := c
    cases c1 <;> repeat sstep

instance sh_scanMultilineComment : Shift d ℓ p true scanMultilineComment Eq := by
  unfold Scanner.scanMultilineComment
  sstep; sstep
  exact sh_budget (fun n => inferInstance)

theorem sh_scanCommentsT (n : Nat) : Shift d ℓ true true (scanCommentsF n) Eq := by
  induction n with
  | zero => exact sh_fuel
  | succ n ih =>
    unfold Scanner.scanCommentsF
    refine sh_bindEq inferInstance (fun c => ?_)
    obtain ⟨c1, c2⟩ := c
    cases c1 <;> repeat sstep

/-- skipping comments -/
instance sh_scanComments : Shift d ℓ true true scanComments Eq := sh_budget (fun n => sh_scanCommentsT n)

/-! ### escapes, identifiers, numbers -/

instance sh_foldHexStep {v c} : Shift d ℓ p p (foldHexStep v c) Eq := by
  unfold Scanner.foldHexStep; repeat sstep

instance sh_foldHex {v : Nat} {cs : Str} : Shift d ℓ p p (foldHex v cs) Eq := by
  induction cs generalizing v with
  | nil => exact sh_pureV rfl
  | cons c cs ih => unfold Scanner.foldHex; repeat sstep

instance sh_hexDigits {t n v} : Shift d ℓ true true (hexDigits t n v) Eq := by
  induction n generalizing v with
  | zero => exact sh_pureV rfl
  | succ n ih =>
    unfold Scanner.hexDigits
    refine sh_bindEq inferInstance (fun c => ?_)
    cases c <;> repeat sstep

instance sh_charOr {t v} : Shift d ℓ p p (charOr t v) Eq := by
  unfold Scanner.charOr; split <;> repeat sstep

instance sh_scanUnicodeEscSeq : Shift d ℓ p true scanUnicodeEscSeq Eq := by
  unfold Scanner.scanUnicodeEscSeq; repeat sstep

instance sh_scanIdentifierStart : Shift d ℓ p true scanIdentifierStart Eq := by
  unfold Scanner.scanIdentifierStart
  refine sh_bindEq (q := true) ?_ (fun _ => by repeat sstep)
  refine sh_bindEq inferInstance (fun c => ?_)
  split <;> repeat sstep

instance sh_readIdPart : Shift d ℓ p true readIdPart Eq := by
  unfold Scanner.readIdPart; repeat sstep

instance sh_identifierToken {v} : Shift d ℓ true true (identifierToken v) (TV d ℓ) := by
  unfold Scanner.identifierToken; repeat sstep

instance sh_scanIdentifier : Shift d ℓ p true scanIdentifier (TV d ℓ) := by
  unfold Scanner.scanIdentifier; repeat sstep

instance sh_numOr {r} : Shift d ℓ p p (numOr r) Eq := by
  unfold Scanner.numOr; split <;> repeat sstep

instance sh_scanExponent : Shift d ℓ true true scanExponent Eq := by
  unfold Scanner.scanExponent
  refine sh_bindEq inferInstance (fun c => ?_)
  cases c with
  | none => sstep
  | some c =>
    refine sh_ite (fun _ => ?_) (fun _ => by sstep)
    sstep
    refine sh_bindEq (q := true) ?_ (fun _ => by repeat sstep)
    refine sh_bindEq inferInstance (fun c => ?_)
    cases c <;> repeat sstep

instance sh_scanFractionalPart {v} : Shift d ℓ p true (scanFractionalPart v) Eq := by
  unfold Scanner.scanFractionalPart; repeat sstep

instance sh_scanRadixLiteral {v} : Shift d ℓ p true (scanRadixLiteral v) Eq := by
  unfold Scanner.scanRadixLiteral; repeat sstep

instance sh_scanNumericValue : Shift d ℓ p true scanNumericValue Eq := by
  unfold Scanner.scanNumericValue
  constructor
  intro s s' hs
  have hr : s'.rest = s.rest := by obtain ⟨nl, st, rfl, hst⟩ := hs.eq; rfl
  have e : ∀ {β} (k : Option Char × Option Char → SM β) (x : Scanner), (Scanner.peek2 >>= k) x = k (x.rest[0]?, x.rest[1]?) x :=
    fun k x => rfl
  rw [e, e, hr]
  generalize hp1 : s.rest[0]? = p1
  generalize s.rest[1]? = p2
  dsimp only
  have first : ∀ {c : Char} (k : Str → SM Num), (∀ v, Shift d ℓ true true (k v) Eq) → p1 = some c → isDecimalDigit c = true →
      Out d ℓ true Eq ((scanUntil (fun cp => !isDecimalDigit cp) (consumeOr .unexpectedEOS) >>= k) s) ((scanUntil (fun cp => !isDecimalDigit cp) (consumeOr .unexpectedEOS) >>= k) s') := by
    intro c k hk hc hd
    have h1 := sh_scanUntil_first (pred := fun cp => !isDecimalDigit cp) (read := consumeOr .unexpectedEOS)
      (fun p => inferInstance) hs (c := c) (by rw [List.head?_eq_getElem?, hp1, hc]) (by simp [hd])
    cases hm : scanUntil (fun cp => !isDecimalDigit cp) (consumeOr .unexpectedEOS) s with
    | error f =>
      rw [hm] at h1
      rw [M.bind_err hm]
      exact M.bind_err h1
    | ok r =>
      obtain ⟨a, t⟩ := r
      rw [hm] at h1
      obtain ⟨b, t', e, rfl, ht⟩ := h1
      rw [M.bind_ok hm, M.bind_ok e]
      exact (hk a).out t t' ht
  by_cases c1 : p1 = some '0' ∧ (p2 = some 'b' ∨ p2 = some 'B')
  · simp only [if_pos c1]; exact (sh_scanRadixLiteral).out s s' hs
  simp only [if_neg c1]
  by_cases c2 : p1 = some '0' ∧ (p2 = some 'o' ∨ p2 = some 'O')
  · simp only [if_pos c2]; exact (sh_scanRadixLiteral).out s s' hs
  simp only [if_neg c2]
  by_cases c3 : p1 = some '0' ∧ (p2 = some 'x' ∨ p2 = some 'X')
  · simp only [if_pos c3]; exact (sh_scanRadixLiteral).out s s' hs
  simp only [if_neg c3]
  by_cases c4 : p1 = some '0' ∧ p2 ≠ none ∧ p2 ≠ some '.'
  · simp only [if_pos c4]
    exact first _ (fun v => inferInstance) c4.1 (by decide)
  simp only [if_neg c4]
  by_cases c5 : p1.any isDecimalDigit = true
  · simp only [if_pos c5]
    cases p1 with
    | none => cases c5
    | some c => exact first _ (fun v => by repeat sstep) rfl c5
  simp only [if_neg c5]
  by_cases c6 : p1 = some '.'
  · simp only [if_pos c6]; exact (sh_scanFractionalPart).out s s' hs
  simp only [if_neg c6]
  exact (sh_errorV (V := Eq) (q := true)).out s s' hs

instance sh_scanNumericLiteral : Shift d ℓ p true scanNumericLiteral (TV d ℓ) := by
  unfold Scanner.scanNumericLiteral; repeat sstep

/-! ### strings, regular expressions, templates -/

instance sh_scanHexEscSeq : Shift d ℓ p true scanHexEscSeq Eq := by
  unfold Scanner.scanHexEscSeq; repeat sstep

instance sh_scanOctalEscSeq : Shift d ℓ p true scanOctalEscSeq Eq := by
  unfold Scanner.scanOctalEscSeq
  sstep; sstep
  split <;> repeat sstep

theorem sh_whenV {c : Prop} [Decidable c] {m : SM Unit} (h : Shift d ℓ p p m Eq) : Shift d ℓ p p (M.when c m) Eq := by
  unfold M.when
  exact sh_ite (fun _ => h) (fun _ => sh_pureV rfl)

theorem sh_scanStringCpF (n : Nat) : Shift d ℓ p true (scanStringCpF n) Eq := by
  induction n generalizing p with
  | zero => exact sh_fuel
  | succ n ih =>
    unfold Scanner.scanStringCpF
    refine sh_bindEq inferInstance (fun c => ?_)
    split
    · sstep
      · repeat sstep
      · sstep
        · sstep; sstep
          refine sh_bindEq (sh_whenV (by repeat sstep)) (fun _ => ?_)
          repeat sstep
        · repeat sstep
    · repeat sstep
    · repeat sstep

instance sh_scanStringCp : Shift d ℓ p true scanStringCp Eq := sh_budget (fun n => sh_scanStringCpF n)

instance sh_scanStringLiteral : Shift d ℓ p true scanStringLiteral (TV d ℓ) := by
  unfold Scanner.scanStringLiteral; repeat sstep

theorem sh_regexpBodyF (n : Nat) : Shift d ℓ true true (regexpBodyF n) Eq := by
  induction n with
  | zero => exact sh_fuel
  | succ n ih =>
    unfold Scanner.regexpBodyF
    refine sh_bindEq inferInstance (fun c => ?_)
    cases c <;> repeat sstep

instance sh_scanRegexpBody : Shift d ℓ p true scanRegexpBody Eq := by
  unfold Scanner.scanRegexpBody
  sstep; sstep; sstep
  · sstep
  · refine sh_bindEq (sh_budget (fun n => sh_regexpBodyF n)) (fun _ => ?_)
    repeat sstep

instance sh_scanRegexpFlags : Shift d ℓ true true scanRegexpFlags Eq := by
  unfold Scanner.scanRegexpFlags; repeat sstep

instance sh_scanRegexpLiteral : Shift d ℓ p true scanRegexpLiteral (TV d ℓ) := by
  unfold Scanner.scanRegexpLiteral; repeat sstep

instance sh_scanTemplateChar : Shift d ℓ p true scanTemplateChar Eq := by
  unfold Scanner.scanTemplateChar
  refine sh_bindEq inferInstance (fun c => ?_)
  split
  · repeat sstep
  · repeat sstep
  · repeat sstep

instance sh_pushTemplate : Shift d ℓ p p (M.modify fun s => { s with curly := .template :: s.curly } : SM Unit) Eq :=
  sh_modifyV (fun s s' h => by obtain ⟨nl, st, rfl, hst⟩ := h.eq; exact ⟨⟨nl, st, rfl, hst⟩, h.pos⟩)

instance sh_pushBrace : Shift d ℓ p p (M.modify fun s => { s with curly := .lBrace :: s.curly } : SM Unit) Eq :=
  sh_modifyV (fun s s' h => by obtain ⟨nl, st, rfl, hst⟩ := h.eq; exact ⟨⟨nl, st, rfl, hst⟩, h.pos⟩)

instance sh_popBrace : Shift d ℓ p p (M.modify fun s => { s with curly := s.curly.tail } : SM Unit) Eq :=
  sh_modifyV (fun s s' h => by obtain ⟨nl, st, rfl, hst⟩ := h.eq; exact ⟨⟨nl, st, rfl, hst⟩, h.pos⟩)

instance sh_scanTemplateChunk {c h} : Shift d ℓ p true (scanTemplateChunk c h) (TV d ℓ) := by
  unfold Scanner.scanTemplateChunk
  sstep; sstep; sstep; sstep; sstep
  refine sh_bindEq (q := true) ?_ (fun _ => inferInstance)
  repeat sstep

instance sh_scanTemplate : Shift d ℓ p true scanTemplate (TV d ℓ) := sh_scanTemplateChunk

instance sh_scanTail : Shift d ℓ p true scanTemplateSubstitutionTail (TV d ℓ) := sh_scanTemplateChunk

/-! ### punctuators -/

instance sh_punc0 {v} : Shift d ℓ true true (punc0 v) (TV d ℓ) := by
  unfold Scanner.punc0; repeat sstep

instance sh_punc1 {v} : Shift d ℓ p true (punc1 v) (TV d ℓ) := by
  unfold Scanner.punc1; repeat sstep

instance sh_punc2 {v} : Shift d ℓ p true (punc2 v) (TV d ℓ) := by
  unfold Scanner.punc2; repeat sstep

instance sh_scanPunctuator : Shift d ℓ p true scanPunctuator (TV d ℓ) := by
  unfold Scanner.scanPunctuator
  refine sh_bindEq inferInstance (fun c => ?_)
  split
  · sstep
  · repeat sstep

instance sh_scanDivPunctuator : Shift d ℓ p true scanDivPunctuator (TV d ℓ) := by
  unfold Scanner.scanDivPunctuator; repeat sstep

/-- a token is scanned: at the end of input something must have been read before -/
theorem sh_scanToken {goal : LexGoal} {s s' : Scanner} (h : MovedBy d ℓ p s s') (hp : p = true ∨ s.rest ≠ []) :
    Out d ℓ true (TV d ℓ) (scanToken goal s) (scanToken goal s') := by
  obtain ⟨nl, st, rfl, hst⟩ := h.eq
  unfold Scanner.scanToken
  dsimp only
  cases hr : s.rest with
  | nil =>
    have : p = true := hp.resolve_right (fun h => h hr)
    subst this
    have := (sh_tokenSimple (tt := .eof) (v := .null)).out _ _ h
    dsimp only at this ⊢
    rw [hr] at this
    exact this
  | cons c rest =>
    dsimp only
    have key : ∀ {m : SM Token}, Shift d ℓ p true m (TV d ℓ) → _ := fun {m} hm => hm.out _ _ h
    rw [hr] at key
    by_cases c1 : isIdentifierStart c = true
    · simp only [if_pos c1]; exact key inferInstance
    simp only [if_neg c1]
    by_cases c2 : c = '"' ∨ c = '\''
    · simp only [if_pos c2]; exact key inferInstance
    simp only [if_neg c2]
    by_cases c3 : c = '.' ∧ rest.head?.any isDecimalDigit = true
    · simp only [if_pos c3]; exact key inferInstance
    simp only [if_neg c3]
    by_cases c4 : isDecimalDigit c = true
    · simp only [if_pos c4]; exact key inferInstance
    simp only [if_neg c4]
    by_cases c5 : c = '`'
    · simp only [if_pos c5]; exact key inferInstance
    simp only [if_neg c5]
    by_cases c6 : c = '}' ∧ s.curly.head? = some .template
    · simp only [if_pos c6]
      have h2 := (sh_scanTail (d := d) (ℓ := ℓ) (p := p)).out { s with curly := s.curly.tail } _
        ⟨⟨nl, st, rfl, hst⟩, h.pos⟩
      rw [hr] at h2
      exact h2
    simp only [if_neg c6]
    by_cases c7 : c = '/' ∧ goal = .div
    · simp only [if_pos c7]; exact key inferInstance
    simp only [if_neg c7]
    by_cases c8 : c = '/' ∧ goal = .regExp
    · simp only [if_pos c8]; exact key inferInstance
    simp only [if_neg c8]
    exact key inferInstance

instance sh_scanTokenT {goal : LexGoal} : Shift d ℓ true true (scanToken goal) (TV d ℓ) :=
  ⟨fun _ _ h => sh_scanToken h (.inl rfl)⟩

instance sh_scanFresh {goal : LexGoal} : Shift d ℓ true true (scanFresh goal) (TV d ℓ) := by
  unfold Scanner.scanFresh
  refine sh_bindEq (q := true) (sh_modifyV (fun s s' h => by
    obtain ⟨nl, st, rfl, hst⟩ := h.eq; exact ⟨⟨false, st, rfl, hst⟩, h.pos⟩)) (fun _ => ?_)
  repeat sstep

/-- the next token -/
instance sh_next {goal : LexGoal} : Shift d ℓ true true (next goal) (TV d ℓ) := by
  constructor
  intro s s' h
  unfold Scanner.next
  have h0 := h
  obtain ⟨nl, st, rfl, hst⟩ := h.eq
  cases hu : s.unscanned with
  | some t =>
    refine ⟨_, _, rfl, rfl, ⟨nl, st, rfl, hst⟩, h.pos⟩
  | none =>
    have := (sh_scanFresh (goal := goal)).out _ _ h0
    rw [hu] at this
    exact this

end Scanner
end Giron

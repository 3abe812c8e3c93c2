import Verif.Proofs.ScanSafe
/-
Safety of the scanner, continued: tokens.
-/
namespace Giron
open M Spec
variable [Env]
namespace Scanner
variable {L : Nat} {s : Scanner}

/-- `Pos` after some consuming -/
macro "pos" : tactic => `(tactic| (repeat' first | assumption | refine Pos.afterN ?_ _))

/-- `k` characters were consumed between `s` and `s'`; braces and raw text aside. -/
structure Moved (k : Nat) (s s' : Scanner) : Prop where
  le : k ≤ s.rest.length
  rest : s'.rest = s.rest.drop k
  current : s'.current = s.current + k
  start : s'.start = s.start
  line : s'.line + lineBreaks s'.rest = s.line + lineBreaks s.rest
  mono : s.line ≤ s'.line
  unscanned : s'.unscanned = s.unscanned
  state : s'.state = s.state

omit [Env] in
theorem Moved.afterN {k : Nat} (h : k ≤ s.rest.length) : Moved k s (Scanner.afterN k s) :=
  ⟨h, by simp, by simp, by simp, by simpa using afterN_lines k s, afterN_line_mono k s, by simp, by simp⟩

omit [Env] in
theorem Moved.pos {k : Nat} {s' : Scanner} (h : Pos L s) (hm : Moved k s s') : Pos L s' := by
  have := hm.line
  have := hm.mono
  unfold Pos at *
  omega

omit [Env] in
theorem Moved.trans {j k : Nat} {s' s'' : Scanner} (h : Moved j s s') (h' : Moved k s' s'') :
    Moved (j + k) s s'' where
  le := by have := h'.le; rw [h.rest] at this; have := h.le; simp at *; omega
  rest := by rw [h'.rest, h.rest]; simp
  current := by rw [h'.current, h.current]; omega
  start := by rw [h'.start, h.start]
  line := by rw [h'.line, h.line]
  mono := Nat.le_trans h.mono h'.mono
  unscanned := by rw [h'.unscanned, h.unscanned]
  state := by rw [h'.state, h.state]

omit [Env] in
/-- changing braces and raw text moves nothing -/
theorem Moved.same {k : Nat} {s' s'' : Scanner} (h : Moved k s s') (h1 : s''.rest = s'.rest)
    (h2 : s''.current = s'.current) (h3 : s''.start = s'.start) (h4 : s''.line = s'.line)
    (h5 : s''.unscanned = s'.unscanned) (h6 : s''.state = s'.state) : Moved k s s'' where
  le := h.le
  rest := by rw [h1, h.rest]
  current := by rw [h2, h.current]
  start := by rw [h3, h.start]
  line := by rw [h1, h4, h.line]
  mono := by rw [h4]; exact h.mono
  unscanned := by rw [h5, h.unscanned]
  state := by rw [h6, h.state]

/-- The token built by `token`. -/
def mkTok (s : Scanner) (tokentype : TokenType) (value : Value) (pattern : Option Str)
    (flags : Option (List Char)) (octal : Option Bool) (cooked : Option Str) (head tail : Option Bool) : Token :=
  { tokentype, value, pattern, flags, octal, cooked, head, tail, lineNum := s.line, col := s.col,
    start := s.start, «end» := if s.current = 0 then Env.usizeMax else s.current - 1 }

theorem token_sat (tokentype : TokenType) (value : Value) (pattern : Option Str)
    (flags : Option (List Char)) (octal : Option Bool) (cooked : Option Str) (head tail : Option Bool) :
    Sat (ScanFail L) (token tokentype value pattern flags octal cooked head tail) s
      (fun t s' => s' = s ∧ t = mkTok s tokentype value pattern flags octal cooked head tail) := by
  unfold Sat token
  by_cases h : s.current = 0 ∧ Env.checked = true
  · rw [if_pos h]; exact Or.inr (Or.inr ⟨rfl, h.2⟩)
  · rw [if_neg h]; exact ⟨rfl, rfl⟩

theorem tokenSimple_sat (tokentype : TokenType) (value : Value) :
    Sat (ScanFail L) (tokenSimple tokentype value) s
      (fun t s' => s' = s ∧ t = mkTok s tokentype value none none none none none none) :=
  token_sat ..

/-- A method that returns a token made of the next `k ≥ 1` characters. -/
def Tokenises (L : Nat) (m : SM Token) (s : Scanner) : Prop :=
  Sat (ScanFail L) m s (fun t s' => TokOk L t ∧ t.tokentype ≠ .eof ∧ t.lineNum = s'.line ∧ t.start = s'.start ∧
    t.«end» = (if s'.current = 0 then Env.usizeMax else s'.current - 1) ∧ ∃ k, 1 ≤ k ∧ Moved k s s')

theorem mkTok_ok (h : Pos L s) {tokentype : TokenType} {value : Value} {pattern : Option Str}
    {flags : Option (List Char)} {octal : Option Bool} {cooked : Option Str} {head tail : Option Bool}
    (hs : TokShape (mkTok s tokentype value pattern flags octal cooked head tail)) :
    TokOk L (mkTok s tokentype value pattern flags octal cooked head tail) :=
  ⟨hs, h.1, by have := h.2; show s.line ≤ L; omega⟩

theorem tokenises_of_reads {α : Type} {m : SM α} {f : α → SM Token} {P : α → Nat → Prop} (h : Pos L s)
    (hm : Reads L m s P)
    (hf : ∀ a k, P a k → 1 ≤ k ∧ Sat (ScanFail L) (f a) (afterN k s)
      (fun t s' => s' = afterN k s ∧ ∃ tt v p fl o c hd tl, t = mkTok s' tt v p fl o c hd tl ∧ tt ≠ .eof ∧ TokShape t)) :
    Tokenises L (m >>= f) s := by
  refine Sat.bind hm ?_
  rintro a _ ⟨k, hk, rfl, hp⟩
  obtain ⟨h1, h2⟩ := hf a k hp
  refine h2.mono ?_
  rintro t _ ⟨rfl, tt, v, p, fl, o, c, hd, tl, rfl, hne, hsh⟩
  exact ⟨mkTok_ok (Pos.afterN h k) hsh, hne, rfl, rfl, rfl, k, h1, Moved.afterN hk⟩

/-! ### Identifiers -/

theorem readIdPart_reads (h : Pos L s) (hr : s.rest ≠ []) : Reads L readIdPart s (fun _ k => 1 ≤ k) := by
  unfold readIdPart
  refine Reads.bind (consumeUnwrap_reads hr) ?_
  rintro c k _ ⟨_, rfl⟩
  refine Reads.ite (fun _ => ?_) (fun _ => Reads.pure (Nat.le_refl _))
  refine (scanUnicodeEscSeq_reads (by pos)).mono ?_
  intros; omega

theorem scanIdentifierStart_reads (h : Pos L s) :
    Reads L scanIdentifierStart s (fun _ k => 1 ≤ k) := by
  unfold scanIdentifierStart
  refine Reads.bind (P := fun _ k => 1 ≤ k) ?_ ?_
  · refine Reads.bind peek_reads ?_
    rintro a k _ ⟨rfl, rfl⟩
    split
    · refine (scanUnicodeEscSeq_reads (by pos)).mono ?_
      intros; omega
    · next c hc =>
      refine (consumeUnwrap_reads ?_).mono ?_
      · intro hn; simp at hn; simp_all
      · rintro _ _ _ ⟨_, rfl⟩; omega
    · exact Reads.error (by pos) _
  · rintro c k _ hk
    exact Reads.ite (fun _ => Reads.pure hk) (fun _ => Reads.error (by pos) _)

theorem identifierToken_sat (v : Str) :
    Sat (ScanFail L) (identifierToken v) s
      (fun t s' => s' = s ∧ ∃ tt v p fl o c hd tl, t = mkTok s' tt v p fl o c hd tl ∧ tt ≠ .eof ∧ TokShape t) := by
  unfold identifierToken
  refine Sat.ite (fun h1 => ?_) (fun h1 => Sat.ite (fun h2 => ?_) (fun h2 => Sat.ite (fun h3 => ?_) (fun h3 => ?_))) <;>
  · refine (tokenSimple_sat _ _).mono ?_
    rintro t _ ⟨rfl, rfl⟩
    refine ⟨rfl, _, _, _, _, _, _, _, _, rfl, by simp, ?_⟩
    simp_all [TokShape, mkTok]

theorem scanIdentifier_tok (h : Pos L s) : Tokenises L scanIdentifier s := by
  have : scanIdentifier = (do
      let p ← (do
        let c ← scanIdentifierStart
        let part ← scanUntil (fun cp => cp != '\\' && !isIdentifierContinue cp) readIdPart
        pure (c :: part))
      identifierToken p) := by
    simp only [scanIdentifier, bind_assoc, pure_bind]
  rw [this]
  refine tokenises_of_reads (P := fun _ k => 1 ≤ k) h ?_ (fun a k hk => ⟨hk, identifierToken_sat a⟩)
  refine Reads.bind (scanIdentifierStart_reads h) ?_
  rintro c k hk h1
  refine Reads.bind (scanUntil_reads _ _ ?_ (by pos)) ?_
  · rintro s hs ⟨c, r, hr, _⟩
    exact readIdPart_reads hs (by simp [hr])
  · rintro part j _ _; exact Reads.pure (by omega)

/-! ### Numbers -/

theorem scanExponent_reads : Reads L scanExponent s (fun _ _ => True) := by
  unfold scanExponent
  refine Reads.bind peek_reads ?_
  rintro a k _ ⟨rfl, rfl⟩
  split
  · next c hc =>
    refine Reads.ite (fun _ => ?_) (fun _ => Reads.pure trivial)
    refine Reads.bind (consumeUnwrap_reads (by intro hn; simp at hn; simp_all)) ?_
    rintro e k1 _ ⟨_, rfl⟩
    refine Reads.bind (P := fun _ _ => True) ?_ ?_
    · refine Reads.bind peek_reads ?_
      rintro a k _ ⟨rfl, rfl⟩
      split
      · next c2 hc2 =>
        refine Reads.ite (fun _ => ?_) (fun _ => Reads.pure trivial)
        refine Reads.bind (consumeUnwrap_reads (by intro hn; rw [afterN_zero] at hn; rw [hn] at hc2; cases hc2)) ?_
        intros; exact Reads.pure trivial
      · exact Reads.pure trivial
    · rintro sg k2 _ _
      refine Reads.bind (scanUntil_consumeOr_reads _ _) ?_
      intros; exact Reads.pure trivial
  · exact Reads.pure trivial

theorem scanFractionalPart_reads (h : Pos L s) (v : Str) :
    Reads L (scanFractionalPart v) s (fun _ k => 1 ≤ k) := by
  unfold scanFractionalPart
  refine Reads.bind (expect_reads h _) ?_
  rintro _ k1 _ ⟨_, rfl⟩
  refine Reads.bind (scanUntil_consumeOr_reads _ _) ?_
  rintro _ k2 _ ⟨_, rfl⟩
  refine Reads.bind (scanExponent_reads) ?_
  rintro _ k3 _ _
  refine (numOr_reads (by pos) _).mono ?_
  intros; omega

theorem scanRadixLiteral_reads (h : Pos L s) (h2 : s.rest[1]?.isSome) (radix : Nat) :
    Reads L (scanRadixLiteral radix) s (fun _ k => 1 ≤ k) := by
  unfold scanRadixLiteral
  refine Reads.bind (expect_reads h _) ?_
  rintro _ k1 _ ⟨_, rfl⟩
  refine Reads.bind (consume_reads ?_) ?_
  · intro hn; rcases hr : s.rest with _ | ⟨_, _ | _⟩ <;> simp_all
  rintro _ k2 _ ⟨_, rfl⟩
  refine Reads.bind (scanUntil_consumeOr_reads _ _) ?_
  rintro _ k3 _ ⟨_, rfl⟩
  refine (numOr_reads (by pos) _).mono ?_
  intros; omega

theorem scanNumericValue_reads (h : Pos L s) : Reads L scanNumericValue s (fun _ k => 1 ≤ k) := by
  unfold scanNumericValue
  refine Reads.bind peek2_reads ?_
  rintro a k _ ⟨rfl, rfl⟩
  dsimp only
  refine Reads.ite (fun hc => ?_) (fun hc1 => ?_)
  · refine (scanRadixLiteral_reads (by pos) ?_ _).mono (by intros; omega)
    rcases hc with ⟨_, h | h⟩ <;> simp [h]
  refine Reads.ite (fun hc => ?_) (fun hc2 => ?_)
  · refine (scanRadixLiteral_reads (by pos) ?_ _).mono (by intros; omega)
    rcases hc with ⟨_, h | h⟩ <;> simp [h]
  refine Reads.ite (fun hc => ?_) (fun hc3 => ?_)
  · refine (scanRadixLiteral_reads (by pos) ?_ _).mono (by intros; omega)
    rcases hc with ⟨_, h | h⟩ <;> simp [h]
  refine Reads.ite (fun hc => ?_) (fun hc4 => ?_)
  · refine Reads.bind (scanUntil_consumeOr_reads _ _) ?_
    rintro a k _ ⟨rfl, rfl⟩
    refine (numOr_reads (by pos) _).mono ?_
    rintro _ _ _ ⟨_, rfl⟩
    cases hr : s.rest with
    | nil => simp [hr] at hc
    | cons c r =>
      simp [hr] at hc
      have h0 : isDecimalDigit '0' = true := by decide
      simp [hr, hc.1, h0]
  refine Reads.ite (fun hc => ?_) (fun hc5 => ?_)
  · refine Reads.bind (scanUntil_consumeOr_reads _ _) ?_
    rintro a k _ ⟨rfl, rfl⟩
    have h1 : 1 ≤ (List.takeWhile (fun c => !!isDecimalDigit c) (afterN 0 s).rest).length := by
      cases hr : s.rest with
      | nil => simp [hr] at hc
      | cons c r =>
        simp [hr] at hc
        simp [hr, hc]
    refine Reads.bind (matches_reads _) ?_
    rintro a k _ ⟨rfl, rfl⟩
    refine Reads.ite (fun _ => ?_) (fun _ => ?_)
    · exact (scanFractionalPart_reads (by pos) _).mono (by intros; omega)
    · refine Reads.bind (scanExponent_reads) ?_
      rintro _ _ _ _
      exact (numOr_reads (by pos) _).mono (by intros; omega)
  refine Reads.ite (fun hc => ?_) (fun hc6 => ?_)
  · exact (scanFractionalPart_reads (by pos) _).mono (by intros; omega)
  · exact Reads.error (by pos) _

theorem scanNumericLiteral_tok (h : Pos L s) : Tokenises L scanNumericLiteral s := by
  unfold scanNumericLiteral
  refine tokenises_of_reads h (scanNumericValue_reads h) ?_
  rintro v k hk
  refine ⟨hk, (tokenSimple_sat _ _).mono ?_⟩
  rintro t _ ⟨rfl, rfl⟩
  exact ⟨rfl, _, _, _, _, _, _, _, _, rfl, by simp, by simp [TokShape, mkTok]⟩

/-! ### Strings -/

theorem scanHexEscSeq_reads (h : Pos L s) : Reads L scanHexEscSeq s (fun _ k => 1 ≤ k) := by
  unfold scanHexEscSeq
  refine Reads.bind (expect_reads h _) ?_
  rintro _ k1 _ ⟨_, rfl⟩
  refine Reads.bind (expect_reads (by pos) _) ?_
  rintro _ k2 _ ⟨_, rfl⟩
  refine Reads.bind (hexDigits_reads (by pos) _ _ _) ?_
  rintro _ k3 _ rfl
  exact (charOr_reads (by pos) _ _).mono (by intros; omega)

theorem scanOctalEscSeq_reads (h : Pos L s) (hr : s.rest ≠ []) :
    Reads L scanOctalEscSeq s (fun _ k => 1 ≤ k) := by
  unfold scanOctalEscSeq
  refine Reads.bind (consume_reads hr) ?_
  rintro _ k1 _ ⟨_, rfl⟩
  refine Reads.bind (scanUntil_consumeOr_reads _ _) ?_
  rintro v k2 _ ⟨_, rfl⟩
  split
  · exact (charOr_reads (by pos) _ _).mono (by intros; omega)
  · exact Reads.error (by pos) _

theorem scanStringCpF_reads (n : Nat) (h : Pos L s) (hn : s.rest.length < n) :
    Reads L (scanStringCpF n) s (fun _ k => 1 ≤ k) := by
  induction n generalizing s with
  | zero => omega
  | succ n ih =>
    unfold scanStringCpF
    refine Reads.bind peek2_reads ?_
    rintro a k _ ⟨rfl, rfl⟩
    rcases hr : s.rest with _ | ⟨c, _ | ⟨d, r⟩⟩
    · simp; exact Reads.error (by pos) _
    · have hne : (afterN 0 s).rest ≠ [] := by simp [hr]
      simp only [List.getElem?_cons_zero]
      split
      · next h1 => simp at h1
      · refine Reads.ite (fun _ => Reads.error (by pos) _) (fun _ => ?_)
        refine Reads.bind (consumeOr_reads (by pos) _) ?_
        rintro _ k1 _ ⟨_, rfl⟩
        exact Reads.pure (by omega)
      · exact Reads.error (by pos) _
    · have hne : (afterN 0 s).rest ≠ [] := by simp [hr]
      simp only [List.getElem?_cons_zero, List.getElem?_cons_succ]
      split
      · next d' heq =>
        refine Reads.ite (fun _ => ?_) (fun _ => ?_)
        · refine Reads.bind (consume_reads hne) ?_
          rintro _ k1 _ ⟨_, rfl⟩
          refine Reads.bind (consumeOr_reads (by pos) _) ?_
          rintro _ k1 _ ⟨_, rfl⟩
          exact Reads.pure (by omega)
        refine Reads.ite (fun _ => ?_) (fun _ => ?_)
        · refine Reads.bind (consume_reads hne) ?_
          rintro _ k1 hk1 ⟨_, rfl⟩
          refine Reads.bind peek2_reads ?_
          rintro a k2 hk2 ⟨rfl, rfl⟩
          dsimp only
          refine Reads.bind (P := fun _ k => k ≤ 1 ∧ (k = 1 → 1 ≤ r.length)) ?_ ?_
          · unfold M.when
            refine Reads.ite (fun hc => ?_) (fun _ => Reads.pure (by omega))
            refine Reads.bind (consume_reads (by simp [hr])) ?_
            rintro _ k3 _ ⟨_, rfl⟩
            refine Reads.pure ⟨by omega, fun _ => ?_⟩
            have := hc.2
            cases r with
            | nil => simp [hr] at this
            | cons => simp
          · rintro _ k3 hk3 ⟨h3, h3'⟩
            refine Reads.bind (consume_reads ?_) ?_
            · intro hn'; simp [hr] at hn'; omega
            rintro _ k4 _ ⟨_, rfl⟩
            refine (ih (by pos) ?_).mono (by intros; omega)
            simp [hr] at hn ⊢; omega
        refine Reads.ite (fun _ => ?_) (fun _ => ?_)
        · refine Reads.bind (scanHexEscSeq_reads (by pos)) ?_
          rintro _ k1 _ _
          exact Reads.pure (by omega)
        refine Reads.ite (fun _ => ?_) (fun _ => ?_)
        · refine Reads.bind (scanUnicodeEscSeq_reads (by pos)) ?_
          rintro _ k1 _ _
          exact Reads.pure (by omega)
        refine Reads.ite (fun _ => ?_) (fun _ => ?_)
        · refine Reads.bind (scanOctalEscSeq_reads (by pos) hne) ?_
          rintro _ k1 _ _
          exact Reads.pure (by omega)
        · refine Reads.bind (consumeOr_reads (by pos) _) ?_
          rintro _ k1 _ ⟨_, rfl⟩
          exact Reads.pure (by omega)
      · refine Reads.ite (fun _ => Reads.error (by pos) _) (fun _ => ?_)
        refine Reads.bind (consumeOr_reads (by pos) _) ?_
        rintro _ k1 _ ⟨_, rfl⟩
        exact Reads.pure (by omega)
      · exact Reads.error (by pos) _

theorem scanStringCp_reads (h : Pos L s) : Reads L scanStringCp s (fun _ k => 1 ≤ k) :=
  scanStringCpF_reads _ h (Nat.lt_succ_self _)

theorem scanStringLiteral_tok (h : Pos L s) : Tokenises L scanStringLiteral s := by
  unfold scanStringLiteral
  refine Sat.bind (P := fun a s' => a = s.rest.head? ∧ s' = s) ⟨rfl, rfl⟩ ?_
  rintro a _ ⟨rfl, rfl⟩
  rename_i s
  refine Sat.ite (fun hq => ?_) (fun _ => error_sat h _)
  have : (do
      let quote ← consumeUnwrap
      let items ← scanUntil (fun cp => cp == quote) scanStringCp
      expect quote
      token .stringLiteral (.str (items.map Prod.fst)) none none (some (items.any Prod.snd)) none none none : SM Token)
      = (do
        let items ← (do
          let quote ← consumeUnwrap
          let items ← scanUntil (fun cp => cp == quote) scanStringCp
          expect quote
          pure items)
        token .stringLiteral (.str (items.map Prod.fst)) none none (some (items.any Prod.snd)) none none none) := by
    simp only [bind_assoc, pure_bind]
  rw [this]
  refine tokenises_of_reads (P := fun _ k => 1 ≤ k) h ?_ ?_
  · refine Reads.bind (consumeUnwrap_reads (by intro hn; simp [hn] at hq)) ?_
    rintro q k1 _ ⟨_, rfl⟩
    refine Reads.bind (scanUntil_reads _ _ (fun s hs _ => scanStringCp_reads hs) (by pos)) ?_
    rintro items k2 _ _
    refine Reads.bind (expect_reads (by pos) _) ?_
    rintro _ k3 _ ⟨_, rfl⟩
    exact Reads.pure (by omega)
  · rintro items k hk
    refine ⟨hk, (token_sat ..).mono ?_⟩
    rintro t _ ⟨rfl, rfl⟩
    exact ⟨rfl, _, _, _, _, _, _, _, _, rfl, by simp, by simp [TokShape, mkTok]⟩

/-! ### Regular expressions -/

theorem regexpBodyF_reads (n : Nat) (h : Pos L s) (hn : s.rest.length < n) :
    Reads L (regexpBodyF n) s (fun _ _ => True) := by
  induction n generalizing s with
  | zero => omega
  | succ n ih =>
    unfold regexpBodyF
    refine Reads.bind peek_reads ?_
    rintro a k _ ⟨rfl, rfl⟩
    cases hr : s.rest with
    | nil => exact Reads.pure trivial
    | cons c r =>
      simp only [List.head?_cons]
      refine Reads.ite (fun hc => ?_) (fun _ => ?_)
      · refine Reads.bind (scanUntil_consumeOr_reads _ _) ?_
        rintro g k1 hk1 ⟨rfl, rfl⟩
        refine Reads.bind (ih (by pos) ?_) ?_
        · simp [hr, hc] at hn ⊢; omega
        · rintro _ _ _ _; exact Reads.pure trivial
      refine Reads.ite (fun _ => ?_) (fun _ => ?_)
      · refine Reads.bind (consumeOr_reads (by pos) _) ?_
        rintro _ k1 _ ⟨_, rfl⟩
        refine Reads.bind (consumeOr_reads (by pos) _) ?_
        rintro _ k2 _ ⟨_, rfl⟩
        refine Reads.bind (ih (by pos) ?_) ?_
        · simp [hr] at hn ⊢; omega
        · rintro _ _ _ _; exact Reads.pure trivial
      refine Reads.ite (fun _ => Reads.pure trivial) (fun _ => ?_)
      · refine Reads.bind (consumeOr_reads (by pos) _) ?_
        rintro _ k1 _ ⟨_, rfl⟩
        refine Reads.bind (ih (by pos) ?_) ?_
        · simp [hr] at hn ⊢; omega
        · rintro _ _ _ _; exact Reads.pure trivial

theorem scanRegexpBody_reads (h : Pos L s) : Reads L scanRegexpBody s (fun _ k => 1 ≤ k) := by
  unfold scanRegexpBody
  refine Reads.bind (expect_reads h _) ?_
  rintro _ k1 _ ⟨_, rfl⟩
  refine Reads.bind peek_reads ?_
  rintro a k2 _ ⟨rfl, rfl⟩
  refine Reads.ite (fun _ => Reads.error (by pos) _) (fun _ => ?_)
  refine Reads.bind (m := fun s => regexpBodyF (s.rest.length + 1) s)
    (regexpBodyF_reads _ (by pos) (Nat.lt_succ_self _)) ?_
  rintro v k3 _ _
  refine Reads.bind (expect_reads (by pos) _) ?_
  rintro _ k4 _ ⟨_, rfl⟩
  exact Reads.pure (by omega)

theorem scanRegexpFlags_reads (h : Pos L s) : Reads L scanRegexpFlags s (fun _ _ => True) := by
  unfold scanRegexpFlags
  refine scanUntil_reads _ _ ?_ h
  rintro s hs ⟨c, r, hr, _⟩
  exact readIdPart_reads hs (by simp [hr])

theorem scanRegexpLiteral_tok (h : Pos L s) : Tokenises L scanRegexpLiteral s := by
  have : scanRegexpLiteral = (do
      let p ← (do
        let pattern ← scanRegexpBody
        let flags ← scanRegexpFlags
        pure (pattern, flags))
      token .regularExpression (.str []) (some p.1) (some p.2) none none none none) := by
    simp only [scanRegexpLiteral, bind_assoc, pure_bind]
  rw [this]
  refine tokenises_of_reads (P := fun _ k => 1 ≤ k) h ?_ ?_
  · refine Reads.bind (scanRegexpBody_reads h) ?_
    rintro _ k1 _ _
    refine Reads.bind (scanRegexpFlags_reads (by pos)) ?_
    rintro _ k2 _ _
    exact Reads.pure (by omega)
  · rintro items k hk
    refine ⟨hk, (token_sat ..).mono ?_⟩
    rintro t _ ⟨rfl, rfl⟩
    exact ⟨rfl, _, _, _, _, _, _, _, _, rfl, by simp, by simp [TokShape, mkTok]⟩

end Scanner
end Giron

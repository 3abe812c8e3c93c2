import Verif.Model.Errors
/-
The texts of errors can be read back.
-/
namespace Giron

/-- text up to the first character that ends it -/
theorem split_at {p : Char → Prop} {a b r r' : Str} {x y : Char} (ha : ∀ c ∈ a, p c) (hb : ∀ c ∈ b, p c) (hx : ¬ p x) (hy : ¬ p y)
    (h : a ++ x :: r = b ++ y :: r') : a = b ∧ x = y ∧ r = r' := by
  induction a generalizing b with
  | nil =>
    cases b with
    | nil => cases h; exact ⟨rfl, rfl, rfl⟩
    | cons c b =>
      simp only [List.nil_append, List.cons_append, List.cons.injEq] at h
      exact absurd (h.1 ▸ hb c List.mem_cons_self) hx
  | cons c a ih =>
    cases b with
    | nil =>
      simp only [List.nil_append, List.cons_append, List.cons.injEq] at h
      exact absurd (h.1 ▸ ha c List.mem_cons_self) hy
    | cons d b =>
      simp only [List.cons_append, List.cons.injEq] at h
      obtain ⟨rfl, h2, h3⟩ := And.intro h.1 (ih (fun c hc => ha c (List.mem_cons_of_mem _ hc)) (fun c hc => hb c (List.mem_cons_of_mem _ hc)) h.2)
      exact ⟨by rw [h2], h3⟩

/-- decimal numbers, up to the first character that is not a digit -/
theorem decimal_inj {m n : Nat} {x y : Char} {r r' : Str} (hx : x.isDigit = false) (hy : y.isDigit = false)
    (h : Nat.toDigits 10 m ++ x :: r = Nat.toDigits 10 n ++ y :: r') : m = n ∧ x = y ∧ r = r' := by
  obtain ⟨h1, h2⟩ := split_at (p := fun c => c.isDigit = true)
    (fun c hc => Nat.isDigit_of_mem_toDigits (by decide) (by decide) hc)
    (fun c hc => Nat.isDigit_of_mem_toDigits (by decide) (by decide) hc) (by simp [hx]) (by simp [hy]) h
  have := congrArg (fun l => Nat.ofDigitChars 10 l 0) h1
  simp only [Nat.ofDigitChars_ten_toDigits] at this
  exact ⟨this, h2⟩

/-! ### Hexadecimal numbers -/

theorem digitChar_inj : ∀ i < 16, ∀ j < 16, Nat.digitChar i = Nat.digitChar j → i = j := by decide
theorem digitChar_ne : ∀ i < 16, Nat.digitChar i ≠ '}' := by decide

theorem hex_ne (n : Nat) : ∀ c ∈ Nat.toDigits 16 n, c ≠ '}' := by
  induction n using Nat.strongRecOn with
  | ind n ih =>
    rw [Nat.toDigits_eq_if (by decide)]
    split
    · next h => intro c hc; simp only [List.mem_singleton] at hc; rw [hc]; exact digitChar_ne n h
    · next h =>
      intro c hc
      rcases List.mem_append.mp hc with hc | hc
      · exact ih (n / 16) (by omega) c hc
      · simp only [List.mem_singleton] at hc
        rw [hc]
        exact digitChar_ne _ (Nat.mod_lt _ (by decide))

theorem hex_inj (m n : Nat) (h : Nat.toDigits 16 m = Nat.toDigits 16 n) : m = n := by
  induction m using Nat.strongRecOn generalizing n with
  | ind m ih =>
    rw [Nat.toDigits_eq_if (n := m) (by decide), Nat.toDigits_eq_if (n := n) (by decide)] at h
    have ne : ∀ k, Nat.toDigits 16 k ≠ [] := fun k => Nat.toDigits_ne_nil
    split at h <;> split at h
    · next h1 h2 => exact digitChar_inj m h1 n h2 (by simpa using h)
    · next h1 h2 =>
      have := congrArg List.length h
      simp only [List.length_singleton, List.length_append] at this
      have := List.length_pos_iff.mpr (ne (n / 16))
      omega
    · next h1 h2 =>
      have := congrArg List.length h
      simp only [List.length_singleton, List.length_append] at this
      have := List.length_pos_iff.mpr (ne (m / 16))
      omega
    · next h1 h2 =>
      obtain ⟨h3, h4⟩ := List.append_inj' h rfl
      have h5 := ih (m / 16) (by omega) _ h3
      have h6 := digitChar_inj _ (Nat.mod_lt _ (by decide)) _ (Nat.mod_lt _ (by decide)) (by simpa using h4)
      omega

/-! ### Strings -/

variable [Env]

/-- the escape of a character begins with something, and it is not a quote -/
theorem escape_head (c : Char) : ∃ d r, escapeDebug c = d :: r ∧ d ≠ '"' ∧ (d = '\\' ∨ (d = c ∧ r = [])) := by
  unfold escapeDebug
  repeat' split
  all_goals first | exact ⟨_, _, rfl, by decide, .inl rfl⟩ | skip
  next h1 h2 => exact ⟨c, [], rfl, h1, .inr ⟨rfl, rfl⟩⟩

macro "bs" : tactic => `(tactic| first | (simp_all; done) | (simp_all; rename_i h1 h2 h3 h; exact absurd h.1.symm h1) | (simp_all; rename_i h1 h2 h3 h; exact absurd h.1.symm h2) | (simp_all; rename_i h1 h2 h3 h; exact absurd h.1.symm h3) | (simp_all; rename_i h1 h2 h3 h; exact absurd h3.1.symm h1) | (simp_all; rename_i h; exact absurd h.1 ‹¬ _ = '\\'›))

/-- escapes can be told apart -/
theorem escape_inj {c d : Char} {r r' : Str} (h : escapeDebug c ++ r = escapeDebug d ++ r') : c = d ∧ r = r' := by
  unfold escapeDebug at h
  split at h <;> rename_i h0
  · subst h0
    repeat' split at h
    all_goals bs
  split at h <;> rename_i h1
  · subst h1
    repeat' split at h
    all_goals bs
  split at h <;> rename_i h2
  · subst h2
    repeat' split at h
    all_goals bs
  split at h <;> rename_i h3
  · subst h3
    repeat' split at h
    all_goals bs
  split at h <;> rename_i h4
  · subst h4
    repeat' split at h
    all_goals bs
  split at h <;> rename_i h5
  · subst h5
    repeat' split at h
    all_goals bs
  split at h <;> rename_i h6
  · repeat' split at h
    all_goals bs
  · split at h
    · bs
    split at h
    · bs
    split at h
    · bs
    split at h
    · bs
    split at h
    · bs
    split at h
    · bs
    split at h
    · bs
    simp only [List.append_assoc, List.cons_append, List.nil_append, List.cons.injEq, true_and] at h
    obtain ⟨h7, -, h8⟩ := split_at (p := fun c => c ≠ '}') (hex_ne _) (hex_ne _) (by simp) (by simp) h
    have := hex_inj _ _ h7
    exact ⟨Char.ext (UInt32.toNat_inj.mp this), h8⟩

/-- quoted strings can be told apart, whatever follows -/
theorem strDebug_inj {a b r r' : Str} (h : strDebug a ++ r = strDebug b ++ r') : a = b ∧ r = r' := by
  unfold strDebug at h
  simp only [List.append_assoc, List.cons_append, List.nil_append, List.cons.injEq, true_and] at h
  induction a generalizing b with
  | nil =>
    cases b with
    | nil => simpa using h
    | cons d b =>
      obtain ⟨x, s, hx, hq, -⟩ := escape_head d
      simp [hx] at h
      exact absurd h.1.symm hq
  | cons c a ih =>
    cases b with
    | nil =>
      obtain ⟨x, s, hx, hq, -⟩ := escape_head c
      simp [hx] at h
      exact absurd h.1 hq
    | cons d b =>
      simp only [List.flatMap_cons, List.append_assoc] at h
      obtain ⟨rfl, h2⟩ := escape_inj h
      obtain ⟨rfl, h3⟩ := ih h2
      exact ⟨rfl, h3⟩

/-! ### Kinds of errors -/

/-- the error kinds without a word -/
def wordless : List ErrorType :=
  [.unexpectedReserved, .illegalReturn, .missingInitializer, .invalidLhsInFor, .multipleDefaultsInSwitch, .noIterationStatement,
   .illegalBreak, .strictWith, .strictFunction, .newlineAfterThrow, .generatorInSingleStatementContext, .missingFunctionName,
   .invalidLhsInAssignment, .unexpectedTokenUnaryExponentiation, .invalidLhsInPostfixOp, .invalidLhsInPrefixOp, .paramAfterRest,
   .invalidDestructuringTarget, .unexpectedTemplateString, .yieldInParameter, .awaitExpressionFormalParameter, .unexpectedEOS,
   .invalidOrUnexpectedToken, .invalidUnicodeEscapeSequence, .invalidRestBindingPattern, .unexpectedStrictReserved]

omit [Env] in
theorem wordless_or (k : ErrorType) : k ∈ wordless ∨ ∃ s, k = .unexpectedToken s := by
  cases k
  case unexpectedToken s => exact .inr ⟨s, rfl⟩
  all_goals exact .inl (by decide)

omit [Env] in
theorem names_differ : ∀ a ∈ wordless, ∀ b ∈ wordless, a.name = b.name → a = b := by decide +kernel
omit [Env] in
theorem names_plain : ∀ a ∈ wordless, ' ' ∉ a.name ∧ '(' ∉ a.name := by decide +kernel
theorem debug_wordless : ∀ a ∈ wordless, a.debug = a.name := by
  intro a ha
  cases a
  case unexpectedToken s => exact absurd ha (by simp [wordless])
  all_goals rfl

omit [Env] in
theorem displays_differ : ∀ a ∈ wordless, ∀ b ∈ wordless, (⟨0, 0, a⟩ : Error).display = (⟨0, 0, b⟩ : Error).display → a = b := by
  decide +kernel
omit [Env] in
theorem display_plain : ∀ a ∈ wordless, ¬ cs!"Unexpected token " <+: (⟨0, 0, a⟩ : Error).display := by decide +kernel

theorem kind_inj {a b : ErrorType} (h : a.debug ++ cs!" }" = b.debug ++ cs!" }") : a = b := by
  have h := List.append_cancel_right h
  rcases wordless_or a with ha | ⟨s, rfl⟩ <;> rcases wordless_or b with hb | ⟨u, rfl⟩
  · rw [debug_wordless a ha, debug_wordless b hb] at h
    exact names_differ a ha b hb h
  · rw [debug_wordless a ha] at h
    refine absurd ?_ (names_plain a ha).2
    rw [h]
    simp [ErrorType.debug]
  · rw [debug_wordless b hb] at h
    refine absurd ?_ (names_plain b hb).2
    rw [← h]
    simp [ErrorType.debug]
  · simp only [ErrorType.debug, List.append_assoc, List.cons_append, List.nil_append, List.cons.injEq, true_and] at h
    rw [(strDebug_inj h).1]

omit [Env] in
/-- `to_string()` tells the kind of an error and the word -/
theorem display_inj {e f : Error} (h : e.display = f.display) : e.errortype = f.errortype := by
  obtain ⟨l, c, a⟩ := e
  obtain ⟨l', c', b⟩ := f
  have h : (⟨0, 0, a⟩ : Error).display = (⟨0, 0, b⟩ : Error).display := h
  show a = b
  rcases wordless_or a with ha | ⟨s, rfl⟩ <;> rcases wordless_or b with hb | ⟨u, rfl⟩
  · exact displays_differ a ha b hb h
  · refine absurd ?_ (display_plain a ha)
    rw [h]
    exact ⟨u, rfl⟩
  · refine absurd ?_ (display_plain b hb)
    rw [← h]
    exact ⟨s, rfl⟩
  · exact congrArg _ (List.append_cancel_left (as := cs!"Unexpected token ") h)

/-- `{:?}` tells the error -/
theorem debug_inj {e f : Error} (h : e.debug = f.debug) : e = f := by
  obtain ⟨l, c, a⟩ := e
  obtain ⟨l', c', b⟩ := f
  simp only [Error.debug, List.append_assoc] at h
  have h := List.append_cancel_left h
  obtain ⟨rfl, -, h⟩ := decimal_inj (by decide) (by decide) h
  have h := List.append_cancel_left (as := cs!" col: ") h
  obtain ⟨rfl, -, h⟩ := decimal_inj (by decide) (by decide) h
  rw [kind_inj (List.append_cancel_left (as := cs!" errortype: ") h)]

end Giron

import Verif.Proofs.Lex.Scan
import Verif.Thm.Witness
/-
C19-C27, C38, C39: what the scanner returns, in terms of the text.

`Spec/Lexical.lean` and `Spec/Scan.lean` give the lexical grammar as relations on text; the theorems say that the scanner
returns exactly the tokens of the grammar.
-/
namespace Giron
open Spec Scanner

/-- The scanner state `s` is reached from a new scanner on `source` by calls of `next`. -/
def Reached [Env] (source : Str) (s : Scanner) : Prop := ∃ goals ts, nextAll goals (Scanner.new source) = .ok (ts, s)

theorem Spec.Number.ne_nil {x r : Str} {n : Num} (h : Number x r n) : x ≠ [] := by
  cases h <;> simp_all

theorem not_startsTrivia {c : Char} {x : Str} (h : isBlank c = false) (h' : c ≠ '/') : ¬ StartsTrivia (c :: x) := by
  rintro (⟨d, y, e, hd⟩ | ⟨y, e⟩ | ⟨y, e⟩) <;> rw [List.cons.injEq] at e
  · rw [e.1, hd] at h; cases h
  · exact h' e.1
  · exact h' e.1

theorem Spec.Number.head {x r : Str} {n : Num} (h : Number x r n) :
    ∃ c y, x = c :: y ∧ (isDecimalDigit c = true ∨ c = '.') := by
  cases h with
  | radix => exact ⟨_, _, rfl, .inl (by decide)⟩
  | octal => exact ⟨_, _, rfl, .inl (by decide)⟩
  | octalLike => exact ⟨_, _, rfl, .inl (by decide)⟩
  | @integer ds ex _ _ h1 h2 h3 =>
    cases ds with
    | nil => exact absurd rfl h1
    | cons c ds => exact ⟨c, ds ++ ex, rfl, .inl (h3.1 c (List.mem_cons_self ..))⟩
  | @fraction ip fp ex _ _ h1 h2 h3 =>
    cases ip with
    | nil => exact ⟨'.', _, rfl, .inr rfl⟩
    | cons c ip => exact ⟨c, _, rfl, .inl (h3 c (List.mem_cons_self ..))⟩

/-- C38: a word is a keyword for the scanner if and only if it is one of the 35 words listed in the specification. -/
theorem C38_keywords (v : Str) : isKeyword v = true ↔ v ∈ keywords := isKeyword_iff v

/-- C39: the table of punctuators is one to one: reading a spelling and spelling a punctuator are inverse to each
other. -/
theorem C39_bijection (x : Str) (p : Punctuator) : Punctuator.ofStr x = some p ↔ p.toStr = x :=
  ⟨ofStr_some, fun h => h ▸ ofStr_toStr p⟩

section
variable [Env] {source : Str} {s s' : Scanner} {goal : LexGoal} {t : Token}

theorem nextAll_append {g1 g2 : List LexGoal} {ts1 : List (Token × Bool)} {s1 : Scanner}
    (h1 : nextAll g1 s = .ok (ts1, s1)) {ts2 : List (Token × Bool)} {s2 : Scanner} (h2 : nextAll g2 s1 = .ok (ts2, s2)) :
    nextAll (g1 ++ g2) s = .ok (ts1 ++ ts2, s2) := by
  induction g1 generalizing s ts1 with
  | nil => cases h1; exact h2
  | cons g g1 ih =>
    unfold nextAll at h1
    obtain ⟨t, s3, ha, h1⟩ := M.bind_inv h1
    obtain ⟨s4, s5, hb, h1⟩ := M.bind_inv h1
    cases hb
    obtain ⟨ts', s6, hc, h1⟩ := M.bind_inv h1
    cases h1
    have := ih hc
    rw [List.cons_append, nextAll, M.bind_ok ha]
    refine (M.bind_ok (m := M.get) (a := s3) rfl).trans ?_
    rw [M.bind_ok this]; rfl

/-- One more call of `next`. -/
theorem Reached.next (hs : Reached source s) (h : Scanner.next goal s = .ok (t, s')) : Reached source s' := by
  obtain ⟨goals, ts, hg⟩ := hs
  refine ⟨goals ++ [goal], ts ++ [(t, s'.newline)], nextAll_append hg ?_⟩
  unfold nextAll
  rw [M.bind_ok h]
  rfl

theorem Reached.new (source : Str) : Reached source (Scanner.new source) := ⟨[], [], rfl⟩

theorem nextAll_at {goals : List LexGoal} {pre : Str} {ts : List (Token × Bool)} (hs : At source pre s)
    (h : nextAll goals s = .ok (ts, s')) : ∃ pre', At source pre' s' := by
  induction goals generalizing s pre ts with
  | nil => cases h; exact ⟨pre, hs⟩
  | cons goal goals ih =>
    unfold nextAll at h
    obtain ⟨t, s1, h1, h⟩ := M.bind_inv h
    obtain ⟨w, x, r, c, hr, hw, hn, hl⟩ := next_inv hs.unscanned h1
    rw [next_eq hs.unscanned hs.fresh hr hw hn hl, emit_step hs hr c] at h1
    split at h1
    · cases h1
    · cases h1
      obtain ⟨s2, s3, h2, h⟩ := M.bind_inv h
      cases h2
      obtain ⟨ts', s4, h3, h⟩ := M.bind_inv h
      cases h
      exact ih (hs.step hr c).1 h3

theorem Reached.at (hs : Reached source s) : ∃ pre, At source pre s := by
  obtain ⟨goals, ts, hg⟩ := hs
  exact nextAll_at (at_new source) hg

/-- What one call of `next` in a reached state tells. -/
structure Scanned (source : Str) (goal : LexGoal) (s : Scanner) (t : Token) (s' : Scanner) (pre w x : Str) (c : Content) :
    Prop where
  text : source = pre ++ (w ++ (x ++ s'.rest))
  rest : s.rest = w ++ (x ++ s'.rest)
  trivia : Trivia w (x ++ s'.rest)
  notTrivia : ¬ StartsTrivia (x ++ s'.rest)
  lexeme : Lexeme goal (decide (s.curly.head? = some .template)) x s'.rest c
  curly : s'.curly = c.braces s.curly
  token : t = c.token (lines source - lineBreaks s'.rest) (columnAfter 1 x s'.rest) (pre ++ w).length
    (if pre ++ w ++ x = [] then Env.usizeMax else (pre ++ w ++ x).length - 1)
  newline : s'.newline = decide (lineBreaks s'.rest < lineBreaks s.rest)

theorem Reached.scanned (hs : Reached source s) (h : Scanner.next goal s = .ok (t, s')) :
    ∃ pre w x c, Scanned source goal s t s' pre w x c := by
  obtain ⟨pre, hs⟩ := hs.at
  obtain ⟨w, x, r, c, hr, hw, hn, hl⟩ := next_inv hs.unscanned h
  rw [next_eq hs.unscanned hs.fresh hr hw hn hl, emit_step hs hr c] at h
  obtain ⟨h1, h2, h3, h4, h5, h6⟩ := hs.step hr c
  split at h
  · cases h
  · simp only [Except.ok.injEq, Prod.mk.injEq] at h
    obtain ⟨ht, rfl⟩ := h
    subst h2
    exact ⟨pre, w, x, c, by rw [← hr]; exact hs.text, hr, hw, hn, hl, h3, ht.symm, by rw [h6, hr]⟩

/-- The other way: if the text goes on with a lexeme then `next` returns its token. -/
theorem Reached.scans (hs : Reached source s) {w x r : Str} {c : Content} (hr : s.rest = w ++ (x ++ r))
    (hw : Trivia w (x ++ r)) (hn : ¬ StartsTrivia (x ++ r))
    (hx : Lexeme goal (decide (s.curly.head? = some .template)) x r c) (hne : s.rest ≠ []) :
    ∃ t s' pre, Scanner.next goal s = .ok (t, s') ∧ s'.rest = r ∧ Scanned source goal s t s' pre w x c := by
  obtain ⟨pre, hs⟩ := hs.at
  have h := next_eq hs.unscanned hs.fresh hr hw hn hx
  have hpos : pre ++ w ++ x ≠ [] := by
    intro h0
    simp only [List.append_eq_nil_iff] at h0
    obtain ⟨⟨-, rfl⟩, rfl⟩ := h0
    cases hx with
    | eof => exact hne hr
    | number hn => exact hn.ne_nil rfl
    | punct hp =>
      have := hp.1
      revert this
      decide
  obtain ⟨h1, h2, h3, h4, h5, h6⟩ := hs.step hr c
  rw [emit_step hs hr c, if_neg (fun h => hpos h.1)] at h
  subst h2
  exact ⟨_, _, pre, h, rfl, by rw [← hr]; exact hs.text, hr, hw, hn, hx, h3, rfl, by rw [h6, hr]⟩

/-! ### C24: the tokens -/

/-- C24 (the lexical grammar): for every source and every choice of goals, the calls of `next` on a new scanner succeed
with the tokens `ts` if and only if `ts` are the tokens of the source according to the grammar, with their places. -/
theorem C24_tokens_iff (source : Str) (goals : List LexGoal) (ts : List (Token × Bool)) :
    (∃ s, nextAll goals (Scanner.new source) = .ok (ts, s)) ↔ Tokens source goals [] [] source ts :=
  ⟨fun ⟨_, h⟩ => nextAll_sound (at_new source) h, fun h => nextAll_complete h (at_new source) rfl rfl⟩

/-- C24: a token starts at the offset of its first character and ends at the offset of its last one, and between the
place where the scanner was and the token there is only trivia. -/
theorem C24_offsets (hne : source ≠ []) (hs : Reached source s) (h : Scanner.next goal s = .ok (t, s')) :
    ∃ pre w x, source = pre ++ w ++ x ++ s'.rest ∧ s.rest = w ++ x ++ s'.rest ∧ Trivia w (x ++ s'.rest) ∧
      ¬ StartsTrivia (x ++ s'.rest) ∧ t.start = (pre ++ w).length ∧ t.end + 1 = (pre ++ w ++ x).length := by
  obtain ⟨pre, w, x, c, h⟩ := hs.scanned h
  have hpos : pre ++ w ++ x ≠ [] := by
    intro h0
    simp only [List.append_eq_nil_iff] at h0
    obtain ⟨⟨rfl, rfl⟩, rfl⟩ := h0
    have hl := h.lexeme
    have ht := h.text
    generalize s'.rest = r at hl ht
    cases hl with
    | eof => exact hne ht
    | number hn => exact hn.ne_nil rfl
    | punct hp =>
      have := hp.1
      revert this
      decide
  refine ⟨pre, w, x, by rw [h.text]; simp, by rw [h.rest]; simp, h.trivia, h.notTrivia, ?_, ?_⟩
  · rw [h.token]; cases c <;> rfl
  · rw [h.token, if_neg hpos]
    have : (pre ++ w ++ x).length ≠ 0 := fun h => hpos (List.length_eq_zero_iff.mp h)
    cases c <;> show (pre ++ w ++ x).length - 1 + 1 = _ <;> omega

/-- C24: a token ends before the next one starts. -/
theorem C24_no_overlap {goal' : LexGoal} {t' : Token} {s'' : Scanner} (hne : source ≠ []) (hs : Reached source s)
    (h : Scanner.next goal s = .ok (t, s')) (h' : Scanner.next goal' s' = .ok (t', s'')) : t.end < t'.start := by
  obtain ⟨pre, w, x, h1, -, -, -, -, he⟩ := C24_offsets hne hs h
  obtain ⟨pre', w', x', h2, h3, -, -, hb, -⟩ := C24_offsets hne (hs.next h) h'
  have hl := congrArg List.length h1
  have hl' := congrArg List.length h2
  have hl3 := congrArg List.length h3
  simp only [List.length_append] at *
  omega

/-! ### C25: lines -/

/-- C25: the scanner's line is 1 plus the number of line breaks behind it (all of the source less those ahead). -/
theorem C25_line (hs : Reached source s) : s.line + lineBreaks s.rest = 1 + lineBreaks source := by
  obtain ⟨pre, hs⟩ := hs.at
  exact hs.line

/-- C25: the line of a token is the line of the scanner after it. -/
theorem C25_token_line (hs : Reached source s) (h : Scanner.next goal s = .ok (t, s')) :
    t.lineNum = s'.line ∧ t.lineNum + lineBreaks s'.rest = 1 + lineBreaks source := by
  have h1 := C25_line (hs.next h)
  obtain ⟨pre, w, x, c, h⟩ := hs.scanned h
  have : t.lineNum = lines source - lineBreaks s'.rest := by rw [h.token]; cases c <;> rfl
  unfold lines at this
  omega

/-- C25: the `newline` flag after `next` tells whether there was a line break since the end of the token before. -/
theorem C25_newline (hs : Reached source s) (h : Scanner.next goal s = .ok (t, s')) :
    s'.newline = true ↔ s.line < s'.line := by
  have h0 := C25_line hs
  have h1 := C25_line (hs.next h)
  obtain ⟨pre, w, x, c, h⟩ := hs.scanned h
  rw [h.newline, decide_eq_true_eq]
  omega

/-! ### C19: punctuators -/

/-- C19: a punctuator token is spelled by its text, and that is the longest punctuator the text goes on with. -/
theorem C19_longest_punctuator (hs : Reached source s) (h : Scanner.next goal s = .ok (t, s'))
    (ht : t.tokentype = .punctuator) :
    ∃ w p, s.rest = w ++ p.toStr ++ s'.rest ∧ t.value = .punc p ∧ Trivia w (p.toStr ++ s'.rest) ∧
      ∀ y ∈ punctuators, y <+: p.toStr ++ s'.rest → y.length ≤ p.toStr.length := by
  obtain ⟨pre, w, x, c, h⟩ := hs.scanned h
  have hl := h.lexeme
  have htok := h.token
  have hr := h.rest
  have hw := h.trivia
  generalize s'.rest = r at *
  cases hl with
  | punct hp h1 h2 h3 =>
    rename_i p
    obtain ⟨ha, rfl, hb, hc⟩ := hp
    exact ⟨w, p, by rw [hr]; simp, by rw [htok]; rfl, hw, hb⟩
  | name h1 h2 =>
    rw [htok] at ht
    unfold Content.token nameToken at ht
    dsimp only at ht
    split at ht
    · cases ht
    · split at ht
      · cases ht
      · split at ht <;> cases ht
  | _ => rw [htok] at ht; cases ht

/-- C19: every punctuator in the list is scanned when it is the longest one the text goes on with – except that a `/` must
be asked for with the goal `div`, a `}` must not close a substitution, a `.` must not be followed by a digit, and an
operator that could be longer must not end the input. -/
theorem C19_scans_punctuator (hs : Reached source s) {w r : Str} {p : Punctuator} (hr : s.rest = w ++ (p.toStr ++ r))
    (hw : Trivia w (p.toStr ++ r)) (hn : ¬ StartsTrivia (p.toStr ++ r)) (hp : p.toStr ∈ punctuators)
    (hmax : ∀ y ∈ punctuators, y <+: p.toStr ++ r → y.length ≤ p.toStr.length)
    (hend : r = [] → p.toStr ∉ [cs!"+", cs!"-", cs!"&", cs!"|", cs!"%", cs!"^"])
    (hdot : p = .dot → ∀ c, r.head? = some c → isDecimalDigit c = false)
    (hbrace : p = .rBrace → s.curly.head? ≠ some .template)
    (hdiv : p = .slash ∨ p = .slashAssign → goal = .div) :
    ∃ t s', Scanner.next goal s = .ok (t, s') ∧ s'.rest = r ∧ t.tokentype = .punctuator ∧ t.value = .punc p := by
  have hx : Lexeme goal (decide (s.curly.head? = some .template)) p.toStr r (.punct p) := by
    refine .punct ⟨hp, rfl, hmax, hend⟩ (fun h => hdot (toStr_inj h)) (fun h => ?_) (fun h => hdiv ?_)
    · simpa using hbrace (toStr_inj h)
    · revert h; cases p <;> decide
  have hne : s.rest ≠ [] := by
    rw [hr]
    intro h0
    simp only [List.append_eq_nil_iff] at h0
    rw [h0.2.1] at hp
    revert hp; decide
  obtain ⟨t, s', pre, h1, h2, h3⟩ := hs.scans hr hw hn hx hne
  exact ⟨t, s', h1, h2, by rw [h3.token]; rfl, by rw [h3.token]; rfl⟩

/-! ### C20: names -/

theorem Spec.IdTail.plain {x r v : Str} (h : IdTail x r v) (hb : '\\' ∉ x) : Run isIdentifierContinue x r ∧ v = x := by
  induction h with
  | done h => exact ⟨⟨by simp, h⟩, rfl⟩
  | @char c x r v h1 h2 _ ih =>
    obtain ⟨⟨h3, h4⟩, rfl⟩ := ih (fun h => hb (List.mem_cons_of_mem _ h))
    refine ⟨⟨?_, h4⟩, rfl⟩
    intro d hd
    rcases List.mem_cons.mp hd with rfl | hd
    · exact h1
    · exact h3 d hd
  | escape => exact absurd (List.mem_cons_self ..) hb

theorem Spec.IdTail.ofRun {x r : Str} (h : Run isIdentifierContinue x r) (hb : '\\' ∉ x) : IdTail x r x := by
  induction x with
  | nil => exact .done h.2
  | cons c x ih =>
    simp only [List.mem_cons, not_or] at hb
    exact .char (h.1 c (List.mem_cons_self ..)) (fun h => hb.1 h.symm)
      (ih ⟨fun d hd => h.1 d (List.mem_cons_of_mem _ hd), h.2⟩ hb.2)

theorem idStart_not_digit {c : Char} (h : isDecimalDigit c = true) : isIdentifierStart c = false := by
  have hc : c.toNat < 128 := by
    simp only [isDecimalDigit, inRange, Bool.and_eq_true, decide_eq_true_eq] at h
    have := h.2
    have e : '9'.toNat = 57 := by decide
    omega
  rw [idStart_ascii hc]
  simp only [isDecimalDigit, inRange, Bool.and_eq_true, decide_eq_true_eq] at h
  have e0 : '0'.toNat = 48 := by decide
  have e9 : '9'.toNat = 57 := by decide
  have eA : 'A'.toNat = 65 := by decide
  have ea : 'a'.toNat = 97 := by decide
  have h1 : (c == '$') = false := by
    rw [beq_eq_false_iff_ne]; rintro rfl; have : '$'.toNat = 36 := by decide
    omega
  have h2 : (c == '_') = false := by
    rw [beq_eq_false_iff_ne]; rintro rfl; have : '_'.toNat = 95 := by decide
    omega
  simp only [h1, h2, inRange, eA, ea, Bool.false_or, Bool.or_eq_false_iff, Bool.and_eq_false_imp, decide_eq_true_eq,
    decide_eq_false_iff_not]
  exact ⟨by omega, by omega⟩

theorem idStart_of {c : Char} (h : c.toNat < 128)
    (h' : (c == '$' || c == '_' || inRange 'A' 'Z' c || inRange 'a' 'z' c) = false) : isIdentifierStart c = false := by
  rw [idStart_ascii h]; exact h'

/-- a lexeme that begins like a name is a name -/
theorem Spec.Lexeme.isName {resume : Bool} {c : Char} {x r : Str} {k : Content} (h : Lexeme goal resume (c :: x) r k)
    (hc : isIdentifierStart c = true) : ∃ v, IdTail x r v ∧ k = .name (c :: v) := by
  generalize hy : c :: x = y at h
  have no : ∀ d : Char, d.toNat < 128 → (d == '$' || d == '_' || inRange 'A' 'Z' d || inRange 'a' 'z' d) = false →
      c = d → False := by
    rintro d h1 h2 rfl
    rw [idStart_of h1 h2] at hc; cases hc
  cases h with
  | eof => cases hy
  | name h1 h2 => cases hy; exact ⟨_, h2, rfl⟩
  | number hn =>
    obtain ⟨d, z, rfl, hd⟩ := hn.head
    cases hy
    rcases hd with hd | rfl
    · rw [idStart_not_digit hd] at hc; cases hc
    · exact (no '.' (by decide) (by decide) rfl).elim
  | string hq _ =>
    cases hy
    rcases hq with rfl | rfl <;> exact (no _ (by decide) (by decide) rfl).elim
  | template he _ =>
    cases hy
    cases he <;> exact (no _ (by decide) (by decide) rfl).elim
  | regexp => cases hy; exact (no '/' (by decide) (by decide) rfl).elim
  | punct hp =>
    have := hp.1
    subst hy
    simp only [punctuators, List.mem_cons, List.cons.injEq, List.not_mem_nil, or_false] at this
    rcases this with h | h | h | h | h | h | h | h | h | h | h | h | h | h | h | h | h | h | h | h | h | h | h | h | h |
      h | h | h | h | h | h | h | h | h | h | h | h | h | h | h | h | h | h | h | h | h | h | h | h | h | h <;>
    exact (no _ (by decide) (by decide) h.1).elim

/-- C20: if the text of a token begins like a name and has no backslash, then it is all the identifier characters there
are, and the kind and value of the token are those of the spelling. -/
theorem C20_name (hs : Reached source s) (h : Scanner.next goal s = .ok (t, s')) :
    ∃ w x, s.rest = w ++ x ++ s'.rest ∧ Trivia w (x ++ s'.rest) ∧ ¬ StartsTrivia (x ++ s'.rest) ∧
      ∀ c y, x = c :: y → isIdentifierStart c = true → '\\' ∉ y →
        Run isIdentifierContinue y s'.rest ∧ (t.tokentype, t.value) = nameToken x := by
  obtain ⟨pre, w, x, c, h⟩ := hs.scanned h
  refine ⟨w, x, by rw [h.rest]; simp, h.trivia, h.notTrivia, ?_⟩
  rintro d y rfl hd hb
  obtain ⟨v, hv, rfl⟩ := h.lexeme.isName hd
  obtain ⟨h1, rfl⟩ := hv.plain hb
  exact ⟨h1, by rw [h.token]; rfl⟩

/-- C20: a token that is an identifier, a keyword, `null`, `true` or `false` is a name: it begins with an identifier
start character, goes on with identifier characters (and escapes, written with two backslashes), and its kind and value
are those of its spelling. -/
theorem C20_name_kinds (hs : Reached source s) (h : Scanner.next goal s = .ok (t, s'))
    (ht : t.tokentype ∈ [TokenType.identifier, .keyword, .nullLiteral, .booleanLiteral]) :
    ∃ w c x v, s.rest = w ++ c :: x ++ s'.rest ∧ Trivia w (c :: x ++ s'.rest) ∧ isIdentifierStart c = true ∧
      IdTail x s'.rest v ∧ (t.tokentype, t.value) = nameToken (c :: v) := by
  obtain ⟨pre, w, x, c, h⟩ := hs.scanned h
  have hl := h.lexeme
  have htok := h.token
  have hr := h.rest
  have hw := h.trivia
  generalize s'.rest = r at *
  cases hl with
  | name h1 h2 => exact ⟨w, _, _, _, by rw [hr]; simp, hw, h1, h2, by rw [htok]; rfl⟩
  | _ => rw [htok] at ht; simp [Content.token] at ht

/-- C20: a name is always scanned. -/
theorem C20_scans_name (hs : Reached source s) {w x r : Str} {c : Char} (hr : s.rest = w ++ (c :: (x ++ r)))
    (hw : Trivia w (c :: (x ++ r))) (hb : isBlank c = false) (hc : isIdentifierStart c = true)
    (hx : Run isIdentifierContinue x r) (hx' : '\\' ∉ x) :
    ∃ t s', Scanner.next goal s = .ok (t, s') ∧ s'.rest = r ∧ (t.tokentype, t.value) = nameToken (c :: x) := by
  have hs' : c ≠ '/' := by
    rintro rfl
    rw [idStart_of (by decide) (by decide)] at hc; cases hc
  have hn : ¬ StartsTrivia ((c :: x) ++ r) := not_startsTrivia hb hs'
  obtain ⟨t, s', pre, h1, h2, h3⟩ := hs.scans (goal := goal) (x := c :: x) (r := r) hr hw hn (.name hc (.ofRun hx hx'))
    (by rw [hr]; simp)
  exact ⟨t, s', h1, h2, by rw [h3.token]; rfl⟩

/-! ### C21: strings -/

/-- A spelling of a character between quotes `q`. -/
def Spec.spellChar (q c : Char) : Str :=
  if c = q ∨ c = '\\' then ['\\', c]
  else if c = '\n' then cs!"\\n"
  else if c = '\r' then cs!"\\r"
  else if c = '\u2028' then cs!"\\u2028"
  else if c = '\u2029' then cs!"\\u2029"
  else [c]

/-- A spelling of a string between quotes `q`. -/
def Spec.spell (q : Char) (v : Str) : Str := q :: (v.flatMap (spellChar q) ++ [q])

theorem spellChar_item {q c : Char} (hq : q = '\'' ∨ q = '"') (r : Str) :
    (spellChar q c).head? ≠ some q ∧ StringItem (spellChar q c) r c false := by
  have hq' : q ≠ '\\' := by rcases hq with rfl | rfl <;> decide
  unfold spellChar
  split
  · next h =>
    refine ⟨by simpa using fun h => hq' h.symm, .escape ?_⟩
    rcases h with rfl | rfl
    · rcases hq with rfl | rfl <;> decide
    · decide
  · next h =>
    rw [not_or] at h
    split
    · next h => subst h; exact ⟨by simpa using fun h => hq' h.symm, .escape (by decide)⟩
    · split
      · next h => subst h; exact ⟨by simpa using fun h => hq' h.symm, .escape (by decide)⟩
      · split
        · next h =>
          subst h
          exact ⟨by simpa using fun h => hq' h.symm, .unicode (.short rfl (by decide) (by decide))⟩
        · split
          · next h =>
            subst h
            exact ⟨by simpa using fun h => hq' h.symm, .unicode (.short rfl (by decide) (by decide))⟩
          · refine ⟨by simpa using h.1, .char h.2 ?_⟩
            simp only [isLineTerminator, Bool.or_eq_false_iff, beq_eq_false_iff_ne]
            exact ⟨⟨⟨by assumption, by assumption⟩, by assumption⟩, by assumption⟩

theorem spell_body {q : Char} (hq : q = '\'' ∨ q = '"') (v r : Str) : StringBody q (v.flatMap (spellChar q)) r v false := by
  induction v with
  | nil => exact .done
  | cons c v ih =>
    have h := spellChar_item (c := c) hq (v.flatMap (spellChar q) ++ r)
    exact .item h.1 h.2 ih

/-- C21: for every string value, whatever quotes are used and whatever follows, the value is what its spelling scans
to. -/
theorem C21_round_trip (hs : Reached source s) {w r v : Str} {q : Char} (hq : q = '\'' ∨ q = '"')
    (hr : s.rest = w ++ (spell q v ++ r)) (hw : Trivia w (spell q v ++ r)) :
    ∃ t s', Scanner.next goal s = .ok (t, s') ∧ s'.rest = r ∧ t.tokentype = .stringLiteral ∧ t.value = .str v ∧
      t.octal = some false := by
  have hn : ¬ StartsTrivia (spell q v ++ r) := by
    refine not_startsTrivia ?_ ?_ <;> rcases hq with rfl | rfl <;> decide
  obtain ⟨t, s', pre, h1, h2, h3⟩ := hs.scans (goal := goal) hr hw hn (.string hq (spell_body hq v _))
    (by rw [hr]; simp [spell])
  exact ⟨t, s', h1, h2, by rw [h3.token]; rfl, by rw [h3.token]; rfl, by rw [h3.token]; rfl⟩

theorem Spec.StringItem.plain {x r : Str} {c : Char} {o : Bool} (h : StringItem x r c o) (hb : '\\' ∉ x) :
    x = [c] ∧ isLineTerminator c = false := by
  cases h with
  | char h1 h2 => exact ⟨rfl, h2⟩
  | hex h => cases h; exact absurd (List.mem_cons_self ..) hb
  | unicode h => cases h <;> exact absurd (List.mem_cons_self ..) hb
  | _ => exact absurd (List.mem_cons_self ..) hb

theorem Spec.StringBody.plain {q : Char} {x r v : Str} {o : Bool} (h : StringBody q x r v o) (hb : '\\' ∉ x) :
    v = x ∧ q ∉ x ∧ ∀ c ∈ x, isLineTerminator c = false := by
  induction h with
  | done => simp
  | @item x y r v c o p h1 h2 h3 ih =>
    simp only [List.mem_append, not_or] at hb
    obtain ⟨rfl, hc⟩ := h2.plain hb.1
    obtain ⟨rfl, hq, hl⟩ := ih hb.2
    refine ⟨rfl, ?_, ?_⟩
    · simp only [List.singleton_append, List.mem_cons, not_or]
      exact ⟨fun h => h1 (by simp [h]), hq⟩
    · simp only [List.singleton_append, List.mem_cons]
      rintro d (rfl | hd)
      · exact hc
      · exact hl d hd

/-- C21: a string token is delimited by two equal quotes; what is between spells its value according to the grammar; and
if there is no backslash between them, the value is the text, which has no line break and no such quote. -/
theorem C21_delimited (hs : Reached source s) (h : Scanner.next goal s = .ok (t, s')) (ht : t.tokentype = .stringLiteral) :
    ∃ w q x v o, (q = '\'' ∨ q = '"') ∧ s.rest = w ++ (q :: (x ++ [q])) ++ s'.rest ∧
      Trivia w (q :: (x ++ [q]) ++ s'.rest) ∧ StringBody q x (q :: s'.rest) v o ∧ t.value = .str v ∧ t.octal = some o ∧
      ('\\' ∉ x → v = x ∧ q ∉ x ∧ ∀ c ∈ x, isLineTerminator c = false) := by
  obtain ⟨pre, w, x, c, h⟩ := hs.scanned h
  have hl := h.lexeme
  have htok := h.token
  have hr := h.rest
  have hw := h.trivia
  generalize s'.rest = r at *
  cases hl with
  | string hq hb => exact ⟨w, _, _, _, _, hq, by rw [hr]; simp, hw, hb, by rw [htok]; rfl, by rw [htok]; rfl, hb.plain⟩
  | name h1 h2 =>
    rw [htok] at ht
    unfold Content.token nameToken at ht
    dsimp only at ht
    split at ht
    · cases ht
    · split at ht
      · cases ht
      · split at ht <;> cases ht
  | _ => rw [htok] at ht; cases ht

/-! ### C22: numbers -/

/-- C22: a literal of the grammar is scanned to its value, whole. -/
theorem C22_scans_number (hs : Reached source s) {w x r : Str} {n : Num} (hr : s.rest = w ++ (x ++ r))
    (hw : Trivia w (x ++ r)) (hx : Number x r n) :
    ∃ t s', Scanner.next goal s = .ok (t, s') ∧ s'.rest = r ∧ t.tokentype = .numericLiteral ∧ t.value = .num n := by
  obtain ⟨c, y, rfl, hc⟩ := hx.head
  have hc' : isBlank c = false ∧ c ≠ '/' := by
    rcases hc with hc | rfl
    · simp only [isDecimalDigit, inRange, Bool.and_eq_true, decide_eq_true_eq] at hc
      have e0 : '0'.toNat = 48 := by decide
      have e9 : '9'.toNat = 57 := by decide
      have key : ∀ d : Char, d.toNat < 48 ∨ 57 < d.toNat → c ≠ d := by rintro d hd rfl; omega
      refine ⟨?_, key _ (by decide)⟩
      simp only [isBlank, charIsWhitespace, isLineTerminator, Bool.or_eq_false_iff, beq_eq_false_iff_ne]
      simp only [Bool.and_eq_false_imp, decide_eq_true_eq, decide_eq_false_iff_not]
      refine ⟨⟨⟨⟨⟨⟨⟨⟨⟨⟨⟨key _ (by decide), by omega⟩, key _ (by decide)⟩, key _ (by decide)⟩, key _ (by decide)⟩,
        by omega⟩, key _ (by decide)⟩, key _ (by decide)⟩, key _ (by decide)⟩, key _ (by decide)⟩, key _ (by decide)⟩,
        ⟨⟨key _ (by decide), key _ (by decide)⟩, key _ (by decide)⟩, key _ (by decide)⟩
    · exact ⟨by decide, by decide⟩
  have hn : ¬ StartsTrivia ((c :: y) ++ r) := not_startsTrivia hc'.1 hc'.2
  obtain ⟨t, s', pre, h1, h2, h3⟩ := hs.scans (goal := goal) hr hw hn (.number hx) (by rw [hr]; simp)
  exact ⟨t, s', h1, h2, by rw [h3.token]; rfl, by rw [h3.token]; rfl⟩

/-- C22: a numeric token is a literal of the grammar, with the value the grammar gives. -/
theorem C22_number (hs : Reached source s) (h : Scanner.next goal s = .ok (t, s')) (ht : t.tokentype = .numericLiteral) :
    ∃ w x n, s.rest = w ++ x ++ s'.rest ∧ Trivia w (x ++ s'.rest) ∧ Number x s'.rest n ∧ t.value = .num n := by
  obtain ⟨pre, w, x, c, h⟩ := hs.scanned h
  have hl := h.lexeme
  have htok := h.token
  have hr := h.rest
  have hw := h.trivia
  generalize s'.rest = r at *
  cases hl with
  | number hn => exact ⟨w, _, _, by rw [hr]; simp, hw, hn, by rw [htok]; rfl⟩
  | name h1 h2 =>
    rw [htok] at ht
    unfold Content.token nameToken at ht
    dsimp only at ht
    split at ht
    · cases ht
    · split at ht
      · cases ht
      · split at ht <;> cases ht
  | _ => rw [htok] at ht; cases ht

/-! ### C26: templates -/

/-- a character that a template keeps as it is -/
def Spec.keptInTemplate (c : Char) : Prop := c ≠ '\\' ∧ c ≠ '\r' ∧ c ≠ '\u2028' ∧ c ≠ '\u2029'

theorem Spec.TemplateBody.plain {x r v : Str} (h : TemplateBody x r v) (hb : ∀ c ∈ x, keptInTemplate c) : v = x := by
  induction h with
  | done => rfl
  | @item x y r v c h1 h2 h3 ih =>
    have ih := ih (fun d hd => hb d (List.mem_append_right _ hd))
    subst ih
    have no : ∀ z, x = '\\' :: z → False := by
      rintro z rfl
      exact (hb '\\' (by simp)).1 rfl
    generalize v ++ r = r' at h2
    cases h2 with
    | char => rfl
    | newline hc =>
      rename_i d
      have hd := hb d (by simp)
      simp only [isLineTerminator, Bool.or_eq_true, beq_iff_eq] at hc
      rcases hc with ((hc | hc) | hc) | hc
      · rw [hc]; rfl
      · exact absurd hc hd.2.1
      · exact absurd hc hd.2.2.1
      · exact absurd hc hd.2.2.2
    | hex h => cases h; exact (no _ rfl).elim
    | unicode h => cases h <;> exact (no _ rfl).elim
    | _ => exact (no _ rfl).elim

/-- C26: the raw value of a template token is the text between its delimiters: a backtick or, going on after a
substitution, a `}` before, and a backtick or `${` after.  If every character is one that a template keeps then the cooked
value is the same. -/
theorem C26_template (hs : Reached source s) (h : Scanner.next goal s = .ok (t, s')) (ht : t.tokentype = .template) :
    ∃ w a raw z cooked, s.rest = w ++ (a ++ raw ++ z) ++ s'.rest ∧ Trivia w (a ++ raw ++ z ++ s'.rest) ∧
      (a = cs!"`" ∧ t.head = some true ∨ a = cs!"}" ∧ t.head = some false ∧ s.curly.head? = some .template) ∧
      (z = cs!"`" ∧ t.tail = some true ∨ z = cs!"${" ∧ t.tail = some false) ∧
      t.value = .str raw ∧ t.cooked = some cooked ∧ TemplateBody raw (z ++ s'.rest) cooked ∧
      ((∀ c ∈ raw, keptInTemplate c) → cooked = raw) := by
  obtain ⟨pre, w, x, c, h⟩ := hs.scanned h
  have hl := h.lexeme
  have htok := h.token
  have hr := h.rest
  have hw := h.trivia
  generalize s'.rest = r at *
  cases hl with
  | @template b x e _ v head tail he hb =>
    refine ⟨w, [b], x, e, v, by rw [hr]; simp, by simpa using hw, ?_, ?_, by rw [htok]; rfl, by rw [htok]; rfl, hb, hb.plain⟩
    · cases he
      · exact .inl ⟨rfl, by rw [htok]; rfl⟩
      · exact .inl ⟨rfl, by rw [htok]; rfl⟩
      · rename_i hc; exact .inr ⟨rfl, by rw [htok]; rfl, by simpa using hc⟩
      · rename_i hc; exact .inr ⟨rfl, by rw [htok]; rfl, by simpa using hc⟩
    · cases he
      · exact .inl ⟨rfl, by rw [htok]; rfl⟩
      · exact .inr ⟨rfl, by rw [htok]; rfl⟩
      · exact .inr ⟨rfl, by rw [htok]; rfl⟩
      · exact .inl ⟨rfl, by rw [htok]; rfl⟩
  | name h1 h2 =>
    rw [htok] at ht
    unfold Content.token nameToken at ht
    dsimp only at ht
    split at ht
    · cases ht
    · split at ht
      · cases ht
      · split at ht <;> cases ht
  | _ => rw [htok] at ht; cases ht

/-! ### C27: regular expressions -/

/-- C27: a regular expression token is scanned only with the goal `regExp`; its pattern is the text between the slashes,
in which a slash stands only after a backslash or in a class; its flags are all the identifier characters after that. -/
theorem C27_regexp (hs : Reached source s) (h : Scanner.next goal s = .ok (t, s')) (ht : t.tokentype = .regularExpression) :
    goal = .regExp ∧ ∃ w p f v, s.rest = w ++ ('/' :: (p ++ '/' :: f)) ++ s'.rest ∧
      Trivia w ('/' :: (p ++ '/' :: f) ++ s'.rest) ∧ t.pattern = some p ∧ t.flags = some v ∧
      RegExpBody p ('/' :: (f ++ s'.rest)) ∧ IdTail f s'.rest v ∧
      ('\\' ∉ f → v = f ∧ Run isIdentifierContinue f s'.rest) := by
  obtain ⟨pre, w, x, c, h⟩ := hs.scanned h
  have hl := h.lexeme
  have htok := h.token
  have hr := h.rest
  have hw := h.trivia
  generalize s'.rest = r at *
  cases hl with
  | regexp hg hx hb hf =>
    exact ⟨hg, w, _, _, _, by rw [hr]; simp, hw, by rw [htok]; rfl, by rw [htok]; rfl, hb, hf,
      fun h => ⟨(hf.plain h).2, (hf.plain h).1⟩⟩
  | name h1 h2 =>
    rw [htok] at ht
    unfold Content.token nameToken at ht
    dsimp only at ht
    split at ht
    · cases ht
    · split at ht
      · cases ht
      · split at ht <;> cases ht
  | _ => rw [htok] at ht; cases ht

/-! ### C23: trivia -/

/-- C23: `next` skips trivia until the text no longer begins with any; the trivia run is unique. -/
theorem C23_maximal (hs : Reached source s) (h : Scanner.next goal s = .ok (t, s')) :
    ∃ w x, s.rest = w ++ (x ++ s'.rest) ∧ Trivia w (x ++ s'.rest) ∧ ¬ StartsTrivia (x ++ s'.rest) ∧
      ∀ w' r', s.rest = w' ++ r' → Trivia w' r' → ¬ StartsTrivia r' → w' = w := by
  obtain ⟨pre, w, x, c, h⟩ := hs.scanned h
  exact ⟨w, x, h.rest, h.trivia, h.notTrivia, fun w' r' h1 h2 h3 =>
    (trivia_unique h2 h3 h.trivia h.notTrivia (h1.symm.trans h.rest)).1⟩

end
end Giron

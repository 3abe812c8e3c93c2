import Verif.Proofs.Lex.Lexeme
import Verif.Spec.Scan
/-
Calls of `next`, one after the other.
-/
namespace Giron
open M Spec
namespace Scanner
variable {s : Scanner}

theorem lineBreaks_cons (c : Char) (r : Str) : lineBreaks (c :: r) =
    (if isLineTerminator c = true ∧ ¬ (c = '\r' ∧ r.head? = some '\n') then 1 else 0) + lineBreaks r := rfl

theorem lineBreaks_drop_le (x r : Str) : lineBreaks r ≤ lineBreaks (x ++ r) := by
  induction x with
  | nil => exact Nat.le_refl _
  | cons c x ih => rw [List.cons_append, lineBreaks_cons]; omega

theorem afterConsume_col {c : Char} {r : Str} (h : s.rest = c :: r) : (afterConsume s).col =
    if isLineTerminator c = true ∧ ¬ (c = '\r' ∧ r.head? = some '\n') then 1 else s.col + 1 := by
  unfold afterConsume
  rw [h]
  dsimp only
  by_cases h1 : c = '\r' ∧ r.head? = some '\n'
  · simp [h1]
  · by_cases h2 : isLineTerminator c = true <;> simp [h1, h2]

theorem afterConsume_newline {c : Char} {r : Str} (h : s.rest = c :: r) : (afterConsume s).newline =
    (s.newline || decide (lineBreaks r < lineBreaks (c :: r))) := by
  rw [lineBreaks_cons]
  unfold afterConsume
  rw [h]
  dsimp only
  by_cases h1 : c = '\r' ∧ r.head? = some '\n'
  · simp [h1]
  · by_cases h2 : isLineTerminator c = true <;> simp [h1, h2]

theorem afterN_col {x r : Str} (h : s.rest = x ++ r) : (afterN x.length s).col = columnAfter s.col x r := by
  induction x generalizing s with
  | nil => rfl
  | cons c x ih =>
    rw [List.length_cons, afterN_succ, ih (rest_afterConsume h), columnAfter, afterConsume_col h]
    rfl

theorem afterN_newline {x r : Str} (h : s.rest = x ++ r) :
    (afterN x.length s).newline = (s.newline || decide (lineBreaks r < lineBreaks (x ++ r))) := by
  induction x generalizing s with
  | nil => simp
  | cons c x ih =>
    rw [List.length_cons, afterN_succ, ih (rest_afterConsume h), afterConsume_newline h, Bool.or_assoc]
    congr 1
    rw [Bool.eq_iff_iff]
    simp only [Bool.or_eq_true, decide_eq_true_eq]
    have h1 := lineBreaks_drop_le x r
    have h2 := lineBreaks_drop_le [c] (x ++ r)
    show (lineBreaks (x ++ r) < lineBreaks ([c] ++ (x ++ r)) ∨ _) ↔ lineBreaks r < lineBreaks ([c] ++ (x ++ r))
    omega

variable [Env]

/-- the state after the trivia `w` and the token `x`, which says `c` -/
def step (w x : Str) (c : Content) (s : Scanner) : Scanner :=
  withCurly (c.braces s.curly)
    (afterN x.length { afterN w.length { s with newline := false } with col := 1, start := s.current + w.length })

theorem next_eq {goal : LexGoal} {w x r : Str} {c : Content} (hu : s.unscanned = none) (hf : Fresh s)
    (h : s.rest = w ++ (x ++ r)) (hw : Trivia w (x ++ r)) (hn : ¬ StartsTrivia (x ++ r))
    (hx : Lexeme goal (decide (s.curly.head? = some .template)) x r c) :
    next goal s = emit c (step w x c s) := by
  unfold next
  rw [hu]
  dsimp only
  unfold scanFresh
  let s0 : Scanner := { s with newline := false }
  have h1 : (M.modify fun s : Scanner => { s with newline := false }) s = .ok ((), s0) := rfl
  rw [M.bind_ok h1, M.bind_ok (scanComments_eq (s := s0) hw hn h)]
  let s2 : Scanner := { afterN w.length s0 with col := 1, start := s.current + w.length }
  have h2 : startNewToken (afterN w.length s0) = .ok ((), s2) := by
    show Except.ok ((), { afterN w.length s0 with col := 1, start := (afterN w.length s0).current }) = _
    rw [show (afterN w.length s0).current = s.current + w.length by simp [s0]]
  rw [M.bind_ok h2]
  have hc : s2.curly = s.curly := by
    show (afterN w.length s0).curly = s.curly
    simp [s0]
  have hr2 : s2.rest = x ++ r := by
    show (afterN w.length s0).rest = x ++ r
    exact rest_afterN_append (s := s0) h
  have hf2 : Fresh s2 := Fresh.afterN (s := s0) hf w.length
  rw [scanToken_complete (s := s2) hf2 hr2 (by rw [hc]; exact hx), hc]
  rfl

theorem next_inv {goal : LexGoal} {t : Token} {s' : Scanner} (hu : s.unscanned = none)
    (h : next goal s = .ok (t, s')) :
    ∃ w x r c, s.rest = w ++ (x ++ r) ∧ Trivia w (x ++ r) ∧ ¬ StartsTrivia (x ++ r) ∧
      Lexeme goal (decide (s.curly.head? = some .template)) x r c := by
  obtain ⟨w, r0, h0, hw, hn⟩ := exists_trivia s.rest
  unfold next at h
  rw [hu] at h
  dsimp only at h
  unfold scanFresh at h
  let s0 : Scanner := { s with newline := false }
  have h1 : (M.modify fun s : Scanner => { s with newline := false }) s = .ok ((), s0) := rfl
  rw [M.bind_ok h1, M.bind_ok (scanComments_eq (s := s0) hw hn h0)] at h
  let s2 : Scanner := { afterN w.length s0 with col := 1, start := (afterN w.length s0).current }
  have h2 : startNewToken (afterN w.length s0) = .ok ((), s2) := rfl
  rw [M.bind_ok h2] at h
  obtain ⟨x, r, c, hx, hl⟩ := scanToken_sound h
  have hr2 : s2.rest = r0 := by
    show (afterN w.length s0).rest = r0
    exact rest_afterN_append (s := s0) h0
  have hc : s2.curly = s.curly := by
    show (afterN w.length s0).curly = s.curly
    simp [s0]
  rw [hr2] at hx
  subst hx
  rw [hc] at hl
  exact ⟨w, x, r, c, h0, hw, hn, hl⟩

/-! ### Between tokens -/

/-- The scanner has read `pre` and has the rest of the source to go. -/
structure At (source pre : Str) (s : Scanner) : Prop where
  text : source = pre ++ s.rest
  current : s.current = pre.length
  line : s.line + lineBreaks s.rest = lines source
  fresh : Fresh s
  unscanned : s.unscanned = none

omit [Env] in
theorem at_new (source : Str) : At source [] (new source) :=
  ⟨rfl, rfl, rfl, ⟨rfl, rfl⟩, rfl⟩

omit [Env] in
theorem At.step {source pre w x r : Str} (h : At source pre s) (hr : s.rest = w ++ (x ++ r)) (c : Content) :
    At source (pre ++ w ++ x) (step w x c s) ∧ (Scanner.step w x c s).rest = r ∧
      (Scanner.step w x c s).curly = c.braces s.curly ∧ (Scanner.step w x c s).start = (pre ++ w).length ∧
      (Scanner.step w x c s).col = columnAfter 1 x r ∧
      (Scanner.step w x c s).newline = decide (lineBreaks r < lineBreaks (w ++ (x ++ r))) := by
  let s0 : Scanner := { s with newline := false }
  have hr0 : s0.rest = w ++ (x ++ r) := hr
  let s2 : Scanner := { afterN w.length s0 with col := 1, start := s.current + w.length }
  have hr2 : s2.rest = x ++ r := by
    show (afterN w.length s0).rest = x ++ r
    exact rest_afterN_append hr0
  have hr3 : (afterN x.length s2).rest = r := rest_afterN_append hr2
  have e : Scanner.step w x c s = withCurly (c.braces s.curly) (afterN x.length s2) := rfl
  rw [e]
  have hl0 : s0.line + lineBreaks s0.rest = lines source := h.line
  have hl2 : s2.line + lineBreaks s2.rest = lines source := by
    have := afterN_lines w.length s0
    rw [show s0.rest.drop w.length = s2.rest from by rw [hr2, hr0]; simp] at this
    show (afterN w.length s0).line + _ = _
    omega
  have hl3 : (afterN x.length s2).line + lineBreaks r = lines source := by
    have := afterN_lines x.length s2
    rw [show s2.rest.drop x.length = r from by rw [hr2]; simp] at this
    omega
  have hcur2 : s2.current = s.current + w.length := by
    show (afterN w.length s0).current = _
    simp [s0]
  have hf2 : Fresh s2 := Fresh.afterN (s := s0) h.fresh w.length
  have hn2 : s2.newline = decide (lineBreaks (x ++ r) < lineBreaks (w ++ (x ++ r))) := by
    show (afterN w.length s0).newline = _
    rw [afterN_newline hr0]
    simp [s0]
  refine ⟨⟨?_, ?_, ?_, ?_, ?_⟩, hr3, rfl, ?_, ?_, ?_⟩
  · show _ = _ ++ (afterN x.length s2).rest
    rw [hr3, h.text, hr]; simp
  · show (afterN x.length s2).current = _
    rw [afterN_current, hcur2, h.current]; simp; omega
  · show (afterN x.length s2).line + lineBreaks (afterN x.length s2).rest = _
    rw [hr3, hl3]
  · exact hf2.afterN _
  · show (afterN x.length s2).unscanned = none
    rw [afterN_unscanned]
    show (afterN w.length s0).unscanned = none
    rw [afterN_unscanned]; exact h.unscanned
  · show (afterN x.length s2).start = _
    rw [afterN_start]
    show s.current + w.length = _
    rw [h.current]; simp
  · show (afterN x.length s2).col = _
    rw [afterN_col hr2]
  · show (afterN x.length s2).newline = _
    rw [afterN_newline hr2, hn2, Bool.eq_iff_iff]
    simp only [Bool.or_eq_true, decide_eq_true_eq]
    have h1 := lineBreaks_drop_le x r
    have h2 := lineBreaks_drop_le w (x ++ r)
    omega

/-- the token emitted after a step has its place -/
theorem emit_step {source pre w x r : Str} (h : At source pre s) (hr : s.rest = w ++ (x ++ r)) (c : Content) :
    emit c (Scanner.step w x c s) = if pre ++ w ++ x = [] ∧ Env.checked = true then .error (.panic .tokenEndUnderflow)
      else .ok (c.token (lines source - lineBreaks r) (columnAfter 1 x r) (pre ++ w).length
        (if pre ++ w ++ x = [] then Env.usizeMax else (pre ++ w ++ x).length - 1), Scanner.step w x c s) := by
  obtain ⟨h1, h2, h3, h4, h5, h6⟩ := h.step hr c
  unfold emit
  have hl := h1.line
  rw [h2] at hl
  have hz : (Scanner.step w x c s).current = 0 ↔ pre ++ w ++ x = [] := by
    rw [h1.current, List.length_eq_zero_iff]
  rw [h4, h5, h1.current, show (Scanner.step w x c s).line = lines source - lineBreaks r by omega]
  simp only [List.length_eq_zero_iff]

theorem nextAll_sound {source : Str} {goals : List LexGoal} {pre : Str} {ts : List (Token × Bool)} {s' : Scanner}
    (hs : At source pre s) (h : nextAll goals s = .ok (ts, s')) : Tokens source goals pre s.curly s.rest ts := by
  induction goals generalizing s pre ts with
  | nil => cases h; exact .stop
  | cons goal goals ih =>
    unfold nextAll at h
    obtain ⟨t, s1, h1, h⟩ := M.bind_inv h
    obtain ⟨w, x, r, c, hr, hw, hn, hl⟩ := next_inv hs.unscanned h1
    rw [next_eq hs.unscanned hs.fresh hr hw hn hl, emit_step hs hr c] at h1
    obtain ⟨k1, k2, k3, k4, k5, k6⟩ := hs.step hr c
    split at h1
    · cases h1
    · next hck =>
      cases h1
      obtain ⟨s2, s3, h2, h⟩ := M.bind_inv h
      cases h2
      obtain ⟨ts', s4, h3, h⟩ := M.bind_inv h
      cases h
      have := ih k1 h3
      rw [k2, k3] at this
      rw [hr]
      refine .token hw hn hl rfl ?_ k6 this
      intro h0
      cases hc : Env.checked
      · rfl
      · exact absurd ⟨h0, hc⟩ hck

theorem nextAll_complete {source : Str} {goals : List LexGoal} {pre : Str} {b : List Brace} {text : Str}
    {ts : List (Token × Bool)} (h : Tokens source goals pre b text ts) (hs : At source pre s) (hb : s.curly = b)
    (ht : s.rest = text) : ∃ s', nextAll goals s = .ok (ts, s') := by
  induction h generalizing s with
  | stop => exact ⟨s, rfl⟩
  | @token goal goals pre w x r b c t nl ts hw hn hl htok hck hnl _ ih =>
    subst hb
    obtain ⟨k1, k2, k3, k4, k5, k6⟩ := hs.step ht c
    obtain ⟨s', hs'⟩ := ih k1 k3 k2
    refine ⟨s', ?_⟩
    unfold nextAll
    have h1 : next goal s = .ok (t, Scanner.step w x c s) := by
      rw [next_eq hs.unscanned hs.fresh ht hw hn hl, emit_step hs ht c, if_neg, htok]
      rintro ⟨h0, h2⟩
      rw [hck h0] at h2; cases h2
    rw [M.bind_ok h1]
    refine (M.bind_ok (m := M.get) (a := Scanner.step w x c s) rfl).trans ?_
    rw [M.bind_ok hs', k6, ← hnl]; rfl

end Scanner
end Giron

import Verif.Proofs.Pos.WModule
import Verif.Spec.Errors
import Verif.Proofs.Pos.Scan
import Verif.Proofs.Layout.Peek
/-
Two invariants: places are in the source; places are those of words.
-/
namespace Giron
namespace Pos
open M Giron.Parser Layout Spec
variable [Env]

theorem step_col {s : Scanner} {w x r : Str} {c : Content} (hr : s.rest = w ++ (x ++ r)) :
    (Scanner.step w x c s).col = columnAfter 1 x r := by
  have hr2 : ({ Scanner.afterN w.length { s with newline := false } with col := 1, start := s.current + w.length } : Scanner).rest = x ++ r :=
    Scanner.rest_afterN_append (s := { s with newline := false }) hr
  exact Scanner.afterN_col hr2

theorem next_place {s s1 : Scanner} {g : LexGoal} {t : Token} (hf : Scanner.Fresh s) (hu : s.unscanned = none)
    (h : Scanner.next g s = .ok (t, s1)) :
    ∃ w x c, s.rest = w ++ (x ++ s1.rest) ∧ Trivia w (x ++ s1.rest) ∧ ¬ StartsTrivia (x ++ s1.rest) ∧
      (∃ q, Lexeme g q x s1.rest c) ∧ Scanner.Fresh s1 ∧ s1.unscanned = none ∧ s1.state = s.state ∧
      s1.current = s.current + w.length + x.length ∧ s1.line = s.line + (lineBreaks s.rest - lineBreaks s1.rest) ∧
      s1.col = columnAfter 1 x s1.rest ∧
      ∃ e, t = c.token s1.line s1.col (s.current + w.length) e := by
  obtain ⟨w, x, r, c, hr, hw, hn, hl⟩ := Scanner.next_inv hu h
  rw [Scanner.next_eq hu hf hr hw hn hl] at h
  obtain ⟨f1, f2, f3, f4, f5, f6, f7⟩ := Scanner.step_facts (c := c) hr hf
  have hst : (Scanner.step w x c s).start = s.current + w.length := by
    show (Scanner.afterN x.length _).start = _
    rw [Scanner.afterN_start]
  unfold Scanner.emit at h
  split at h <;> cases h
  refine ⟨w, x, c, by rw [f2]; exact hr, by rw [f2]; exact hw, by rw [f2]; exact hn, ⟨_, by rw [f2]; exact hl⟩, f1,
    f6.trans hu, f7, f4, by rw [f5, f2, hr], by rw [f2]; exact step_col hr, ?_⟩
  rw [hst]
  exact ⟨_, rfl⟩

theorem token_start {c : Content} {l k st e : Nat} : (c.token l k st e).start = st := by cases c <;> rfl
theorem token_col {c : Content} {l k st e : Nat} : (c.token l k st e).col = k := by cases c <;> rfl
theorem token_line {c : Content} {l k st e : Nat} : (c.token l k st e).lineNum = l := by cases c <;> rfl

/-! ### In the source -/

/-- some word of the source is called that -/
def Said (source : Str) (v : Str) : Prop := ∃ pre x post c, IsWord source pre x post c ∧ v = shown c

/-- the token is in the source -/
def TokIn (source : Str) (t : Token) : Prop :=
  1 ≤ t.lineNum ∧ t.lineNum ≤ lines source ∧ t.start ≤ source.length ∧ Said source t.value.toString

/-- places are in the source, and words of the source are said to be unexpected -/
def prIn (source : Str) : Pr where
  span sp := InSource source sp.start ∧ InSource source sp.end
  tok := TokIn source
  bad e := ∀ v, e.errortype = .unexpectedToken v → Said source v

instance fair_in {source : Str} : Fair (prIn source) where
  tok t e _ he v h := absurd h (he.out v)
  unexpected t h v hv := by cases hv; exact h.2.2.2
  span t e _ he v h := absurd h (he.plain.out v)

/-- the scanner is in the source -/
structure ScIn (source : Str) (s : Scanner) : Prop where
  fresh : Scanner.Fresh s
  line : 1 ≤ s.line
  lines : s.line + lineBreaks s.rest ≤ lines source
  current : s.current + s.rest.length ≤ source.length
  left : Left source s.rest
  pre : ∃ pre, source = pre ++ s.rest
  unscanned : ∀ t ∈ s.unscanned, TokIn source t

/-- the parser is in the source -/
structure In (source : Str) (s : Parser) : Prop where
  scanner : ScIn source s.scanner
  current : TokIn source s.current
  markers : ∀ m ∈ s.markerStack, InSource source m

theorem ScIn.next {source : Str} {s s1 : Scanner} {g : LexGoal} {t : Token} (h : ScIn source s)
    (hn : Scanner.next g s = .ok (t, s1)) : ScIn source s1 ∧ TokIn source t ∧ s1.state = s.state ∧
      s1.rest.length ≤ s.rest.length ∧ lineBreaks s1.rest ≤ lineBreaks s.rest := by
  cases hu : s.unscanned with
  | some u =>
    unfold Scanner.next at hn
    rw [hu] at hn
    cases hn
    exact ⟨⟨h.fresh, h.line, h.lines, h.current, h.left, h.pre, by simp⟩, h.unscanned _ hu, rfl, Nat.le_refl _, Nat.le_refl _⟩
  | none =>
    obtain ⟨w, x, c, h1, ht, hnt, ⟨q, hlx⟩, h2, h3, hst, h4, h5, -, e, h6⟩ := next_place h.fresh hu hn
    have hleft := h.left
    rw [h1] at hleft
    obtain ⟨pre, hpre⟩ := h.pre
    rw [h1] at hpre
    have hl := h.lines
    have hc := h.current
    have hline := h.line
    have hlb : lineBreaks s1.rest ≤ lineBreaks s.rest := by
      rw [h1, ← List.append_assoc]; exact Scanner.lineBreaks_drop_le _ _
    have hlen : s.rest.length = w.length + x.length + s1.rest.length := by rw [h1]; simp; omega
    refine ⟨⟨h2, by omega, by omega, by omega, .word hleft ht hnt hlx, ⟨pre ++ (w ++ x), by rw [hpre]; simp⟩, by rw [h3]; simp⟩,
      ⟨?_, ?_, ?_, ?_⟩, hst, by omega, hlb⟩
    · rw [h6, token_line]; omega
    · rw [h6, token_line]; omega
    · rw [h6, token_start]; omega
    · rw [h6, token_shown]
      exact ⟨pre ++ w, x, s1.rest, c, ⟨by rw [hpre]; simp, ⟨w, ⟨pre, rfl⟩, hleft, ht, hnt⟩, g, q, hlx⟩, rfl⟩

theorem ScIn.peek {source : Str} {s s1 : Parser} {t : Token} (h : In source s) (hp : peekToken s = .ok (t, s1)) :
    In source s1 ∧ TokIn source t := by
  obtain ⟨sc, h1⟩ := peekToken_inv hp
  have hi : ScIn source (saved s.scanner) :=
    ⟨h.scanner.fresh, h.scanner.line, h.scanner.lines, h.scanner.current, h.scanner.left, h.scanner.pre, h.scanner.unscanned⟩
  rcases h1 with ⟨hn, rfl⟩ | ⟨hst, hn⟩
  · obtain ⟨k1, k2, -, k3, k4⟩ := hi.next hn
    have hc := h.scanner.current
    have hl := h.scanner.lines
    have k3 : sc.rest.length ≤ s.scanner.rest.length := k3
    have k4 : lineBreaks sc.rest ≤ lineBreaks s.scanner.rest := k4
    refine ⟨⟨⟨⟨k1.fresh.1, h.scanner.fresh.2⟩, h.scanner.line, ?_, ?_, k1.left, k1.pre, ?_⟩, h.current, h.markers⟩, k2⟩
    · show s.scanner.line + lineBreaks sc.rest ≤ _
      omega
    · show s.scanner.current + sc.rest.length ≤ _
      omega
    · intro u hu
      cases hu
      exact k2
  · exact absurd (hi.next hn).2.2.1 hst

instance world_in {source : Str} : World (In source) (prIn source) where
  cur s h := h.current
  stop s g e h hn v hv := absurd hv ((next_stop' h.scanner.fresh hn).ne v)
  lookStop s e h _ hp v hv := absurd hv ((next_stop' (s := saved s.scanner) h.scanner.fresh (peek_stop hp)).ne v)
  quiet s c p ps h := ⟨h.scanner, h.current, h.markers⟩
  next s g t sc h hn := by
    obtain ⟨h1, h2, -⟩ := h.scanner.next hn
    exact ⟨h1, h2, h.markers⟩
  push s h := by
    refine ⟨h.scanner, h.current, fun m hm => ?_⟩
    rcases List.mem_cons.1 hm with rfl | hm
    · exact ⟨h.current.1, h.current.2.1, h.current.2.2.1⟩
    · exact h.markers m hm
  pop s m ms h hms := by
    refine ⟨⟨h.markers m (by rw [hms]; exact List.mem_cons_self), h.scanner.line, ?_, ?_⟩, h.scanner, h.current, fun m' hm => h.markers m' (by rw [hms]; exact List.mem_cons_of_mem _ hm)⟩
    · have := h.scanner.lines
      show s.scanner.line ≤ _
      omega
    · have := h.scanner.current
      show s.scanner.current ≤ _
      omega
  look s t s' h _ hp := ScIn.peek h hp

/-- the parser before its first token -/
theorem in_new {source : Str} {p : Parser} (h : Parser.new source = .ok p) : In source p := by
  unfold Parser.new at h
  split at h <;> cases h
  next t sc hn =>
  have h0 : ScIn source (Scanner.new source) :=
    ⟨⟨rfl, rfl⟩, Nat.le_refl _, Nat.le_refl _, by show 0 + source.length ≤ _; omega, .all, ⟨[], rfl⟩, by rintro t ⟨⟩⟩
  obtain ⟨h1, h2, -⟩ := h0.next hn
  exact ⟨h1, h2, by simp⟩

/-! ### On words -/

/-- a scanner that is just behind a word, and the word is the token `t` -/
structure Behind (source : Str) (s : Scanner) (t : Token) : Prop where
  fresh : Scanner.Fresh s
  unscanned : s.unscanned = none
  left : Left source s.rest
  word : ∃ pre x c e, IsWord source pre x s.rest c ∧ s.current = (pre ++ x).length ∧ s.line = lineAt source s.rest ∧
    s.col = columnAfter 1 x s.rest ∧ t = c.token s.line s.col pre.length e

/-- the place of a word that is not behind the token `t`, the last one before the scanner `s` -/
def MarkOn (source : Str) (s : Scanner) (t : Token) (m : Marker) : Prop :=
  ∃ pre x post c, IsWord source pre x post c ∧ m.idx = pre.length ∧ m.line = lineAt source post ∧ m.col = columnAfter 1 x post ∧
    pre.length ≤ t.start ∧ (pre ++ x).length ≤ s.current

/-- the parser is just behind a word -/
structure On (source : Str) (s : Parser) : Prop where
  never : NeverLooksAhead source
  behind : Behind source s.scanner s.current
  markers : ∀ m ∈ s.markerStack, MarkOn source s.scanner s.current m

theorem next_behind {source pre : Str} {s s1 : Scanner} {g : LexGoal} {t : Token} (hf : Scanner.Fresh s) (hu : s.unscanned = none)
    (hl : Left source s.rest) (ht : source = pre ++ s.rest) (hc : s.current = pre.length) (hln : s.line = lineAt source s.rest)
    (hn : Scanner.next g s = .ok (t, s1)) : Behind source s1 t ∧ s.current ≤ t.start ∧ s.current ≤ s1.current := by
  obtain ⟨w, x, c, h1, h2, h3, ⟨q, h4⟩, h5, h6, -, h7, h8, hk, e, h9⟩ := next_place hf hu hn
  rw [h1] at hl
  have hlb : lineBreaks s1.rest ≤ lineBreaks s.rest := by
    rw [h1, ← List.append_assoc]; exact Scanner.lineBreaks_drop_le _ _
  have hlb' : lineBreaks s.rest ≤ lineBreaks source := by
    rw [ht]; exact Scanner.lineBreaks_drop_le _ _
  refine ⟨⟨h5, h6, .word hl h2 h3 h4, pre ++ w, x, c, e, ⟨by rw [ht, h1]; simp, ⟨w, ⟨pre, rfl⟩, hl, h2, h3⟩, g, q, h4⟩, ?_, ?_, hk, ?_⟩, ?_, ?_⟩
  · rw [h7, hc]; simp [Nat.add_assoc]
  · rw [h8, hln]; unfold lineAt; omega
  · rw [h9, hc]; simp
  · rw [h9, token_start]; omega
  · omega

theorem Behind.text {source : Str} {s : Scanner} {t : Token} (h : Behind source s t) :
    ∃ pre, source = pre ++ s.rest ∧ s.current = pre.length ∧ s.line = lineAt source s.rest ∧ t.start ≤ s.current := by
  obtain ⟨pre, x, c, e, h1, h2, h3, hk, h4⟩ := h.word
  refine ⟨pre ++ x, by rw [List.append_assoc]; exact h1.text, h2, h3, ?_⟩
  rw [h4, token_start, h2]; simp

/-- the token is a word of the source -/
def TokOn (source : Str) (t : Token) : Prop :=
  ∃ pre x post c, IsWord source pre x post c ∧ t.lineNum = lineAt source post ∧ t.col = columnAfter 1 x post ∧
    t.value.toString = shown c

/-- spans are on words, and errors at words, or where there is no word -/
def prOn (source : Str) : Pr where
  span := OnWords source
  tok := TokOn source
  bad e := AtWord source e ∨ NotAWord source e

instance fair_on {source : Str} : Fair (prOn source) where
  tok t e h he := by
    obtain ⟨pre, x, post, c, h1, h2, h3, -⟩ := h
    exact .inl ⟨pre, x, post, c, h1, h2, h3, fun v hv => absurd hv (he.out v)⟩
  unexpected t h := by
    obtain ⟨pre, x, post, c, h1, h2, h3, h4⟩ := h
    exact .inl ⟨pre, x, post, c, h1, h2, h3, fun v hv => by cases hv; exact h4⟩
  span sp e h he := by
    obtain ⟨pre, x, post, c, -, -, -, -, h1, -, -, -, -, h2, h3, -⟩ := h
    exact .inl ⟨pre, x, post, c, h1, h2, h3, fun v hv => absurd hv (he.plain.out v)⟩

theorem behind_stop {source : Str} {s : Scanner} {t : Token} {g : LexGoal} {e : Error} (h : Behind source s t)
    (hn : Scanner.next g s = .error (.err e)) : NotAWord source e := by
  obtain ⟨pre, h1, h2, h3, -⟩ := h.text
  obtain ⟨w, x, r, j1, j2, j3, j4, ⟨q, j5⟩, j6, j7⟩ := next_stop h.fresh h.unscanned hn
  have hl := h.left
  have hlb : lineBreaks r ≤ lineBreaks s.rest := by
    rw [j1, ← List.append_assoc]; exact Scanner.lineBreaks_drop_le _ _
  have hlb' : lineBreaks s.rest ≤ lineBreaks source := by
    conv => rhs; rw [h1]
    exact Scanner.lineBreaks_drop_le _ _
  refine ⟨pre, w, x, r, g, q, by rw [← j1]; exact h1, by rw [← j1]; exact hl, j2, j3, j5, ?_, j7, j4⟩
  unfold lineAt at h3 ⊢
  omega

instance world_on {source : Str} : World (On source) (prOn source) where
  cur s h := by
    obtain ⟨pre, x, c, e, h1, h2, h3, hk, h4⟩ := h.behind.word
    exact ⟨pre, x, _, c, h1, by rw [h4, token_line, h3], by rw [h4, token_col, hk], by rw [h4, token_shown]⟩
  stop s g e h hn := .inr (behind_stop h.behind hn)
  lookStop s e h hl _ := by
    obtain ⟨pre, x, c, e, h1, h2, h3, hk, h4⟩ := h.behind.word
    exact absurd (lookTok_says h4 hl) (h.never _ _ _ _ h1)
  quiet s c p ps h := ⟨h.never, h.behind, h.markers⟩
  next s g t sc h hn := by
    obtain ⟨pre, h1, h2, h3, h5⟩ := h.behind.text
    obtain ⟨k1, k2, k3⟩ := next_behind h.behind.fresh h.behind.unscanned h.behind.left h1 h2 h3 hn
    refine ⟨h.never, k1, fun m hm => ?_⟩
    obtain ⟨p, x, post, c, j1, j2, j3, jk, j4, j5⟩ := h.markers m hm
    exact ⟨p, x, post, c, j1, j2, j3, jk, by show _ ≤ t.start; omega, by show _ ≤ sc.current; omega⟩
  push s h := by
    refine ⟨h.never, h.behind, fun m hm => ?_⟩
    rcases List.mem_cons.1 hm with rfl | hm
    · obtain ⟨pre, x, c, e, h1, h2, h3, hk, h4⟩ := h.behind.word
      refine ⟨pre, x, _, c, h1, ?_, ?_, ?_, ?_, ?_⟩
      · show s.current.start = _
        rw [h4, token_start]
      · show s.current.lineNum = _
        rw [h4, token_line, h3]
      · show s.current.col = _
        rw [h4, token_col, hk]
      · show _ ≤ s.current.start
        rw [h4, token_start]; exact Nat.le_refl _
      · show _ ≤ s.scanner.current
        rw [h2]; exact Nat.le_refl _
    · exact h.markers m hm
  pop s m ms h hms := by
    refine ⟨?_, h.never, h.behind, fun m' hm => h.markers m' (by rw [hms]; exact List.mem_cons_of_mem _ hm)⟩
    obtain ⟨p, y, post, c', j1, j2, j3, jk, j4, j5⟩ := h.markers m (by rw [hms]; exact List.mem_cons_self)
    obtain ⟨pre, x, c, e, h1, h2, h3, hk, h4⟩ := h.behind.word
    refine ⟨p, y, post, c', pre, x, _, c, j1, h1, ?_, ?_, j2, j3, jk, h2, h3, hk⟩
    · rw [h4, token_start] at j4; exact j4
    · rw [← h2]; exact j5
  look s t s' h hl _ := by
    obtain ⟨pre, x, c, e, h1, h2, h3, hk, h4⟩ := h.behind.word
    exact absurd (lookTok_says h4 hl) (h.never _ _ _ _ h1)

theorem on_new {source : Str} {p : Parser} (hs : NeverLooksAhead source) (h : Parser.new source = .ok p) : On source p := by
  unfold Parser.new at h
  split at h <;> cases h
  next t sc hn =>
  obtain ⟨h1, -⟩ := next_behind (pre := []) (s := Scanner.new source) ⟨rfl, rfl⟩ rfl .all rfl rfl
    (by show 1 = lineAt source source; unfold lineAt; omega) hn
  exact ⟨hs, h1, by simp⟩

end Pos
end Giron

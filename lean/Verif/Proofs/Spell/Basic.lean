import Verif.Proofs.Frame.Basic
import Verif.Proofs.Lex.Scan
import Verif.Spec.Spells
/-
Which words a parser method reads.
-/
namespace Giron
open M Spec

namespace Spec.Lang
variable {A B : Lang} {a b : List Mark} {c : Content}

theorem sq (h1 : A a) (h2 : B b) : (A.cat B) (a ++ b) := ⟨_, _, rfl, h1, h2⟩
theorem tk {c : Mark} (h : B b) : ((mark c).cat B) (c :: b) := ⟨[c], _, rfl, rfl, h⟩
theorem mk1 {f : Content → Prop} (h : f c) (h' : B b) : ((one f).cat B) (c :: b) := ⟨[.word c], _, rfl, ⟨c, rfl, h⟩, h'⟩
theorem nil (h : B b) : (eps.cat B) b := ⟨[], _, rfl, rfl, h⟩
theorem skip (h : B b) : ((opt A).cat B) b := ⟨[], _, rfl, .inr rfl, h⟩
theorem take (h1 : A a) (h2 : B b) : ((opt A).cat B) (a ++ b) := ⟨_, _, rfl, .inl h1, h2⟩
theorem last (h : A a) : A (a ++ []) := by rwa [List.append_nil]
theorem eps_last (h : A a) : (A.cat eps) a := ⟨a, [], by simp, h, rfl⟩

end Spec.Lang

/-- The token says this. -/
def IsTok (t : Token) (c : Content) : Prop := ∃ l k st e, t = c.token l k st e

/-- One token is read from the text. -/
def Tok [Env] (text : Str) (w : Word) (text' : Str) : Prop :=
  ∃ goal resume tr x, text = tr ++ (x ++ text') ∧ Trivia tr (x ++ text') ∧ ¬ StartsTrivia (x ++ text') ∧
    Lexeme goal resume x text' w.c ∧ w.nl = decide (lineBreaks text' < lineBreaks text)

/-- From the word `w` after the words `past`, after which the text goes on with `text`, the words and marks `ms` are passed and
the word `w'` is reached. -/
inductive Passes [Env] : List Word → Word → Str → List Mark → List Word → Word → Str → Prop
  | here {past : List Word} {w : Word} {text : Str} : Passes past w text [] past w text
  | step {past past' : List Word} {w w1 w' : Word} {text text1 text' : Str} {ms : List Mark} : w.c ≠ .eof → Tok text w1 text1 →
      Passes (w :: past) w1 text1 ms past' w' text' → Passes past w text (.word w.c :: ms) past' w' text'
  | mark {past past' : List Word} {w w' : Word} {text text' : Str} {m : Mark} {ms : List Mark} : m.Holds past w →
      Passes past w text ms past' w' text' → Passes past w text (m :: ms) past' w' text'

theorem Passes.trans [Env] {past past1 past' : List Word} {w w1 w' : Word} {text text1 text' : Str} {ms ms' : List Mark}
    (h : Passes past w text ms past1 w1 text1) (h' : Passes past1 w1 text1 ms' past' w' text') :
    Passes past w text (ms ++ ms') past' w' text' := by
  induction h with
  | here => exact h'
  | step hc ht _ ih => exact .step hc ht (ih h')
  | mark hm _ ih => exact .mark hm (ih h')

/-- the first word passed is the one that is there -/
theorem Passes.first [Env] {past past' : List Word} {w w' : Word} {text text' : Str} {c : Content} {ms : List Mark}
    (h : Passes past w text (.word c :: ms) past' w' text') : c = w.c := by
  cases h with
  | step => rfl
  | mark hm => exact hm.elim

/-- the words at which giron looks ahead -/
abbrev lookWords : List Str := [cs!"async", cs!"get", cs!"set"]

namespace Parser
variable [Env] {α β : Type}

/-- The current word is `w`, before it are the words `past`, and after it the text goes on with `text`. -/
structure Stands (s : Parser) (past : List Word) (w : Word) (text : Str) : Prop where
  cur : IsTok s.current w.c
  fresh : Scanner.Fresh s.scanner
  text : (s.scanner.unscanned = none ∧ s.scanner.rest = text) ∨
    ∃ t w', s.scanner.unscanned = some t ∧ IsTok t w'.c ∧ Tok text w' s.scanner.rest ∧
      t.lineNum = s.scanner.line + (lineBreaks text - lineBreaks s.scanner.rest) ∧ ∃ v ∈ lookWords, w.c = .name v
  yes : s.hasLineTerminator = true → w.nl = true
  no : s.hasLineTerminator = false → w.nl = false ∨ LostCount past
  base : s.scanner.line ≤ s.current.lineNum
  exact : s.scanner.line = s.current.lineNum ∨ ∃ v n more, past = ⟨.name v, n⟩ :: more ∧ v ∈ lookWords ∧ w.nl = true

/-- From the current word `c`, the method reads words as `Q` tells: `Q` is given the result, the words and marks passed, and
the word then reached. -/
def Reads (c : Content) (m : PM α) (Q : α → List Mark → Content → Prop) : Prop :=
  ∀ s past n text a s', Stands s past ⟨c, n⟩ text → m s = .ok (a, s') →
    ∃ ms past' w' text', Stands s' past' w' text' ∧ Passes past ⟨c, n⟩ text ms past' w' text' ∧ Q a ms w'.c

/-- From any word, the result spells the words read. -/
abbrev Spells (m : PM α) (L : α → Lang) : Prop := ∀ c, Reads c m fun a ws _ => L a ws

/-- The method does not touch the words. -/
class Quiet (m : PM α) : Prop where
  out : ∀ s a s', m s = .ok (a, s') → s'.current = s.current ∧ s'.scanner = s.scanner ∧ s'.hasLineTerminator = s.hasLineTerminator

theorem Stands.of_eq {s s' : Parser} {past : List Word} {w : Word} {text : Str} (h : Stands s past w text)
    (h1 : s'.current = s.current) (h2 : s'.scanner = s.scanner) (h3 : s'.hasLineTerminator = s.hasLineTerminator) :
    Stands s' past w text :=
  ⟨by rw [h1]; exact h.cur, by rw [h2]; exact h.fresh, by rw [h2]; exact h.text, by rw [h3]; exact h.yes,
    by rw [h3]; exact h.no, by rw [h1, h2]; exact h.base, by rw [h1, h2]; exact h.exact⟩

instance quiet_pure {a : α} : Quiet (pure a : PM α) := ⟨fun s b s' h => by cases h; exact ⟨rfl, rfl, rfl⟩⟩
instance quiet_pure' {a : α} : Quiet (M.pure a : PM α) := quiet_pure
instance quiet_fail {f : Fail} : Quiet (M.fail f : PM α) := ⟨fun s b s' h => by cases h⟩
instance quiet_panic {p : PanicSite} : Quiet (M.panic p : PM α) := quiet_fail
instance quiet_get : Quiet (M.get : PM Parser) := ⟨fun s b s' h => by cases h; exact ⟨rfl, rfl, rfl⟩⟩
instance quiet_cur : Quiet cur := ⟨fun s b s' h => by cases h; exact ⟨rfl, rfl, rfl⟩⟩
instance quiet_unwrap {p : PanicSite} {v : Option α} : Quiet (M.unwrap p v : PM α) := by
  cases v
  · exact quiet_panic
  · exact quiet_pure
instance quiet_ofExcept {x : Except Fail α} : Quiet (M.ofExcept x : PM α) := by
  cases x
  · exact quiet_fail
  · exact quiet_pure
instance quiet_error {t : Token} {e : ErrorType} : Quiet (error t e : PM α) := quiet_fail
instance quiet_unexpected {t : Token} : Quiet (unexpected t : PM α) := quiet_fail
instance quiet_startSpan : Quiet startSpan := ⟨fun s b s' h => by cases h; exact ⟨rfl, rfl, rfl⟩⟩
instance quiet_endSpan : Quiet endSpan := by
  constructor
  intro s a s' h
  unfold endSpan at h
  split at h <;> cases h
  exact ⟨rfl, rfl, rfl⟩
instance quiet_peekSpan : Quiet peekSpan := by
  constructor
  intro s a s' h
  unfold peekSpan at h
  split at h <;> cases h
  exact ⟨rfl, rfl, rfl⟩
instance quiet_saveParams : Quiet saveParams := ⟨fun s b s' h => by cases h; exact ⟨rfl, rfl, rfl⟩⟩
instance quiet_restoreParams : Quiet restoreParams := by
  constructor
  intro s a s' h
  unfold restoreParams at h
  split at h <;> cases h
  exact ⟨rfl, rfl, rfl⟩
theorem quiet_ctx {f : Parser → Context} : Quiet (M.modify fun s => { s with ctx := f s }) :=
  ⟨fun s b s' h => by cases h; exact ⟨rfl, rfl, rfl⟩⟩
theorem quiet_params {f : Parser → Params} : Quiet (M.modify fun s => { s with params := f s }) :=
  ⟨fun s b s' h => by cases h; exact ⟨rfl, rfl, rfl⟩⟩
instance quiet_when {c : Prop} [Decidable c] {m : PM Unit} [h : Quiet m] : Quiet (M.when c m) := by
  unfold M.when
  split
  · exact h
  · exact quiet_pure

/-- The method never succeeds. -/
class Fails (m : PM α) : Prop where
  out : ∀ s a s', m s ≠ .ok (a, s')

instance fails_fail {f : Fail} : Fails (M.fail f : PM α) := ⟨fun s b s' h => by cases h⟩
instance fails_panic {p : PanicSite} : Fails (M.panic p : PM α) := fails_fail
instance fails_error {t : Token} {e : ErrorType} : Fails (error t e : PM α) := fails_fail
instance fails_unexpected {t : Token} : Fails (unexpected t : PM α) := fails_fail
theorem fails_bind {m : PM α} {k : α → PM β} (h : ∀ a, Fails (k a)) : Fails (m >>= k) := by
  constructor
  intro s b s' hm
  obtain ⟨a, s1, _, h2⟩ := bind_ok_inv hm
  exact (h a).out _ _ _ h2
instance fails_unexpectedCurrent : Fails (unexpectedCurrent : PM α) := fails_bind fun _ => inferInstance
instance fails_errorCurrent {e : ErrorType} : Fails (errorCurrent e : PM α) := fails_bind fun _ => inferInstance
instance fails_advError {g : LexGoal} {e : ErrorType} : Fails (advance g >>= fun t => (error t e : PM α)) :=
  fails_bind fun _ => inferInstance

namespace Reads
variable {c : Content} {m : PM α} {k : α → PM β} {Q : α → List Mark → Content → Prop}
  {R : β → List Mark → Content → Prop}

theorem bind (h : Reads c m Q) (hk : ∀ a ws c', Q a ws c' → Reads c' (k a) fun b ws' c'' => R b (ws ++ ws') c'') :
    Reads c (m >>= k) R := by
  intro s past n text b s'' hs hm
  obtain ⟨a, s1, h1, h2⟩ := bind_ok_inv hm
  obtain ⟨ws, p1, c1, t1, k1, k2, k3⟩ := h _ _ _ _ _ _ hs h1
  obtain ⟨ws', p2, c2, t2, l1, l2, l3⟩ := hk _ _ _ k3 _ _ _ _ _ _ k1 h2
  exact ⟨_, _, _, _, l1, k2.trans l2, l3⟩

theorem mono {Q' : α → List Mark → Content → Prop} (h : Reads c m Q) (hq : ∀ a ws c', Q a ws c' → Q' a ws c') :
    Reads c m Q' := by
  intro s past n text a s' hs hm
  obtain ⟨ws, p1, c1, t1, k1, k2, k3⟩ := h _ _ _ _ _ _ hs hm
  exact ⟨ws, p1, c1, t1, k1, k2, hq _ _ _ k3⟩

/-- the first word passed is the current one -/
theorem head (h : Reads c m Q) : Reads c m fun a ws c' => Q a ws c' ∧ ∀ d more, ws = .word d :: more → d = c := by
  intro s past n text a s' hs hm
  obtain ⟨ws, p1, c1, t1, k1, k2, k3⟩ := h _ _ _ _ _ _ hs hm
  exact ⟨ws, p1, c1, t1, k1, k2, k3, fun d more e => by subst e; exact k2.first⟩

theorem notFirst {L : α → Lang} {bad : List Content} (hc : c ∉ bad) (h : Reads c m fun a ws _ => L a ws) :
    Reads c m fun a ws _ => Lang.notFirst bad (L a) ws :=
  h.head.mono fun _ _ _ ⟨h1, h2⟩ => ⟨h1, fun d more e => by rw [h2 d more e]; exact hc⟩

theorem quiet [hq : Quiet m] (hk : ∀ a, Reads c (k a) R) : Reads c (m >>= k) R := by
  intro s past n text b s'' hs hm
  obtain ⟨a, s1, h1, h2⟩ := bind_ok_inv hm
  obtain ⟨e1, e2, e3⟩ := hq.out _ _ _ h1
  exact hk a _ _ _ _ _ _ (hs.of_eq e1 e2 e3) h2

theorem pure {a : α} (h : Q a [] c) : Reads c (Pure.pure a : PM α) Q := by
  intro s past n text b s' hs hm
  cases hm
  exact ⟨[], _, _, text, hs, .here, h⟩

/-- a value that is given for a result -/
theorem pureBind {a : α} (h : Reads c (k a) R) : Reads c ((Pure.pure a : PM α) >>= k) R := h

theorem fails [hf : Fails m] : Reads c m Q := fun _ _ _ _ _ _ _ hm => absurd hm (hf.out _ _ _)

theorem failsBind [hf : Fails m] : Reads c (m >>= k) R := by
  intro s past n text b s'' _ hm
  obtain ⟨a, s1, h1, h2⟩ := bind_ok_inv hm
  exact absurd h1 (hf.out _ _ _)

/-- a mark that is true of the current word -/
theorem addMark {x : Mark} (hx : ∀ past n, x.Holds past ⟨c, n⟩) (h : Reads c m fun a ws c' => Q a (x :: ws) c') : Reads c m Q := by
  intro s past n text a s' hs hm
  obtain ⟨ws, p1, c1, t1, k1, k2, k3⟩ := h _ _ _ _ _ _ hs hm
  exact ⟨_, p1, c1, t1, k1, .mark (hx _ _) k2, k3⟩

theorem ite {p : Prop} [Decidable p] {m' : PM α} (h : p → Reads c m Q) (h' : ¬ p → Reads c m' Q) :
    Reads c (if p then m else m') Q := by
  by_cases hp : p
  · rw [if_pos hp]; exact h hp
  · rw [if_neg hp]; exact h' hp

theorem cur {k : Token → PM β} (h : ∀ t, IsTok t c → Reads c (k t) R) : Reads c (Parser.cur >>= k) R := by
  intro s past n text b s'' hs hm
  exact h s.current hs.cur _ _ _ _ _ _ hs hm

theorem get {k : Parser → PM β} (h : ∀ s, IsTok s.current c → Reads c (k s) R) : Reads c (M.get >>= k) R := by
  intro s past n text b s'' hs hm
  exact h s hs.cur _ _ _ _ _ _ hs hm

/-- with a look at the line: marks say what is seen -/
theorem getLine {k : Parser → PM β}
    (h : ∀ s, IsTok s.current c → s.hasLineTerminator = true →
      ∃ x : Option Mark, (x = none ∨ x = some .broken ∨ x = some .inserted) ∧ Reads c (k s) fun b ws c' => R b (x.toList ++ ws) c')
    (h' : ∀ s, IsTok s.current c → s.hasLineTerminator = false →
      ∃ y : Option Mark, (y = none ∨ y = some .joined) ∧ Reads c (k s) fun b ws c' => R b (y.toList ++ ws) c') :
    Reads c (M.get >>= k) R := by
  intro s past n text b s'' hs hm
  cases hl : s.hasLineTerminator with
  | true =>
    obtain ⟨x, hx, h⟩ := h s hs.cur hl
    obtain ⟨ws, p1, c1, t1, k1, k2, k3⟩ := h _ _ _ _ _ _ hs hm
    refine ⟨_, p1, c1, t1, k1, ?_, k3⟩
    rcases hx with rfl | rfl | rfl
    · exact k2
    · exact .mark (hs.yes hl) k2
    · exact .mark (.inr (.inr (hs.yes hl))) k2
  | false =>
    obtain ⟨y, hy, h'⟩ := h' s hs.cur hl
    obtain ⟨ws, p1, c1, t1, k1, k2, k3⟩ := h' _ _ _ _ _ _ hs hm
    refine ⟨_, p1, c1, t1, k1, ?_, k3⟩
    rcases hy with rfl | rfl
    · exact k2
    · exact .mark (hs.no hl) k2

/-- the next word is on the same line, or else nothing can be read -/
theorem getJoined {k : Parser → PM β}
    (h : ∀ s, IsTok s.current c → s.hasLineTerminator = true → Reads c (k s) R)
    (h' : ∀ s, IsTok s.current c → s.hasLineTerminator = false → Reads c (k s) fun b ws c' => R b (.joined :: ws) c') :
    Reads c (M.get >>= k) R :=
  getLine (fun s hs hl => ⟨none, .inl rfl, h s hs hl⟩) fun s hs hl => ⟨some .joined, .inr rfl, h' s hs hl⟩

/-- with an optional value -/
theorem unwrap {p : PanicSite} {o : Option α} (h : ∀ a, o = some a → Reads c (k a) R) :
    Reads c (M.unwrap p o >>= k) R := by
  cases o with
  | none => exact failsBind (m := M.panic p)
  | some a => exact h a rfl

theorem ofExcept {x : Except Fail α} (h : ∀ a, x = .ok a → Reads c (k a) R) :
    Reads c (M.ofExcept x >>= k) R := by
  cases x with
  | error f => exact failsBind (m := M.fail f)
  | ok a => exact h a rfl

theorem next_tok {g : LexGoal} {t : Token} {sc : Scanner} {s : Parser} {past : List Word} {w : Word} {text : Str}
    (hs : Stands s past w text) (h : s.scanner.next g = .ok (t, sc)) :
    ∃ w' text', IsTok t w'.c ∧ Tok text w' text' ∧ Scanner.Fresh sc ∧ sc.unscanned = none ∧ sc.rest = text' ∧
      sc.state = s.scanner.state ∧ t.lineNum = s.scanner.line + (lineBreaks text - lineBreaks text') ∧
      (sc.line = t.lineNum ∨ sc.line = s.scanner.line ∧ ∃ v ∈ lookWords, w.c = .name v) := by
  rcases hs.text with ⟨h1, h2⟩ | ⟨u, w', h1, h2, h3, h4, h5⟩
  · obtain ⟨tr, x, r, c', hr, hw, hn, hl⟩ := Scanner.next_inv h1 h
    rw [Scanner.next_eq h1 hs.fresh hr hw hn hl] at h
    obtain ⟨k, st, e, ht, hsc⟩ : ∃ k st e, t = c'.token (Scanner.step tr x c' s.scanner).line k st e ∧
        sc = Scanner.step tr x c' s.scanner := by
      unfold Scanner.emit at h
      split at h <;> cases h
      exact ⟨_, _, _, rfl, rfl⟩
    have hr2 : (Scanner.afterN tr.length { s.scanner with newline := false }).rest = x ++ r :=
      Scanner.rest_afterN_append (s := { s.scanner with newline := false }) hr
    have hline : (Scanner.step tr x c' s.scanner).line + lineBreaks r = s.scanner.line + lineBreaks (tr ++ (x ++ r)) := by
      have e1 := Scanner.afterN_lines tr.length { s.scanner with newline := false }
      have e2 := Scanner.afterN_lines x.length { Scanner.afterN tr.length { s.scanner with newline := false } with
        col := 1, start := s.scanner.current + tr.length }
      rw [show ({ s.scanner with newline := false } : Scanner).rest = tr ++ (x ++ r) from hr] at e1
      rw [show ({ Scanner.afterN tr.length { s.scanner with newline := false } with
        col := 1, start := s.scanner.current + tr.length } : Scanner).rest = x ++ r from hr2] at e2
      simp only [List.drop_left] at e1 e2
      show (Scanner.afterN x.length _).line + _ = _
      dsimp only at e1 e2 ⊢
      omega
    have hle : lineBreaks r ≤ lineBreaks (tr ++ (x ++ r)) := by
      rw [← List.append_assoc]; exact Scanner.lineBreaks_drop_le _ _
    have hlt : t.lineNum = (Scanner.step tr x c' s.scanner).line := by rw [ht]; cases c' <;> rfl
    refine ⟨⟨c', decide (lineBreaks r < lineBreaks text)⟩, r, ⟨_, k, st, e, ht⟩, ⟨g, _, tr, x, h2 ▸ hr, hw, hn, hl, rfl⟩, ?_, ?_, ?_, ?_, ?_, ?_⟩
    · rw [hsc]
      exact (Scanner.Fresh.afterN (s := { Scanner.afterN tr.length { s.scanner with newline := false } with
        col := 1, start := s.scanner.current + tr.length })
        (Scanner.Fresh.afterN (s := { s.scanner with newline := false }) hs.fresh tr.length) x.length)
    · rw [hsc]
      show (Scanner.afterN x.length _).unscanned = none
      rw [Scanner.afterN_unscanned]
      show (Scanner.afterN tr.length { s.scanner with newline := false }).unscanned = none
      rw [Scanner.afterN_unscanned]; exact h1
    · rw [hsc]
      show (Scanner.afterN x.length _).rest = r
      exact Scanner.rest_afterN_append (x := x) (r := r) hr2
    · rw [hsc]
      show (Scanner.afterN x.length _).state = s.scanner.state
      rw [Scanner.afterN_state]
      show (Scanner.afterN tr.length { s.scanner with newline := false }).state = s.scanner.state
      rw [Scanner.afterN_state]
    · rw [hlt, ← h2, hr]
      omega
    · rw [hlt, hsc]
      exact .inl rfl
  · unfold Scanner.next at h
    rw [h1] at h
    cases h
    exact ⟨w', _, h2, h3, hs.fresh, rfl, rfl, rfl, h4, .inr ⟨rfl, h5⟩⟩

/-- the next word becomes the current one -/
theorem next_stands {g : LexGoal} {t : Token} {sc : Scanner} {s : Parser} {past : List Word} {w : Word} {text : Str}
    (hs : Stands s past w text) (h : s.scanner.next g = .ok (t, sc)) :
    ∃ w' text', IsTok t w'.c ∧ Tok text w' text' ∧
      Stands { s with scanner := sc, current := t, hasLineTerminator := decide (t.lineNum > s.current.lineNum) }
        (w :: past) w' text' := by
  obtain ⟨w', text', k1, k2, k3, k4, k5, _, k7, k8⟩ := next_tok hs h
  have hnl : w'.nl = decide (lineBreaks text' < lineBreaks text) := by
    obtain ⟨_, _, _, _, _, _, _, _, h⟩ := k2; exact h
  have hb := hs.base
  refine ⟨w', text', k1, k2, k1, k3, .inl ⟨k4, k5⟩, fun h => ?_, fun h => ?_, ?_, ?_⟩
  · simp only [decide_eq_true_eq] at h
    rw [hnl, decide_eq_true_eq]
    omega
  · simp only [decide_eq_false_iff_not] at h
    rcases hs.exact with he | ⟨v, n, more, rfl, hv, hn⟩
    · left
      rw [hnl, decide_eq_false_iff_not]
      omega
    · exact .inr (.inr ⟨_, v, n, more, rfl, hn, hv⟩)
  · show sc.line ≤ t.lineNum
    rcases k8 with k8 | ⟨k8, _⟩ <;> omega
  · show sc.line = t.lineNum ∨ _
    rcases k8 with k8 | ⟨k8, v, hv, hc⟩
    · exact .inl k8
    · by_cases hlt : lineBreaks text' < lineBreaks text
      · right
        obtain ⟨c, n⟩ := w
        dsimp only at hc
        subst hc
        exact ⟨v, n, past, rfl, hv, by rw [hnl]; exact decide_eq_true hlt⟩
      · left; omega

theorem advance {g : LexGoal} {k : Token → PM β}
    (h : ∀ t c', IsTok t c → Reads c' (k t) fun b ws c'' => R b (c :: ws) c'')
    (hc : c ≠ .eof := by first | assumption | exact (fun h => nomatch h)) : Reads c (Parser.advance g >>= k) R := by
  intro s past n text b s'' hs hm
  obtain ⟨a, s1, h1, h2⟩ := bind_ok_inv hm
  unfold Parser.advance at h1
  split at h1
  · next t sc hn =>
    cases h1
    obtain ⟨⟨c', n'⟩, text', _, k2, k3⟩ := next_stands hs hn
    obtain ⟨ws, p2, c2, t2, l1, l2, l3⟩ := h s.current c' hs.cur _ _ _ _ b s'' k3 h2
    exact ⟨_, _, _, _, l1, .step hc k2 l2, l3⟩
  · cases h1

theorem withParams {f : Params → Params} (h : Reads c m Q) : Reads c (Parser.withParams f m) Q := by
  unfold Parser.withParams
  refine quiet fun _ => ?_
  have := quiet_params (f := fun s => f s.params)
  refine quiet fun _ => bind h fun a ws c' hq => quiet fun _ => pure ?_
  rwa [List.append_nil]

theorem withIn {b : Bool} (h : Reads c m Q) : Reads c (Parser.withIn b m) Q := withParams h
theorem withDefault {b : Bool} (h : Reads c m Q) : Reads c (Parser.withDefault b m) Q := withParams h
theorem withReturn {b : Bool} (h : Reads c m Q) : Reads c (Parser.withReturn b m) Q := withParams h
theorem withYield {b : Bool} (h : Reads c m Q) : Reads c (Parser.withYield b m) Q := withParams h
theorem withAwait {b : Bool} (h : Reads c m Q) : Reads c (Parser.withAwait b m) Q := withParams h
theorem withYieldAwait {y a : Bool} (h : Reads c m Q) : Reads c (Parser.withYieldAwait y a m) Q := withParams h

theorem ctx {f : Parser → Context} {k : Unit → PM β} (hk : ∀ a, Reads c (k a) R) :
    Reads c ((M.modify fun s => { s with ctx := f s }) >>= k) R := by
  have := quiet_ctx (f := f)
  exact quiet hk

end Reads

/-! ### What the tests on tokens say about words -/

theorem _root_.Giron.IsTok.punc {t : Token} {c : Content} {p : Punctuator} (h : IsTok t c) (hp : t.matchesPunc p = true) :
    c = .punct p := by
  obtain ⟨l, k, st, e, rfl⟩ := h
  unfold Token.matchesPunc at hp
  simp only [decide_eq_true_eq] at hp
  cases c with
  | name v =>
    simp only [Content.token, nameToken] at hp
    split at hp
    · cases hp
    · split at hp
      · cases hp
      · split at hp <;> cases hp
  | punct q => cases hp; rfl
  | _ => cases hp

theorem _root_.Giron.IsTok.isP {t : Token} {c : Content} {p : Punctuator} (h : IsTok t c) (hp : t.isP p = true) :
    c = .punct p := by
  unfold Token.isP at hp
  simp only [Bool.and_eq_true] at hp
  exact h.punc hp.2

theorem _root_.Giron.IsTok.notP {t : Token} {c : Content} {p : Punctuator} (h : IsTok t c) (hp : ¬ t.isP p = true) :
    c ≠ .punct p := by
  rintro rfl
  obtain ⟨l, k, st, e, rfl⟩ := h
  exact hp (by simp [Token.isP, Content.token, Token.matchesPunc])

theorem _root_.Giron.IsTok.notPunc {t : Token} {c : Content} {p : Punctuator} (h : IsTok t c) (hp : ¬ t.matchesPunc p = true) :
    c ≠ .punct p := by
  rintro rfl
  obtain ⟨l, k, st, e, rfl⟩ := h
  exact hp (by simp [Content.token, Token.matchesPunc])

theorem _root_.Giron.IsTok.ne_eof {t : Token} {c : Content} (h : IsTok t c) (ht : t.tokentype ≠ .eof) : c ≠ .eof := by
  rintro rfl
  obtain ⟨l, k, st, e, rfl⟩ := h
  exact ht rfl

/-- a token whose value is a string that is not a string literal or the like is a name -/
theorem _root_.Giron.IsTok.name {t : Token} {c : Content} (h : IsTok t c) (ht : t.isIdOrKw = true) :
    ∃ v, c = .name v ∧ t.value = .str v ∧ v ≠ cs!"null" ∧ v ≠ cs!"true" ∧ v ≠ cs!"false" := by
  obtain ⟨l, k, st, e, rfl⟩ := h
  unfold Token.isIdOrKw at ht
  simp only [Bool.or_eq_true, decide_eq_true_eq] at ht
  cases c with
  | name v =>
    refine ⟨v, rfl, ?_⟩
    simp only [Content.token, nameToken] at ht ⊢
    by_cases h1 : v = cs!"null"
    · rw [if_pos h1] at ht; rcases ht with ht | ht <;> cases ht
    · rw [if_neg h1] at ht ⊢
      by_cases h2 : v = cs!"true" ∨ v = cs!"false"
      · rw [if_pos h2] at ht; rcases ht with ht | ht <;> cases ht
      · rw [if_neg h2]
        refine ⟨?_, h1, fun h => h2 (.inl h), fun h => h2 (.inr h)⟩
        split <;> rfl
  | _ => rcases ht with ht | ht <;> cases ht

theorem _root_.Giron.IsTok.ident {t : Token} {c : Content} (h : IsTok t c) (ht : t.tokentype = .identifier) :
    ∃ v, c = .name v ∧ t.value = .str v :=
  let ⟨v, h1, h2, _⟩ := h.name (by simp [Token.isIdOrKw, ht]); ⟨v, h1, h2⟩

theorem _root_.Giron.IsTok.keyword {t : Token} {c : Content} (h : IsTok t c) (ht : t.tokentype = .keyword) :
    ∃ v, c = .name v ∧ t.value = .str v :=
  let ⟨v, h1, h2, _⟩ := h.name (by simp [Token.isIdOrKw, ht]); ⟨v, h1, h2⟩

theorem _root_.Giron.IsTok.isKw {t : Token} {c : Content} {v : Str} (h : IsTok t c) (ht : t.isKw v = true) : c = .name v := by
  unfold Token.isKw Token.matchesStr at ht
  simp only [Bool.and_eq_true, decide_eq_true_eq] at ht
  obtain ⟨u, h1, h2⟩ := h.keyword ht.1
  rw [ht.2] at h2
  cases h2; exact h1

theorem _root_.Giron.IsTok.isId {t : Token} {c : Content} {v : Str} (h : IsTok t c) (ht : t.isId v = true) : c = .name v := by
  unfold Token.isId Token.matchesStr at ht
  simp only [Bool.and_eq_true, decide_eq_true_eq] at ht
  obtain ⟨u, h1, h2⟩ := h.ident ht.1
  rw [ht.2] at h2
  cases h2; exact h1

/-- the spelling of a name or punctuator -/
theorem _root_.Giron.IsTok.str {t : Token} {c : Content} {v : Str} (h : IsTok t c) (ht : t.toStr? = some v)
    (hc : c.value? = none ∨ t.isIdOrKw = true) :
    ((∃ p, c = .punct p ∧ p.toStr = v) ∨ c = .name v) ∨ (∃ p f, c = .regexp p f) ∨ ∃ r k a b, c = .template r k a b := by
  rcases hc with hc | hc
  · obtain ⟨l, k, st, e, rfl⟩ := h
    cases c <;> simp [Content.value?, Content.token, Token.toStr?] at hc ht ⊢
    exact ht
  · obtain ⟨u, h1, h2, _⟩ := h.name hc
    unfold Token.toStr? at ht
    rw [h2] at ht
    cases ht
    exact .inl (.inr h1)

namespace Reads
variable {c : Content} {R : β → List Mark → Content → Prop}

theorem consume {p : Punctuator} {g : LexGoal} {k : Token → PM β}
    (h : ∀ t c', c = .punct p → IsTok t c → Reads c' (k t) fun b ws c'' => R b (.punct p :: ws) c'') :
    Reads c (Parser.consume p g >>= k) R := by
  unfold Parser.consume
  simp only [bind_assoc]
  refine cur fun t ht => ?_
  split
  · next hp =>
    have := ht.punc hp
    subst this
    exact advance fun t' c' ht' => h t' c' rfl ht'
  · exact failsBind

theorem consumeKw {v : Str} {g : LexGoal} {k : Token → PM β}
    (h : ∀ t c', c = .name v → IsTok t c → Reads c' (k t) fun b ws c'' => R b (.name v :: ws) c'') :
    Reads c (Parser.consumeKw v g >>= k) R := by
  unfold Parser.consumeKw
  simp only [bind_assoc]
  refine cur fun t ht => ?_
  split
  · next hp =>
    have := ht.isKw hp
    subst this
    exact advance fun t' c' ht' => h t' c' rfl ht'
  · exact failsBind

theorem consumeId {v : Str} {g : LexGoal} {k : Token → PM β}
    (h : ∀ t c', c = .name v → IsTok t c → Reads c' (k t) fun b ws c'' => R b (.name v :: ws) c'') :
    Reads c (Parser.consumeId v g >>= k) R := by
  unfold Parser.consumeId
  simp only [bind_assoc]
  refine cur fun t ht => ?_
  split
  · next hp =>
    have := ht.isId hp
    subst this
    exact advance fun t' c' ht' => h t' c' rfl ht'
  · exact failsBind

end Reads

theorem _root_.Giron.IsTok.eof {t : Token} {c : Content} (h : IsTok t c) (ht : t.tokentype = .eof) : c = .eof := by
  obtain ⟨l, k, st, e, rfl⟩ := h
  cases c with
  | name v =>
    simp only [Content.token, nameToken] at ht
    split at ht
    · cases ht
    · split at ht
      · cases ht
      · split at ht <;> cases ht
  | eof => rfl
  | _ => cases ht

theorem consumeSemicolon_reads {g : LexGoal} : Spells (consumeSemicolon g) fun _ => Spell.semi := by
  intro c
  unfold consumeSemicolon
  have hsemi : ∀ s : Parser, IsTok s.current c → s.current.isP .semicolon = true →
      Reads c (Parser.advance g >>= fun _ => Pure.pure ()) fun _ ws _ => Spell.semi ws := by
    intro s hs h
    have := hs.isP h
    subst this
    exact .advance fun _ _ _ => .pure (.inl rfl)
  refine .getLine (fun s hs hl => ?_) fun s hs hl => ⟨none, .inl rfl, ?_⟩
  · by_cases h : s.current.isP .semicolon = true
    · exact ⟨none, .inl rfl, .ite (fun h => hsemi s hs h) fun h' => absurd h h'⟩
    · refine ⟨some .inserted, .inr (.inr rfl), .ite (fun h' => absurd h' h) fun _ => .ite (fun h => ?_) fun _ => .pure (.inr rfl)⟩
      rw [hl] at h; cases h
  · refine .ite (fun h => hsemi s hs h) fun _ => .ite (fun _ => .ite (fun h => ?_) fun _ => .ite (fun h => ?_) fun _ => .fails) fun h => ?_
    · have := hs.isP h
      subst this
      exact .addMark (x := .inserted) (fun _ _ => .inl rfl) (.pure (.inr rfl))
    · have := hs.eof h
      subst this
      exact .addMark (x := .inserted) (fun _ _ => .inr (.inl rfl)) (.pure (.inr rfl))
    · rw [hl] at h; exact absurd rfl h

/-! ### Loops -/

variable {p : Punctuator} {f : PM α} {I : List α → Lang}

theorem whilePuncF_reads (h0 : I [] [])
    (hf : Reads (.punct p) f fun x w _ => ∀ xs ws, I xs ws → I (x :: xs) (w ++ ws)) (n : Nat) : Spells (whilePuncF p f n) I := by
  induction n with
  | zero => intro c; exact Reads.fails (m := M.fail .fuel)
  | succ n ih =>
    intro c
    refine .cur fun t ht => .ite (fun h => ?_) fun _ => .pure h0
    have := ht.isP h
    subst this
    exact .bind hf fun x w c' hx => .bind (ih c') fun xs ws c'' hxs => .pure (by rw [List.append_nil]; exact hx _ _ hxs)

theorem whilePunc_reads (h0 : I [] [])
    (hf : Reads (.punct p) f fun x w _ => ∀ xs ws, I xs ws → I (x :: xs) (w ++ ws)) : Spells (whilePunc p f) I :=
  fun c s past n text a s' hs hm => whilePuncF_reads h0 hf _ c s past n text a s' hs hm

theorem untilPuncF_reads (h0 : I [] [])
    (hf : ∀ c, c ≠ .punct p → Reads c f fun x w c' => ∀ xs ws, (xs = [] ↔ c' = .punct p) → I xs ws → I (x :: xs) (w ++ ws))
    (n : Nat) (c : Content) :
    Reads c (untilPuncF p f n) fun xs ws c' => I xs ws ∧ c' = .punct p ∧ (xs = [] ↔ c = .punct p) := by
  induction n generalizing c with
  | zero => exact Reads.fails (m := M.fail .fuel)
  | succ n ih =>
    refine .cur fun t ht => .ite (fun h => .pure ⟨h0, ht.isP h, iff_of_true rfl (ht.isP h)⟩) fun h => ?_
    exact .bind (hf c (ht.notP h)) fun x w c' hx => .bind (ih c') fun xs ws c'' ⟨hxs, hc, he⟩ => .pure
      ⟨by rw [List.append_nil]; exact hx _ _ he hxs, hc, iff_of_false (fun h => nomatch h) (ht.notP h)⟩

theorem untilPunc_reads (h0 : I [] [])
    (hf : ∀ c, c ≠ .punct p → Reads c f fun x w c' => ∀ xs ws, (xs = [] ↔ c' = .punct p) → I xs ws → I (x :: xs) (w ++ ws))
    (c : Content) : Reads c (untilPunc p f) fun xs ws c' => I xs ws ∧ c' = .punct p ∧ (xs = [] ↔ c = .punct p) :=
  fun s past n text a s' hs hm => untilPuncF_reads h0 hf _ c s past n text a s' hs hm

theorem untilPuncOrRestF_reads (hp : p ≠ .ellipsis) (h0 : I [] [])
    (hf : ∀ c, c ≠ .punct p → c ≠ .punct .ellipsis →
      Reads c f fun x w c' => ∀ xs ws, (xs = [] ↔ c' = .punct p) → I xs ws → I (x :: xs) (w ++ ws))
    (hr : Reads (.punct .ellipsis) f fun x w _ => I [x] w) (n : Nat) (c : Content) :
    Reads c (untilPuncOrRestF p f n) fun xs ws _ => I xs ws ∧ (xs = [] ↔ c = .punct p) := by
  induction n generalizing c with
  | zero => exact Reads.fails (m := M.fail .fuel)
  | succ n ih =>
    refine .cur fun t ht => .ite (fun h => .pure ⟨h0, iff_of_true rfl (ht.isP h)⟩) fun h => .ite (fun h' => ?_) fun h' => ?_
    · have := ht.isP h'
      subst this
      refine .bind hr fun x w c' hx => .pure ⟨by rw [List.append_nil]; exact hx, iff_of_false (fun h => nomatch h) ?_⟩
      intro e; cases e; exact hp rfl
    · exact .bind (hf c (ht.notP h) (ht.notP h')) fun x w c' hx => .bind (ih c') fun xs ws c'' ⟨hxs, he⟩ => .pure
        ⟨by rw [List.append_nil]; exact hx _ _ he hxs, iff_of_false (fun h => nomatch h) (ht.notP h)⟩

theorem untilPuncOrRest_reads (hp : p ≠ .ellipsis) (h0 : I [] [])
    (hf : ∀ c, c ≠ .punct p → c ≠ .punct .ellipsis →
      Reads c f fun x w c' => ∀ xs ws, (xs = [] ↔ c' = .punct p) → I xs ws → I (x :: xs) (w ++ ws))
    (hr : Reads (.punct .ellipsis) f fun x w _ => I [x] w) : Spells (untilPuncOrRest p f) I :=
  fun c s past n text a s' hs hm => by
    obtain ⟨ws, p', c', t', k1, k2, k3, _⟩ := untilPuncOrRestF_reads hp h0 hf hr _ c s past n text a s' hs hm
    exact ⟨ws, p', c', t', k1, k2, k3⟩

theorem untilEofF_reads {f : PM Node} {I : List Node → Lang} (h0 : I [] [])
    (hf : Spells f fun x w => ∀ xs ws, I xs ws → I (x :: xs) (w ++ ws)) (n : Nat) (c : Content) :
    Reads c (untilEofF f n) fun xs ws c' => I xs ws ∧ c' = .eof := by
  induction n generalizing c with
  | zero => exact Reads.fails (m := M.fail .fuel)
  | succ n ih =>
    refine .cur fun t ht => .ite (fun h => .pure ⟨h0, ?_⟩) fun h => ?_
    · exact ht.eof h
    · exact .bind (hf c) fun x w c' hx => .bind (ih c') fun xs ws c'' ⟨hxs, hc⟩ => .pure
        ⟨by rw [List.append_nil]; exact hx _ _ hxs, hc⟩

theorem untilEof_reads {f : PM Node} {I : List Node → Lang} (h0 : I [] [])
    (hf : Spells f fun x w => ∀ xs ws, I xs ws → I (x :: xs) (w ++ ws)) (c : Content) :
    Reads c (untilEof f) fun xs ws c' => I xs ws ∧ c' = .eof :=
  fun s past n text a s' hs hm => untilEofF_reads h0 hf _ c s past n text a s' hs hm

theorem commaUnless_reads {close : Punctuator} (c : Content) : Reads c (commaUnless close) fun _ w c' =>
    ∀ {γ : Type} (xs : List γ), (xs = [] ↔ c' = .punct close) → Spell.commaAfter xs w := by
  unfold commaUnless
  refine .cur fun t ht => .ite (fun h => .pure ?_) fun _ => .consume fun _ c' _ _ => .pure ?_
  · intro γ xs he
    rw [he.2 (ht.punc h)]
    exact .inr rfl
  · intro γ xs _
    unfold Spell.commaAfter
    split
    · exact .inl rfl
    · rfl

/-! ### The recursive entry points -/

/-- What the recursive entry points read. -/
structure RecSpells (r : Rec) : Prop where
  assignmentExpr : Spells r.assignmentExpr Spell.node
  stmtListItem : Spells r.stmtListItem Spell.node
  statement : Spells r.statement Spell.node
  unaryExpr : Spells r.unaryExpr Spell.node
  exponentiationExpr : Spells r.exponentiationExpr Spell.node
  newExpr : Spells r.newExpr Spell.node
  precedenceClimbing : ∀ lhs prec w, Spell.node lhs w → Spells (r.precedenceClimbing lhs prec) fun n ws => Spell.node n (w ++ ws)
  bindingIdOrPat : Spells r.bindingIdOrPat Spell.binding
  leftHandSideExpr : Spells r.leftHandSideExpr Spell.node

end Parser
end Giron

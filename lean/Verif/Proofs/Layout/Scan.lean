import Verif.Proofs.Lex.Scan
import Verif.Spec.Layout
/-
Two texts made of the same words: the scanner.
-/
namespace Giron
open M Spec

/-- a place in a text -/
structure Place where
  line : Nat
  col : Nat
  start : Nat
  stop : Nat

/-- the token at another place -/
def Token.at (t : Token) (p : Place) : Token :=
  ⟨t.tokentype, t.value, t.pattern, t.flags, t.octal, t.cooked, t.head, t.tail, p.line, p.col, p.start, p.stop⟩

theorem token_at {c : Content} {l k st e : Nat} {p : Place} :
    (c.token l k st e).at p = c.token p.line p.col p.start p.stop := by cases c <;> rfl

/-- the word leaves a template open -/
def opens : Content → Bool
  | .template _ _ _ false => true
  | _ => false

/-- one of the words does -/
def anyOpens (ws : List Said) : Bool := ws.any (fun w => opens w.says)

/-- the left text goes, over these words, to that one; a `}` goes on with a template only if one may be open -/
inductive Goes [Env] : Bool → Str → List Said → Str → Prop
  | stop {o : Bool} {text : Str} : Goes o text [] text
  | word {o : Bool} {w x r r' : Str} {goal : LexGoal} {resume : Bool} {c : Content} {ws : List Said} :
      Trivia w (x ++ r) → ¬ StartsTrivia (x ++ r) → Lexeme goal resume x r c → (resume = true → o = true) →
      Goes (o || opens c) r ws r' →
      Goes o (w ++ (x ++ r)) (⟨c, lineBreaks (w ++ (x ++ r)) - lineBreaks r⟩ :: ws) r'

theorem Goes.trans [Env] {o : Bool} {a b c : Str} {ws vs : List Said} (h : Goes o a ws b) (h' : Goes (o || anyOpens ws) b vs c) :
    Goes o a (ws ++ vs) c := by
  induction h with
  | stop => simpa [anyOpens] using h'
  | word h1 h2 h3 h4 _ ih =>
    refine .word h1 h2 h3 h4 (ih ?_)
    simpa [anyOpens, Bool.or_assoc] using h'

/-- if a template is open, then one may be -/
def Safe (o : Bool) (s : Scanner) : Prop := Brace.template ∈ s.curly → o = true

theorem mem_braces {c : Content} {b : List Brace} (h : Brace.template ∈ c.braces b) : Brace.template ∈ b ∨ opens c = true := by
  cases c with
  | template raw cooked head tail =>
    cases tail with
    | false => exact .inr rfl
    | true =>
      cases head with
      | true => exact .inl h
      | false => exact .inl (List.mem_of_mem_tail h)
  | punct p =>
    refine .inl ?_
    cases p <;> first | exact h | exact List.mem_of_mem_tail h | (rcases List.mem_cons.1 h with h | h; · cases h
                                                                  · exact h)
  | _ => exact .inl h

theorem Safe.next {o : Bool} {s s1 : Scanner} {c : Content} {b : Nat} (h : Safe o s) (e : s1.curly = c.braces s.curly) :
    Safe (o || anyOpens [⟨c, b⟩]) s1 := by
  intro ht
  rw [e] at ht
  rcases mem_braces ht with h1 | h1
  · simp [h h1]
  · simp [anyOpens, h1]

theorem Safe.mono {o q : Bool} {s : Scanner} (h : Safe o s) : Safe (o || q) s := fun ht => by simp [h ht]

theorem alike_refl {q : Bool} {b : Nat} : alike q b b := by
  unfold alike; split
  · rfl
  · exact Iff.rfl

theorem Goes.begins [Env] {o : Bool} {a b : Str} {ws : List Said} (h : Goes o a ws b) (n : Nat) : Begins n ws a := by
  induction h generalizing n with
  | stop => exact .stop
  | word h1 h2 h3 _ _ ih => exact .word h1 h2 h3 alike_refl (ih _)

/-- what a word says tells what the goal was -/
theorem Spec.Lexeme.change [Env] {g g' : LexGoal} {q q' : Bool} {x x' r r' : Str} {c : Content} (h : Lexeme g q x r c)
    (h' : Lexeme g' q' x' r' c) : Lexeme g q x' r' c := by
  cases h' with
  | eof => exact .eof
  | name a b => exact .name a b
  | number a => exact .number a
  | string a b => exact .string a b
  | template a b =>
    refine .template ?_ b
    cases h with
    | template k _ =>
      cases k with
      | whole => cases a; exact .whole
      | first => cases a; exact .first
      | middle e => cases a; exact .middle e
      | last e => cases a; exact .last e
  | regexp a b e f =>
    cases h with
    | regexp k _ _ _ => exact .regexp k b e f
  | punct a b e f =>
    cases h with
    | punct k1 k2 k3 k4 =>
      have hx : x = x' := by rw [← k1.2.1, ← a.2.1]
      subst hx
      exact .punct a b k3 k4

/-- after this, and if a template may be open, there is no word to be read (for the one goal or the other) -/
def Stuck [Env] (o : Bool) (text : Str) : Prop :=
  ∃ (g : LexGoal) (q : Bool), (q = true → o = true) ∧ ∀ (w x r : Str) (c : Content), text = w ++ (x ++ r) → Trivia w (x ++ r) →
    ¬ StartsTrivia (x ++ r) → ¬ Lexeme g q x r c

namespace Scanner
variable [Env] {s : Scanner}

theorem next_stuck {g : LexGoal} {e : Fail} {o : Bool} (hf : Fresh s) (ho : Safe o s) (h : next g s = .error e)
    (he : e ≠ .panic .tokenEndUnderflow) :
    Stuck o s.rest := by
  cases hu : s.unscanned with
  | some u => unfold next at h; rw [hu] at h; cases h
  | none =>
    refine ⟨g, decide (s.curly.head? = some .template), fun hq => ho (List.mem_of_mem_head? (of_decide_eq_true hq)), ?_⟩
    intro w x r c hr hw hs hl
    rw [next_eq hu hf hr hw hs hl] at h
    unfold emit at h
    split at h <;> cases h
    exact he rfl

theorem step_facts {w x r : Str} {c : Content} (hr : s.rest = w ++ (x ++ r)) (hf : Fresh s) :
    Fresh (step w x c s) ∧ (step w x c s).rest = r ∧ (step w x c s).curly = c.braces s.curly ∧
      (step w x c s).current = s.current + w.length + x.length ∧
      (step w x c s).line = s.line + (lineBreaks (w ++ (x ++ r)) - lineBreaks r) ∧
      (step w x c s).unscanned = s.unscanned ∧ (step w x c s).state = s.state := by
  let s0 : Scanner := { s with newline := false }
  have hr0 : s0.rest = w ++ (x ++ r) := hr
  let s2 : Scanner := { afterN w.length s0 with col := 1, start := s.current + w.length }
  have hr2 : s2.rest = x ++ r := by
    show (afterN w.length s0).rest = x ++ r
    exact rest_afterN_append hr0
  have hr3 : (afterN x.length s2).rest = r := rest_afterN_append hr2
  have e : Scanner.step w x c s = withCurly (c.braces s.curly) (afterN x.length s2) := rfl
  rw [e]
  have hl2 : s2.line + lineBreaks (x ++ r) = s.line + lineBreaks (w ++ (x ++ r)) := by
    have := afterN_lines w.length s0
    rw [show s0.rest.drop w.length = x ++ r from by rw [hr0]; simp, hr0] at this
    exact this
  have hl3 : (afterN x.length s2).line + lineBreaks r = s2.line + lineBreaks (x ++ r) := by
    have := afterN_lines x.length s2
    rw [show s2.rest.drop x.length = r from by rw [hr2]; simp, hr2] at this
    exact this
  have hcur2 : s2.current = s.current + w.length := by
    show (afterN w.length s0).current = _
    simp [s0]
  have hf2 : Fresh s2 := Fresh.afterN (s := s0) hf w.length
  refine ⟨hf2.afterN _, hr3, rfl, ?_, ?_, ?_, ?_⟩
  · show (afterN x.length s2).current = _
    rw [afterN_current, hcur2]
  · show (afterN x.length s2).line = _
    have h1 := lineBreaks_drop_le x r
    have h2 := lineBreaks_drop_le w (x ++ r)
    omega
  · show (afterN x.length s2).unscanned = _
    rw [afterN_unscanned]
    show (afterN w.length s0).unscanned = _
    rw [afterN_unscanned]
  · show (afterN x.length s2).state = _
    rw [afterN_state]
    show (afterN w.length s0).state = _
    rw [afterN_state]

/-- A word scanned in the one text is scanned in the other. -/
theorem next_both {g : LexGoal} {t : Token} {s1 : Scanner} (hf : Fresh s) (hu : s.unscanned = none)
    (h : next g s = .ok (t, s1)) :
    ∃ c b, (∀ o, Safe o s → Goes o s.rest [⟨c, b⟩] s1.rest) ∧ Fresh s1 ∧ s1.unscanned = none ∧ s1.state = s.state ∧
      s1.line = s.line + b ∧ s1.curly = c.braces s.curly ∧ (∃ k st e, t = c.token s1.line k st e) ∧
      (s.rest ≠ [] → s.current < s1.current) ∧
      ∀ s' n Q, Fresh s' → s'.unscanned = none → s'.curly = s.curly → 0 < s'.current → Begins n (⟨c, b⟩ :: Q) s'.rest →
        ∃ p s1' b', next g s' = .ok (t.at p, s1') ∧ Fresh s1' ∧ s1'.unscanned = none ∧ s1'.state = s'.state ∧
          s1'.line = s'.line + b' ∧ s1'.curly = s1.curly ∧ p.line = s1'.line ∧ 0 < s1'.current ∧
          alike (decide (0 < n)) b b' ∧ Begins (toCount n c) Q s1'.rest := by
  obtain ⟨w, x, r, c, hr, hw, hn, hl⟩ := next_inv hu h
  rw [next_eq hu hf hr hw hn hl] at h
  have hF := step_facts (c := c) hr hf
  obtain ⟨ht, hs1⟩ : (∃ k st e, t = c.token (step w x c s).line k st e) ∧ s1 = step w x c s := by
    unfold emit at h
    split at h <;> cases h
    exact ⟨⟨_, _, _, rfl⟩, rfl⟩
  subst hs1
  obtain ⟨f1, f2, f3, f4, f5, f6, f7⟩ := hF
  refine ⟨c, lineBreaks (w ++ (x ++ r)) - lineBreaks r, ?_, f1, f6.trans hu, f7, f5, f3, ht, ?_, ?_⟩
  · intro o ho
    rw [hr, f2]
    refine .word hw hn hl (fun hq => ho ?_) .stop
    exact List.mem_of_mem_head? (of_decide_eq_true hq)
  · intro hne
    rw [f4]
    have : w.length + x.length ≠ 0 := by
      intro h0
      have hw0 : w = [] := List.length_eq_zero_iff.1 (by omega)
      have hx0 : x = [] := List.length_eq_zero_iff.1 (by omega)
      subst hw0 hx0
      generalize hx : ([] : Str) = x at hl
      cases hl with
      | eof => exact hne hr
      | name => cases hx
      | string => cases hx
      | template => cases hx
      | regexp => cases hx
      | number k =>
        subst hx
        obtain ⟨c, y, e, _⟩ := number_head k
        cases e
      | punct k =>
        subst hx
        exact absurd k.1 (by decide)
    omega
  · intro s' n Q hf' hu' hc' hp' hb
    generalize hrest : s'.rest = text at hb
    cases hb with
    | @word _ w' x' r' g' q' _ _ _ hw' hn' hl' hal hb =>
      have hl'' := hl.change hl'
      rw [← hc'] at hl''
      have he := next_eq (goal := g) hu' hf' hrest hw' hn' hl''
      obtain ⟨k1, k2, k3, k4, k5, k6, k7⟩ := step_facts (c := c) hrest hf'
      have hpos : 0 < (step w' x' c s').current := by rw [k4]; omega
      obtain ⟨k, st, e, ht⟩ := ht
      refine ⟨⟨(step w' x' c s').line, (step w' x' c s').col, (step w' x' c s').start, (step w' x' c s').current - 1⟩,
        step w' x' c s', lineBreaks (w' ++ (x' ++ r')) - lineBreaks r', ?_, k1, k6.trans hu', k7, k5, ?_, rfl, hpos, hal, ?_⟩
      · rw [he]
        unfold emit
        rw [if_neg (fun h => by omega), if_neg (fun h => by omega), ht, token_at]
      · rw [k3, f3, hc']
      · rw [k2]; exact hb

end Scanner
end Giron

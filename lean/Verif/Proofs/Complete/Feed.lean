import Verif.Spec.Words
import Verif.Model.Parser.Primary
import Verif.Proofs.Lex.Scan
/-
Grammar completeness: a text that is made of words feeds them to the parser.
-/
namespace Giron.Complete
open Giron M Spec Parser
variable [Env]

/-- A lexeme does not depend on the goal, if what it says fits. -/
theorem lexeme_goal {g g' : LexGoal} {b : Bool} {x r : Str} {c : Content} (h : Lexeme g b x r c) (hc : c.fits g' = true) :
    Lexeme g' b x r c := by
  cases h with
  | eof => exact .eof
  | name h1 h2 => exact .name h1 h2
  | number h => exact .number h
  | string h1 h2 => exact .string h1 h2
  | template h1 h2 => exact .template h1 h2
  | regexp _ h1 h2 h3 =>
    cases g' with
    | regExp => exact .regexp rfl h1 h2 h3
    | _ => simp [Content.fits] at hc
  | @punct _ _ p h1 h2 h3 h4 =>
    refine .punct h1 h2 h3 (fun hx => ?_)
    cases g' with
    | div => rfl
    | regExp =>
      exfalso
      have h5 := h1.2.1
      subst h5
      cases p <;> first | (simp [Content.fits] at hc; done) | exact absurd hx (by decide)

theorem not_startsTrivia_nil : ¬ StartsTrivia [] := by
  rintro (⟨c, x, h, -⟩ | ⟨x, h⟩ | ⟨x, h⟩) <;> cases h

theorem feed_step {g : LexGoal} {source pre w x r : Str} {c : Content} {sc : Scanner} {b : List Brace}
    (hs : Scanner.At source pre sc) (hb : sc.curly = b)
    (hr : sc.rest = w ++ (x ++ r)) (hw : Trivia w (x ++ r)) (hn : ¬ StartsTrivia (x ++ r))
    (hx : Lexeme g (decide (b.head? = some .template)) x r c) (hne : pre ++ w ++ x = [] → Env.checked = false) :
    ∃ k i j sc', sc.next g = .ok (c.token (lines source - lineBreaks r) k i j, sc') ∧
      Scanner.At source (pre ++ w ++ x) sc' ∧ sc'.rest = r ∧ sc'.curly = c.braces b := by
  subst hb
  obtain ⟨k1, k2, k3, -⟩ := hs.step hr c
  refine ⟨columnAfter 1 x r, (pre ++ w).length, if pre ++ w ++ x = [] then Env.usizeMax else (pre ++ w ++ x).length - 1,
    Scanner.step w x c sc, ?_, k1, k2, k3⟩
  rw [Scanner.next_eq hs.unscanned hs.fresh hr hw hn hx, Scanner.emit_step hs hr c, if_neg]
  rintro ⟨h0, h1⟩
  rw [hne h0] at h1; cases h1

/-- Reading on from `sc`, the last token being on line `line`, gives the words: they are there as text, or the first has
been read and pushed back. -/
inductive Feeds : List Word → Nat → Scanner → Prop
  | done {line : Nat} {sc : Scanner} : Feeds [] line sc
  | text {ws : List Word} {sc : Scanner} : sc.unscanned = none → sc.Fresh → 0 < sc.current → Words sc.curly sc.rest ws →
      Feeds ws sc.line sc
  | back {w : Word} {ws : List Word} {line l k i j : Nat} {sc : Scanner} : sc.unscanned = some (w.c.token l k i j) →
      w.nl = decide (l > line) → Feeds ws l { sc with unscanned := none } → Feeds (w :: ws) line sc

/-- One word of a text. -/
theorem step_ok {g : LexGoal} {v x r : Str} {c : Content} {sc : Scanner} (hu : sc.unscanned = none) (hf : sc.Fresh)
    (hr : sc.rest = v ++ (x ++ r)) (hv : Trivia v (x ++ r)) (hn : ¬ StartsTrivia (x ++ r))
    (hx : Lexeme g (decide (sc.curly.head? = some .template)) x r c)
    (hne : sc.current + v.length + x.length = 0 → Env.checked = false) :
    ∃ k i j sc', sc.next g = .ok (c.token sc'.line k i j, sc') ∧ sc'.line + lineBreaks r = sc.line + lineBreaks sc.rest ∧
      sc'.unscanned = none ∧ sc'.Fresh ∧ sc'.rest = r ∧ sc'.curly = c.braces sc.curly ∧
      sc'.current = sc.current + v.length + x.length ∧ sc'.state = sc.state := by
  have e := Scanner.next_eq hu hf hr hv hn hx
  let s0 : Scanner := { sc with newline := false }
  have hr0 : s0.rest = v ++ (x ++ r) := hr
  let s2 : Scanner := { Scanner.afterN v.length s0 with col := 1, start := sc.current + v.length }
  have hr2 : s2.rest = x ++ r := Scanner.rest_afterN_append hr0
  have hr3 : (Scanner.afterN x.length s2).rest = r := Scanner.rest_afterN_append hr2
  have l1 := Scanner.afterN_lines v.length s0
  have l2 := Scanner.afterN_lines x.length s2
  rw [show s0.rest.drop v.length = x ++ r from by rw [hr0]; simp] at l1
  rw [show s2.rest.drop x.length = r from by rw [hr2]; simp, hr2] at l2
  have l3 : s2.line = (Scanner.afterN v.length s0).line := rfl
  have l4 : (Scanner.step v x c sc).line = (Scanner.afterN x.length s2).line := rfl
  have hcur : (Scanner.step v x c sc).current = sc.current + v.length + x.length := by
    show (Scanner.afterN x.length s2).current = _
    rw [Scanner.afterN_current, show s2.current = sc.current + v.length by
      show (Scanner.afterN v.length s0).current = _
      simp [s0]]
  have hline : (Scanner.step v x c sc).line + lineBreaks r = sc.line + lineBreaks sc.rest := by
    have l5 : s0.line = sc.line := rfl
    have l6 : s0.rest = sc.rest := rfl
    rw [l6] at l1
    omega
  have hck : ¬ ((Scanner.step v x c sc).current = 0 ∧ Env.checked = true) := by
    rintro ⟨h0, h1⟩
    rw [hcur] at h0
    rw [hne h0] at h1; cases h1
  unfold Scanner.emit at e
  rw [if_neg hck] at e
  have hst : ∀ (n : Nat) (s : Scanner), (Scanner.afterN n s).state = s.state := by
    intro n
    induction n with
    | zero => intro s; rfl
    | succ n ih =>
      intro s
      rw [Scanner.afterN_succ, ih]
      unfold Scanner.afterConsume
      dsimp only
      repeat' split
      all_goals rfl
  refine ⟨_, _, _, _, e, hline, ?_, ?_, hr3, rfl, hcur, (hst x.length s2).trans (hst v.length s0)⟩
  · show (Scanner.afterN x.length s2).unscanned = none
    rw [Scanner.afterN_unscanned]
    show (Scanner.afterN v.length s0).unscanned = none
    rw [Scanner.afterN_unscanned]; exact hu
  · exact Scanner.Fresh.afterN (s := s2) (Scanner.Fresh.afterN (s := s0) hf v.length) x.length

/-- The scanner reads the words of a text one after the other. -/
theorem words_next {g : LexGoal} {w : Word} {ws : List Word} {sc : Scanner} {b : List Brace} {text : Str}
    (h : Words b text (w :: ws)) (hb : sc.curly = b) (ht : sc.rest = text)
    (hu : sc.unscanned = none) (hf : sc.Fresh) (hg : w.c.fits g = true)
    (hne : sc.rest = [] → sc.current = 0 → Env.checked = false) :
    ∃ k i j sc', sc.next g = .ok (w.c.token sc'.line k i j, sc') ∧ sc.line ≤ sc'.line ∧ w.nl = decide (sc'.line > sc.line) ∧
      sc'.unscanned = none ∧ sc'.Fresh ∧ sc'.curly = w.c.braces sc.curly ∧ sc'.state = sc.state ∧
      (ws = [] ∨ 0 < sc'.current ∧ Words sc'.curly sc'.rest ws) := by
  subst hb
  cases h with
  | eof hw =>
    have hr : sc.rest = text ++ ([] ++ []) := by simpa using ht
    obtain ⟨k, i, j, sc', h1, h2, h3, h4, h5, h6, h7, h8⟩ := step_ok (g := g) hu hf hr hw not_startsTrivia_nil .eof (by
      intro h0
      have hw0 : text = [] := List.length_eq_zero_iff.1 (by omega)
      exact hne (by rw [ht, hw0]) (by omega))
    rw [show lineBreaks [] = 0 from rfl, ht] at h2
    refine ⟨k, i, j, sc', h1, by omega, ?_, h3, h4, h6, h8, .inl rfl⟩
    rw [Bool.eq_iff_iff]
    simp only [decide_eq_true_eq]
    omega
  | @word goal _ w x r c ws hw hn hx hf' hx0 hws =>
    have hl : 0 < x.length := List.length_pos_iff.2 hx0
    obtain ⟨k, i, j, sc', h1, h2, h3, h4, h5, h6, h7, h8⟩ := step_ok (g := g) hu hf ht hw hn (lexeme_goal hx hg) (by omega)
    have := Scanner.lineBreaks_drop_le (w ++ x) r
    rw [List.append_assoc] at this
    rw [ht] at h2
    refine ⟨k, i, j, sc', h1, by omega, ?_, h3, h4, h6, h8, .inr ⟨by omega, by rw [h6, h5]; exact hws⟩⟩
    rw [Bool.eq_iff_iff]
    simp only [decide_eq_true_eq]
    omega

theorem feeds_of {ws : List Word} {sc : Scanner} (hu : sc.unscanned = none) (hf : sc.Fresh)
    (h : ws = [] ∨ 0 < sc.current ∧ Words sc.curly sc.rest ws) : Feeds ws sc.line sc := by
  rcases h with rfl | ⟨h1, h2⟩
  · exact .done
  · exact .text hu hf h1 h2

/-- The next word. -/
theorem Feeds.next {g : LexGoal} {w : Word} {ws : List Word} {line : Nat} {sc : Scanner} (h : Feeds (w :: ws) line sc)
    (hg : w.c.fits g = true) :
    ∃ l k i j sc', sc.next g = .ok (w.c.token l k i j, sc') ∧ w.nl = decide (l > line) ∧ Feeds ws l sc' := by
  cases h with
  | text hu hf hc hw =>
    obtain ⟨k, i, j, sc', h1, h2, h3, h4, h5, h6, -, h7⟩ := words_next (g := g) hw rfl rfl hu hf hg (by omega)
    exact ⟨_, k, i, j, sc', h1, h3, feeds_of h4 h5 h7⟩
  | @back _ _ _ l k i j _ hu hn hw =>
    refine ⟨l, k, i, j, _, ?_, hn, hw⟩
    unfold Scanner.next
    rw [hu]

theorem Feeds.state {st : Option ScannerState} {ws : List Word} {line : Nat} {sc : Scanner} (h : Feeds ws line sc) :
    Feeds ws line { sc with state := st } := by
  induction h with
  | done => exact .done
  | @text ws sc hu hf hc hw => exact .text (sc := { sc with state := st }) hu hf hc hw
  | back hu hn _ ih => exact .back hu hn ih

/-- Looking at the next word and pushing it back. -/
theorem Feeds.peek {w : Word} {ws : List Word} {line : Nat} {sc : Scanner} (h : Feeds (w :: ws) line sc)
    (hg : w.c.fits .regExp = true) (hn : w.nl = false) (hb : ∀ b, w.c.braces b = b) :
    ∃ l k i j sc', (∀ s : Parser, s.scanner = sc → peekToken s = .ok (w.c.token l k i j, { s with scanner := sc' })) ∧
      Feeds (w :: ws) line sc' := by
  let st : ScannerState := ⟨sc.start, sc.current, sc.line, sc.col, sc.newline, sc.rawString, sc.curly⟩
  let back : Token → Scanner → Scanner := fun t sc1 => { sc1 with
    state := none, start := sc.start, current := sc.current, line := sc.line, col := sc.col, newline := sc.newline
    rawString := sc.rawString, curly := sc.curly, unscanned := some t }
  have key : ∀ t sc1, sc1.state = some st → Scanner.next .regExp { sc with state := some st } = .ok (t, sc1) →
      ∀ s : Parser, s.scanner = sc → peekToken s = .ok (t, { s with scanner := back t sc1 }) := by
    rintro t sc1 h1 h2 s rfl
    unfold peekToken
    have e1 : liftScanner Scanner.saveState s = .ok ((), { s with scanner := { s.scanner with state := some st } }) := rfl
    refine (M.bind_ok e1).trans ?_
    have e2 : liftScanner (Scanner.next .regExp) { s with scanner := { s.scanner with state := some st } } =
        .ok (t, { s with scanner := sc1 }) := by
      unfold liftScanner
      dsimp only
      rw [h2]
    refine (M.bind_ok e2).trans ?_
    have e3 : liftScanner (Scanner.restoreState t) { s with scanner := sc1 } = .ok ((), { s with scanner := back t sc1 }) := by
      unfold liftScanner Scanner.restoreState
      simp only [h1]
      rfl
    exact (M.bind_ok e3).trans rfl
  cases h with
  | text hu hf hc hw =>
    obtain ⟨k, i, j, sc', h1, h2, h3, h4, h5, h6, h8, h7⟩ := words_next (g := .regExp) (sc := { sc with state := some st })
      hw rfl rfl hu hf hg (by intro _ h; exact absurd h (by show sc.current ≠ 0; omega))
    rw [hn] at h3
    have hl : sc'.line = sc.line := by
      have : ¬ sc'.line > sc.line := by
        have := h3.symm
        simpa using this
      have h2 : sc.line ≤ sc'.line := h2
      omega
    refine ⟨_, k, i, j, _, key _ _ h8 h1, ?_⟩
    refine .back (l := sc'.line) rfl (by rw [hn]; symm; simp [hl]) ?_
    rcases h7 with rfl | ⟨h7, h9⟩
    · exact .done
    · rw [hl]
      refine .text (sc := { back _ sc' with unscanned := none }) rfl ⟨h5.1, ?_⟩ hc ?_
      · exact hf.2
      · rw [h6] at h9
        rw [hb] at h9
        exact h9
  | @back _ _ _ l k i j _ hu hnl hw =>
    refine ⟨l, k, i, j, _, key _ { sc with state := some st, unscanned := none } rfl ?_, ?_⟩
    · unfold Scanner.next
      dsimp only
      rw [hu]
    · exact .back rfl hnl (Feeds.state (st := none) hw)

end Giron.Complete

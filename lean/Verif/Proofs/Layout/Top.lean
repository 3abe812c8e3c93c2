import Verif.Proofs.Layout.Module
import Verif.Thm.Outcome
/-
Texts made of the same words: whole programs.
-/
namespace Giron
open M Spec

namespace Layout
open Parser
variable [Env]

theorem lexeme_nil {g : LexGoal} {q : Bool} {x r : Str} {c : Content} (hl : Lexeme g q x r c) (hx : x = []) : r = [] := by
  cases hl with
  | eof => rfl
  | name => cases hx
  | string => cases hx
  | template => cases hx
  | regexp => cases hx
  | number k =>
    subst hx
    obtain ⟨c, y, e, _⟩ := Scanner.number_head k
    cases e
  | punct k =>
    subst hx
    exact absurd k.1 (by decide)

/-- The first word of a source. -/
theorem first_inv {source : Str} {p : Parser} (h : Parser.new source = .ok p) :
    ∃ w x r c, source = w ++ (x ++ r) ∧ Trivia w (x ++ r) ∧ ¬ StartsTrivia (x ++ r) ∧ Lexeme .regExp false x r c ∧
      p.scanner.rest = r ∧ Ready p ∧ heard p = [shown c] ∧ ends p = [isEnd c] ∧ Safe (opens c) p.scanner ∧
      ∀ source' ws, source' ≠ [] → MadeOf c ws source' → ∃ p', Parser.new source' = .ok p' ∧ R ws p p' := by
  unfold Parser.new at h
  split at h
  · next t sc hn =>
    cases h
    obtain ⟨w, x, r, c, hr, hw, hs, hl⟩ := Scanner.next_inv rfl hn
    rw [Scanner.next_eq rfl ⟨rfl, rfl⟩ hr hw hs hl] at hn
    obtain ⟨f1, f2, f3, f4, f5, f6, f7⟩ := Scanner.step_facts (c := c) hr ⟨rfl, rfl⟩
    obtain ⟨ht, rfl⟩ : (∃ k st e, t = c.token (Scanner.step w x c (Scanner.new source)).line k st e) ∧
        sc = Scanner.step w x c (Scanner.new source) := by
      unfold Scanner.emit at hn
      split at hn <;> cases hn
      exact ⟨⟨_, _, _, rfl⟩, rfl⟩
    obtain ⟨k, st, e, ht⟩ := ht
    refine ⟨w, x, r, c, hr, hw, hs, hl, f2, ⟨f1, fun h => absurd f6 h⟩, ?_, ?_, ?_, ?_⟩
    · simp only [heard, ht, Pos.token_shown, f6]; rfl
    · simp only [ends, ht, token_end, f6]; rfl
    · intro hm
      rw [show _ = _ from f3] at hm
      rcases mem_braces hm with h1 | h1
      · cases h1
      · exact h1
    · intro source' ws hne hmade
      cases hmade with
      | @mk w' x' r' g q hw' hs' hl' hb =>
        have hl'' := hl.change hl'
        have hr' : (Scanner.new (w' ++ (x' ++ r'))).rest = w' ++ (x' ++ r') := rfl
        have he := Scanner.next_eq (goal := .regExp) rfl ⟨rfl, rfl⟩ hr' hw' hs' hl''
        obtain ⟨k1, k2, k3, k4, k5, k6, k7⟩ := Scanner.step_facts (c := c) hr' ⟨rfl, rfl⟩
        have hpos : 0 < (Scanner.step w' x' c (Scanner.new (w' ++ (x' ++ r')))).current := by
          rw [k4]
          apply Nat.pos_of_ne_zero
          intro h0
          have hw0 : w' = [] := List.length_eq_zero_iff.1 (by omega)
          have hx0 : x' = [] := List.length_eq_zero_iff.1 (by omega)
          have := lexeme_nil hl' hx0
          subst hw0 hx0 this
          exact hne rfl
        generalize hS : Scanner.step w' x' c (Scanner.new (w' ++ (x' ++ r'))) = S' at *
        have hn' : Scanner.next .regExp (Scanner.new (w' ++ (x' ++ r'))) =
            .ok (t.at ⟨S'.line, S'.col, S'.start, S'.current - 1⟩, S') := by
          rw [he]
          unfold Scanner.emit
          rw [if_neg (fun h => by omega), if_neg (fun h => by omega), ht, token_at]
        unfold Parser.new
        rw [hn']
        refine ⟨_, rfl, R.mk (sc := S') (p := ⟨S'.line, S'.col, S'.start, S'.current - 1⟩) (ms := []) ?_ rfl⟩
        refine ⟨k1, ?_, hpos, toCount 0 c, 0, ?_, ?_, rfl, .inl rfl, .inl ⟨f6, k6, ?_⟩⟩
        · rw [k3, show _ = _ from f3]; rfl
        · rw [k2]; exact hb
        · show t.lineNum = _
          rw [ht]
          cases c <;> rfl
        · intro hx
          rw [toCount_look (lookTok_says ht hx)]
          exact Nat.le_refl _
  · cases h
  · cases h

/-- The words read in a source, and what comes of any source that is made of them. -/
theorem body_both {f : Rec → PM Node} {source : Str} {p p1 : Parser} {t : Node} {n : Nat} {n' : Str → Nat}
    (hs : Sim (ι := Str) (f (run n)) (fun i => f (run (n' i)))) (h : Parser.new source = .ok p)
    (hb : f (run n) p = .ok (t, p1)) :
    ∃ w x c P, Trivia w (x ++ p.scanner.rest) ∧ ¬ StartsTrivia (x ++ p.scanner.rest) ∧ source = w ++ (x ++ p.scanner.rest) ∧
      Lexeme .regExp false x p.scanner.rest c ∧ Goes (opens c) p.scanner.rest P p1.scanner.rest ∧
      ∀ source' Q, source' ≠ [] → MadeOf c (P ++ Q) source' → ∃ p', Parser.new source' = .ok p' ∧
        (f (run (n' source')) p' = .error .fuel ∨ ∃ t' s', f (run (n' source')) p' = .ok (t', s') ∧ bareNode t = bareNode t') := by
  obtain ⟨w, x, r, c, hsrc, hw, hst, hl, rfl, hf, hsh, -, hsafe, hnew⟩ := first_inv h
  obtain ⟨P, hf1, hs1, hg, _, hout⟩ := hs.out.ok (opens c) p (fun i => match Parser.new i with | .ok q => q | .error _ => p) t p1 trivial hf hsafe hb
  refine ⟨w, x, c, P, hw, hst, hsrc, hl, hg, fun source' Q hne hm => ?_⟩
  obtain ⟨p', hp', hR⟩ := hnew source' (P ++ Q) hne hm
  refine ⟨p', hp', ?_⟩
  have := hout source' Q (by rw [hp']; exact hR)
  rw [hp'] at this
  rcases this with h0 | ⟨a', s', h1, h2, -⟩
  · exact .inl h0
  · exact .inr ⟨a', s', h1, h2⟩

/-- The words read in a source that is rejected, and what comes of any source that begins with them. -/
theorem body_bad {f : Rec → PM Node} {source : Str} {p : Parser} {b : Fail} {n : Nat} {n' : Str → Nat}
    (hs : Sim (ι := Str) (f (run n)) (fun i => f (run (n' i)))) (h : Parser.new source = .ok p)
    (hb : f (run n) p = .error b) (ht : Told b) :
    ∃ w x c P r, Trivia w (x ++ p.scanner.rest) ∧ ¬ StartsTrivia (x ++ p.scanner.rest) ∧ source = w ++ (x ++ p.scanner.rest) ∧
      Lexeme .regExp false x p.scanner.rest c ∧ Goes (opens c) p.scanner.rest P r ∧
      ((Lexical b ∧ Stuck (opens c || anyOpens P) r) ∨
        ∀ source' Q, source' ≠ [] → MadeOf c (P ++ Q) source' → ∃ p', Parser.new source' = .ok p' ∧
          Bad b (f (run (n' source')) p')) := by
  obtain ⟨w, x, r, c, hsrc, hw, hst, hl, rfl, hf, hsh, -, hsafe, hnew⟩ := first_inv h
  obtain ⟨P, r, hg, hout⟩ := hs.out.err (opens c) p (fun i => match Parser.new i with | .ok q => q | .error _ => p) b trivial hf hsafe hb ht
  refine ⟨w, x, c, P, r, hw, hst, hsrc, hl, hg, hout.imp id fun hout source' Q hne hm => ?_⟩
  obtain ⟨p', hp', hR⟩ := hnew source' (P ++ Q) hne hm
  refine ⟨p', hp', ?_⟩
  have := hout source' Q (by rw [hp']; exact hR)
  rwa [hp'] at this

/-- The words read up to an error that is not a lexical one: every source that begins with them is rejected. -/
theorem body_dead {f : Rec → PM Node} {source : Str} {p : Parser} {e : Error} {n : Nat} {n' : Str → Nat}
    (hs : Sim (ι := Str) (f (run n)) (fun i => f (run (n' i)))) (h : Parser.new source = .ok p)
    (hb : f (run n) p = .error (.err e)) (ht : ¬ Pos.LexErr e.errortype) :
    ∃ w x c P r, Trivia w (x ++ p.scanner.rest) ∧ ¬ StartsTrivia (x ++ p.scanner.rest) ∧ source = w ++ (x ++ p.scanner.rest) ∧
      Lexeme .regExp false x p.scanner.rest c ∧ Goes (opens c) p.scanner.rest P r ∧
      (∀ v, e.errortype = .unexpectedToken v → ∃ pre, shown c :: wordsOf P = pre ++ [v] ∨
        ((v = cs!"async" ∨ v = cs!"get" ∨ v = cs!"set") ∧ ∃ u, shown c :: wordsOf P = pre ++ [v, u])) ∧
      ∀ source' Q, source' ≠ [] → MadeOf c (P ++ Q) source' → ∃ p', Parser.new source' = .ok p' ∧
          ∃ b, f (run (n' source')) p' = .error b := by
  obtain ⟨w, x, r, c, hsrc, hw, hst, hl, rfl, hf, hsh, -, hsafe, hnew⟩ := first_inv h
  obtain ⟨P, r, hg, hv, hout⟩ := hs.out.dead (opens c) p (fun i => match Parser.new i with | .ok q => q | .error _ => p) e trivial hf hsafe hb ht
  refine ⟨w, x, c, P, r, hw, hst, hsrc, hl, hg, fun v hx => ?_, fun source' Q hne hm => ?_⟩
  · have := hv v hx
    unfold Names at this
    rw [hsh] at this
    exact this
  · obtain ⟨p', hp', hR⟩ := hnew source' (P ++ Q) hne hm
    refine ⟨p', hp', ?_⟩
    have := hout source' Q (by rw [hp']; exact hR)
    rwa [hp'] at this

/-! ### words that can be read in one way only -/

theorem token_inj {c c' : Content} {l k st e l' k' st' e' : Nat} (h : c.token l k st e = c'.token l' k' st' e') : c = c' := by
  have hty : ∀ v, (nameToken v).1 ∈ [TokenType.nullLiteral, .booleanLiteral, .keyword, .identifier] := by
    intro v; unfold nameToken; repeat' split
    all_goals simp
  have hval : ∀ v v', nameToken v = nameToken v' → v = v' := by
    intro v v' h
    unfold nameToken at h
    repeat' split at h
    all_goals simp_all
  cases c with
  | name v =>
    cases c' with
    | name v' =>
      rw [hval v v' (Prod.ext (by simpa [Spec.Content.token] using congrArg Token.tokentype h) (by simpa [Spec.Content.token] using congrArg Token.value h))]
    | _ =>
      have := hty v
      have h1 := congrArg Token.tokentype h
      simp only [Spec.Content.token] at h1
      rw [h1] at this
      simp at this
  | _ =>
    cases c' with
    | name v =>
      have := hty v
      have h1 := congrArg Token.tokentype h
      simp only [Spec.Content.token] at h1
      rw [← h1] at this
      simp at this
    | _ => simp_all [Spec.Content.token]

theorem plain_lexeme {g g' : LexGoal} {q : Bool} {x r : Str} {c : Content} (hp : OneWay c) (h : Lexeme g q x r c) :
    Lexeme g' false x r c := by
  cases h with
  | eof => exact .eof
  | name a b => exact .name a b
  | number a => exact .number a
  | string a b => exact .string a b
  | template a b => exact hp.elim
  | regexp a b e f => exact hp.elim
  | @punct _ _ p a b e f =>
    refine .punct a b (fun _ => rfl) (fun hx => ?_)
    exfalso
    obtain ⟨-, rfl, -⟩ := a
    have : p = .slash ∨ p = .slashAssign := by
      cases p <;> first | exact .inl rfl | exact .inr rfl | exact absurd hx (by decide)
    rcases this with h | h
    · exact hp.1 h
    · exact hp.2 h

/-- a plain word can be read in one way only -/
theorem plain_unique {g g' : LexGoal} {q : Bool} {w w' x x' r r' : Str} {c c' : Content} (hp : OneWay c)
    (h1 : Trivia w (x ++ r)) (h2 : ¬ StartsTrivia (x ++ r)) (h3 : Lexeme g q x r c)
    (k1 : Trivia w' (x' ++ r')) (k2 : ¬ StartsTrivia (x' ++ r')) (k3 : Lexeme g' false x' r' c')
    (e : w ++ (x ++ r) = w' ++ (x' ++ r')) : c = c' ∧ r = r' := by
  let s : Scanner := { Scanner.new (w ++ (x ++ r)) with current := 1 }
  have e1 := Scanner.next_eq (s := s) (goal := g') rfl ⟨rfl, rfl⟩ rfl h1 h2 (plain_lexeme hp h3)
  have e2 := Scanner.next_eq (s := s) (goal := g') rfl ⟨rfl, rfl⟩ e k1 k2 k3
  obtain ⟨-, f2, -, f4, -⟩ := Scanner.step_facts (s := s) (w := w) (x := x) (r := r) (c := c) rfl ⟨rfl, rfl⟩
  obtain ⟨-, j2, -, j4, -⟩ := Scanner.step_facts (s := s) (c := c') e ⟨rfl, rfl⟩
  have hs : s.current = 1 := rfl
  rw [e1] at e2
  unfold Scanner.emit at e2
  rw [if_neg (fun h => by omega), if_neg (fun h => by omega), if_neg (fun h => by omega), if_neg (fun h => by omega)] at e2
  injection e2 with e2
  injection e2 with e2 e3
  exact ⟨token_inj e2, by rw [← f2, ← j2, e3]⟩

theorem alike_trans {q : Bool} {a b b' : Nat} (h : alike q a b) (h' : alike q a b') : alike q b b' := by
  unfold alike at *
  split at h
  · next hq => rw [if_pos hq] at h' ⊢; exact h.symm.trans h'
  · next hq => rw [if_neg hq] at h' ⊢; exact h.symm.trans h'

theorem plain_opens {c : Content} (h : OneWay c) : opens c = false := by
  cases c <;> first | rfl | exact h.elim

theorem eof_lexeme {g : LexGoal} {q : Bool} {x r : Str} (h : Lexeme g q x r .eof) : r = [] := by cases h; rfl

theorem goes_plain {a b a' : Str} {P ws : List Said} {n : Nat} {o : Bool} (hg : Goes o a P b) (ho : o = false) (hb : Begins n ws a)
    (hp : ∀ u ∈ ws, OneWay u.says) (he : ws.getLast?.map Said.says = some .eof) (hb' : Begins n ws a') : Begins n P a' := by
  induction hg generalizing n ws a' with
  | stop => exact .stop
  | @word o w x r r' g q c P h1 h2 h3 h4 hg ih =>
    generalize hA : w ++ (x ++ r) = A at hb
    have hq : q = false := by
      cases q with
      | false => rfl
      | true => exact absurd (h4 rfl) (by rw [ho]; decide)
    subst hq
    cases hb with
    | stop => cases he
    | @word _ w1 x1 r1 g1 q1 c1 b1 ws' k1 k2 k3 k4 hbr =>
      have hpc : OneWay c1 := hp _ List.mem_cons_self
      obtain ⟨rfl, rfl⟩ := plain_unique hpc k1 k2 k3 h1 h2 h3 hA.symm
      generalize hA' : a' = A' at hb'
      cases hb' with
      | @word _ w2 x2 r2 g2 q2 _ _ _ j1 j2 j3 j4 hbr' =>
        refine .word j1 j2 j3 (alike_trans k4 j4) ?_
        cases ws' with
        | nil =>
          have : c1 = .eof := by simpa using he
          subst this
          cases eof_lexeme h3
          cases eof_lexeme j3
          exact hg.begins _
        | cons u ws' =>
          exact ih (by rw [ho, plain_opens hpc]; rfl) hbr (fun v hv => hp v (List.mem_cons_of_mem _ hv)) (by simpa using he) hbr'

/-- a text made of plain words is made of the words that were read in another -/
theorem made_plain {source source' w x r b : Str} {c c0 : Content} {P ws : List Said}
    (h1 : Trivia w (x ++ r)) (h2 : ¬ StartsTrivia (x ++ r)) (e : source = w ++ (x ++ r)) (h3 : Lexeme .regExp false x r c0)
    (hg : Goes (opens c0) r P b) (hm : MadeOf c ws source) (hp : OneWay c ∧ ∀ u ∈ ws, OneWay u.says)
    (he : (c :: ws.map Said.says).getLast? = some .eof) (hm' : MadeOf c ws source') : MadeOf c0 P source' := by
  cases hm with
  | mk k1 k2 k3 hb =>
    obtain ⟨rfl, rfl⟩ := plain_unique hp.1 k1 k2 k3 h1 h2 h3 e
    cases hm' with
    | mk j1 j2 j3 hb' =>
      refine .mk j1 j2 j3 ?_
      cases ws with
      | nil =>
        have : c = .eof := by simpa using he
        subst this
        cases eof_lexeme h3
        cases eof_lexeme j3
        exact hg.begins _
      | cons u ws =>
        refine goes_plain hg (plain_opens hp.1) hb hp.2 ?_ hb'
        rw [← List.getLast?_map]
        simpa using he

theorem goes_end0 (n : Nat) : Begins n [⟨.eof, 0⟩] ([] : Str) :=
  .word (w := []) (x := []) (r := []) (goal := .div) (resume := false) .done (fun h => by simp [StartsTrivia] at h) .eof
    alike_refl .stop

theorem anyOpens_plain {o : Bool} {a b : Str} {P ws : List Said} {n : Nat} (hg : Goes o a P b) (ho : o = false) (hb : Begins n ws a)
    (hp : ∀ u ∈ ws, OneWay u.says) (he : ws.getLast?.map Said.says = some .eof) :
    anyOpens P = false ∧ ∃ n' ws', Begins n' ws' b ∧ (∀ u ∈ ws', OneWay u.says) ∧ ws'.getLast?.map Said.says = some .eof := by
  induction hg generalizing n ws with
  | stop => exact ⟨rfl, n, ws, hb, hp, he⟩
  | @word o w x r r' g q c P h1 h2 h3 h4 hg ih =>
    generalize hA : w ++ (x ++ r) = A at hb
    have hq : q = false := by
      cases q with
      | false => rfl
      | true => exact absurd (h4 rfl) (by rw [ho]; decide)
    subst hq
    cases hb with
    | stop => cases he
    | @word _ w1 x1 r1 g1 q1 c1 b1 ws' k1 k2 k3 k4 hbr =>
      have hpc : OneWay c1 := hp _ List.mem_cons_self
      obtain ⟨rfl, rfl⟩ := plain_unique hpc k1 k2 k3 h1 h2 h3 hA.symm
      have ho' : (o || opens c1) = false := by rw [ho, plain_opens hpc]; rfl
      have fin : anyOpens P = false → anyOpens (⟨c1, lineBreaks (w ++ (x ++ r1)) - lineBreaks r1⟩ :: P) = false := by
        intro h
        show (opens c1 || anyOpens P) = false
        rw [plain_opens hpc, h]; rfl
      cases ws' with
      | nil =>
        have : c1 = .eof := by simpa using he
        subst this
        have hr := eof_lexeme h3
        subst hr
        obtain ⟨a1, a2⟩ := ih ho' (n := 0) (ws := [⟨.eof, 0⟩]) (goes_end0 0) (by simp [OneWay]) rfl
        exact ⟨fin a1, a2⟩
      | cons u ws' =>
        obtain ⟨a1, a2⟩ := ih ho' hbr (fun v hv => hp v (List.mem_cons_of_mem _ hv)) (by simpa using he)
        exact ⟨fin a1, a2⟩

/-- in a text made of plain words there is always a word to be read -/
theorem not_stuck {source w x r b : Str} {c c0 : Content} {P ws : List Said}
    (h1 : Trivia w (x ++ r)) (h2 : ¬ StartsTrivia (x ++ r)) (e : source = w ++ (x ++ r)) (h3 : Lexeme .regExp false x r c0)
    (hg : Goes (opens c0) r P b) (hm : MadeOf c ws source) (hp : OneWay c ∧ ∀ u ∈ ws, OneWay u.says)
    (he : (c :: ws.map Said.says).getLast? = some .eof) : ¬ Stuck (opens c0 || anyOpens P) b := by
  cases hm with
  | mk k1 k2 k3 hb =>
    obtain ⟨rfl, rfl⟩ := plain_unique hp.1 k1 k2 k3 h1 h2 h3 e
    have key : anyOpens P = false ∧ ∃ n' ws', Begins n' ws' b ∧ (∀ u ∈ ws', OneWay u.says) ∧ ws'.getLast?.map Said.says = some .eof := by
      cases ws with
      | nil =>
        have : c = .eof := by simpa using he
        subst this
        cases eof_lexeme h3
        exact anyOpens_plain (ws := [⟨.eof, 0⟩]) hg rfl (goes_end0 0) (by simp [OneWay]) rfl
      | cons u ws =>
        refine anyOpens_plain hg (plain_opens hp.1) hb hp.2 ?_
        rw [← List.getLast?_map]
        simpa using he
    obtain ⟨a1, n', ws', hb, a2, a3⟩ := key
    rw [plain_opens hp.1, a1]
    rintro ⟨g, q, hq, hs⟩
    have hq : q = false := by
      cases q with
      | false => rfl
      | true => exact absurd (hq rfl) (by decide)
    subst hq
    cases hb with
    | stop => cases a3
    | word j1 j2 j3 j4 _ => exact hs _ _ _ _ rfl j1 j2 (plain_lexeme (a2 _ List.mem_cons_self) j3)

/-- a text made of plain words has a first word -/
theorem new_plain {source : Str} {c : Content} {ws : List Said} (hne : source ≠ []) (hm : MadeOf c ws source) (hp : OneWay c) :
    ∃ p, Parser.new source = .ok p := by
  cases hm with
  | @mk w x r g q h1 h2 h3 hb =>
    have he := Scanner.next_eq (s := Scanner.new (w ++ (x ++ r))) (goal := .regExp) rfl ⟨rfl, rfl⟩ rfl h1 h2 (plain_lexeme hp h3)
    obtain ⟨k1, k2, k3, k4, k5, k6, k7⟩ := Scanner.step_facts (s := Scanner.new (w ++ (x ++ r))) (c := c) rfl ⟨rfl, rfl⟩
    have hpos : 0 < (Scanner.step w x c (Scanner.new (w ++ (x ++ r)))).current := by
      rw [k4]
      apply Nat.pos_of_ne_zero
      intro h0
      have hw0 : w = [] := List.length_eq_zero_iff.1 (by omega)
      have hx0 : x = [] := List.length_eq_zero_iff.1 (by omega)
      have := lexeme_nil h3 hx0
      subst hw0 hx0 this
      exact hne rfl
    unfold Parser.new
    rw [he]
    unfold Scanner.emit
    rw [if_neg (fun h => by omega), if_neg (fun h => by omega)]
    exact ⟨_, rfl⟩

theorem goes_end {o : Bool} {a : Str} {P : List Said} (h : Goes o a P []) (n : Nat) : Begins n (P ++ [⟨.eof, 0⟩]) a := by
  have h0 : Goes (o || anyOpens P) ([] : Str) [⟨.eof, 0⟩] [] := .word (w := []) (x := []) (r := []) (goal := .div) (resume := false)
    .done (fun h => by simp [StartsTrivia] at h) .eof (fun h => nomatch h) .stop
  exact (h.trans h0).begins n

end Layout
end Giron

import Verif.Thm.Complete
import Verif.Thm.Tokens
/-
C32: printing and parsing.  Words can be written down so that they are read back; hence every program of the grammar is
the result of parsing some text, and so is every expression tree.
-/
namespace Giron
open Spec Grammar

/-! ### Specification: how words and expressions are written -/

namespace Spec

/-- The text of a word. -/
def textOf : Content → Str
  | .name v => v
  | .number n => spellNat 10 n.mant
  | .string v _ => spell '\'' v
  | .punct p => p.toStr
  | _ => []

/-- Words that can be written: names without escapes, natural numbers, strings, punctuators.  (Templates and regular
expressions are left out.) -/
def Plain [Env] : Content → Prop
  | .name v => ∃ c x, v = c :: x ∧ isIdentifierStart c = true ∧ (∀ d ∈ x, isIdentifierContinue d = true) ∧
      ∀ d ∈ v, isBlank d = false ∧ d ≠ '\\'
  | .number n => n.exp = 0
  | .string _ o => o = false
  | .punct p => p.toStr ∈ punctuators
  | _ => False

/-- Words are separated by a space, or by a line feed if the second is on a new line. -/
def gap (nl : Bool) : Char := if nl then '\n' else ' '

/-- The text of a sequence of words. -/
def render : List Word → Str
  | [] => []
  | w :: ws => gap w.nl :: (textOf w.c ++ render ws)

mutual
/-- Expressions. -/
inductive Ex
  | name (v : Str)
  | number (n : Nat)
  | string (v : Str)
  | array (es : Exs)
  /-- `e.v` -/
  | dot (e : Ex) (v : Str)
  /-- `e[i]` -/
  | index (e i : Ex)
  | call (f : Ex) (args : Exs)
  | unary (o : Content) (e : Ex)
  | binary (o : Content) (a b : Ex)
  | cond (a b c : Ex)
  /-- `v = e` -/
  | assign (v : Str) (e : Ex)
  /-- `e.v = e'` -/
  | assignDot (e : Ex) (v : Str) (e' : Ex)

/-- Lists of expressions. -/
inductive Exs
  | nil
  | cons (e : Ex) (es : Exs)
end

/-- The context of an expression statement in sloppy code. -/
abbrev exprCtx : Grammar.Ctx := { scriptCtx with inn := true }

/-- A name that can be used as a variable and written. -/
def Variable [Env] (v : Str) : Prop := Ref exprCtx v ∧ v ≠ cs!"async" ∧ Plain (.name v)

mutual
/-- The names are names, the operators are operators. -/
def Ex.Valid [Env] : Ex → Prop
  | .name v => Variable v
  | .number _ | .string _ => True
  | .array es => es.Valid
  | .dot e v => e.Valid ∧ PropName v ∧ Plain (.name v)
  | .index e i => e.Valid ∧ i.Valid
  | .call f args => f.Valid ∧ args.Valid
  | .unary o e => (∃ s, UnaryOp exprCtx o s) ∧ e.Valid
  | .binary o a b => ((∃ s n, BinOp exprCtx o s n) ∨ o = .punct .pow) ∧ a.Valid ∧ b.Valid
  | .cond a b c => a.Valid ∧ b.Valid ∧ c.Valid
  | .assign v e => Variable v ∧ e.Valid
  | .assignDot e v e' => e.Valid ∧ (PropName v ∧ Plain (.name v)) ∧ e'.Valid
def Exs.Valid [Env] : Exs → Prop
  | .nil => True
  | .cons e es => e.Valid ∧ es.Valid
end

/-- Parentheses around words. -/
def parens (ws : List Word) : List Word := P .lParen false :: (ws ++ [P .rParen false])

mutual
/-- The words of an expression: every operand is in parentheses. -/
def Ex.words : Ex → List Word
  | .name v => [W v false]
  | .number n => [⟨.number ⟨n, 0⟩, false⟩]
  | .string v => [⟨.string v false, false⟩]
  | .array es => P .lBracket false :: (es.words ++ [P .rBracket false])
  | .dot e v => parens e.words ++ [P .dot false, W v false]
  | .index e i => parens e.words ++ P .lBracket false :: (i.words ++ [P .rBracket false])
  | .call f args => parens f.words ++ parens args.words
  | .unary o e => ⟨o, false⟩ :: parens e.words
  | .binary o a b => parens a.words ++ ⟨o, false⟩ :: parens b.words
  | .cond a b c => parens a.words ++ P .question false :: (parens b.words ++ P .colon false :: parens c.words)
  | .assign v e => [W v false] ++ P .assign false :: parens e.words
  | .assignDot e v e' => (parens e.words ++ [P .dot false, W v false]) ++ P .assign false :: parens e'.words
/-- A list of expressions, separated by commas. -/
def Exs.words : Exs → List Word
  | .nil => []
  | .cons e .nil => e.words
  | .cons e es => e.words ++ P .comma false :: es.words
end

/-- The node for parentheses around `t`. -/
def parenNode (t : Node) : Node := .sequenceExpression [t] t.assignTargetType sp

mutual
/-- The tree of an expression. -/
def Ex.tree [Env] : Ex → Node
  | .name v => .identifier v .simple sp
  | .number n => .literal (.num ⟨n, 0⟩) (Env.showNum ⟨n, 0⟩) .invalid sp
  | .string v => .literal (.str v) v .invalid sp
  | .array es => .arrayExpression (es.trees.map fun t => some (.expression t)) .invalid sp
  | .dot e v => .staticMemberExpression false (parenNode e.tree) (.identifier v .invalid sp) .simple sp
  | .index e i => .computedMemberExpression true (parenNode e.tree) i.tree .simple sp
  | .call f args => .callExpression (parenNode f.tree) (args.trees.map .expression) .invalid sp
  | .unary o e => .unaryExpression (textOf o) (parenNode e.tree) true .invalid sp
  | .binary o a b => .binaryExpression (textOf o) (parenNode a.tree) (parenNode b.tree) .invalid sp
  | .cond a b c => .conditionalExpression (parenNode a.tree) (parenNode b.tree) (parenNode c.tree) sp
  | .assign v e => .assignmentExpression cs!"=" (.identifier v .simple sp) (parenNode e.tree) .invalid sp
  | .assignDot e v e' => .assignmentExpression cs!"="
      (.staticMemberExpression false (parenNode e.tree) (.identifier v .invalid sp) .simple sp) (parenNode e'.tree) .invalid sp
def Exs.trees [Env] : Exs → List Node
  | .nil => []
  | .cons e es => e.tree :: es.trees
end

/-- The words of a program that evaluates expressions one after the other. -/
def programWords (es : List Ex) : List Word := es.flatMap (fun e => parens e.words ++ [P .semicolon false]) ++ [⟨.eof, false⟩]

/-- The text of that program. -/
def programText (es : List Ex) : Str := render (programWords es)

/-- The tree of that program. -/
def programTree [Env] (es : List Ex) : Node :=
  .program (es.map fun e => .expressionStatement (parenNode e.tree) sp) cs!"script" sp

end Spec

/-! ### Words are read back -/

section
variable [Env]

omit [Env] in
theorem lineBreaks_append {x r : Str} (h : ∀ c ∈ x, isLineTerminator c = false) : lineBreaks (x ++ r) = lineBreaks r := by
  induction x with
  | nil => rfl
  | cons c x ih =>
    rw [List.cons_append, lineBreaks, if_neg (by simp [h c (List.mem_cons_self ..)]), Nat.zero_add,
      ih fun d hd => h d (List.mem_cons_of_mem _ hd)]

omit [Env] in
theorem lineBreaks_gap (n : Bool) (r : Str) : lineBreaks (gap n :: r) = (if n then 1 else 0) + lineBreaks r := by
  cases n
  · rfl
  · rw [lineBreaks]
    rw [if_pos ⟨rfl, by simp [gap]⟩]; rfl

omit [Env] in
theorem gap_blank (n : Bool) : isBlank (gap n) = true := by cases n <;> rfl

theorem gap_not_id (n : Bool) : isIdentifierContinue (gap n) = false := by cases n <;> rfl

omit [Env] in
theorem gap_not_punct (n : Bool) : ∀ y ∈ punctuators, gap n ∉ y := by cases n <;> decide

omit [Env] in
theorem mem_of_longer_prefix {x y r : Str} {g : Char} (h : y <+: x ++ g :: r) (hl : x.length < y.length) : g ∈ y := by
  obtain ⟨z, hz⟩ := h
  have h1 := congrArg (fun l => l[x.length]?) hz
  simp only [List.getElem?_append_left hl] at h1
  have h2 : (x ++ g :: r)[x.length]? = some g := by simp
  rw [h2] at h1
  exact List.mem_of_getElem? h1

omit [Env] in
theorem spell_no_lines (v : Str) : ∀ c ∈ spell '\'' v, isLineTerminator c = false := by
  intro c hc
  simp only [spell, List.mem_cons, List.mem_append, List.mem_flatMap, List.mem_singleton, List.not_mem_nil, or_false] at hc
  rcases hc with rfl | ⟨d, -, hd⟩ | rfl
  · rfl
  · unfold spellChar at hd
    split at hd
    · next h =>
      simp only [List.mem_cons, List.not_mem_nil, or_false] at hd
      rcases hd with rfl | rfl
      · rfl
      · rcases h with rfl | rfl <;> rfl
    · split at hd
      · revert c; decide
      · split at hd
        · revert c; decide
        · split at hd
          · revert c; decide
          · split at hd
            · revert c; decide
            · rw [List.mem_singleton] at hd
              subst hd
              simp only [isLineTerminator, Bool.or_eq_false_iff, beq_eq_false_iff_ne]
              exact ⟨⟨⟨by assumption, by assumption⟩, by assumption⟩, by assumption⟩
  · rfl

omit [Env] in
theorem spellNat_no_lines (n : Nat) : ∀ c ∈ spellNat 10 n, isLineTerminator c = false ∧ isBlank c = false ∧ c ≠ '/' := by
  intro c hc
  obtain ⟨d, hd, rfl⟩ := (spellNat_spec (radix := 10) (by decide) (by decide) n).2.1 c hc
  clear hc; revert d; decide

omit [Env] in
theorem not_trivia_of {c : Char} {x : Str} (h1 : isBlank c = false) (h2 : c ≠ '/') : ¬ StartsTrivia (c :: x) := by
  rintro (⟨d, y, h, hd⟩ | ⟨y, h⟩ | ⟨y, h⟩)
  · cases h; rw [h1] at hd; cases hd
  · cases h; exact h2 rfl
  · cases h; exact h2 rfl

/-- What the text of a word is followed by is a gap: it is read as that word. -/
theorem plain_lexeme {c : Content} (h : Plain c) (m : Bool) (r : Str) :
    (∃ goal, Lexeme goal false (textOf c) (gap m :: r) c ∧ c.fits goal = true) ∧ textOf c ≠ [] ∧
      ¬ StartsTrivia (textOf c ++ gap m :: r) ∧ ∀ d ∈ textOf c, isLineTerminator d = false := by
  cases c with
  | eof => exact h.elim
  | template => exact h.elim
  | regexp => exact h.elim
  | name v =>
    obtain ⟨c, x, rfl, h1, h2, h3⟩ := h
    have hb : ∀ d ∈ c :: x, isLineTerminator d = false := by
      intro d hd
      have := (h3 d hd).1
      unfold isBlank at this
      simp only [Bool.or_eq_false_iff] at this
      exact this.2
    refine ⟨⟨.regExp, .name h1 ?_, rfl⟩, by simp [textOf], not_trivia_of (h3 c (List.mem_cons_self ..)).1 ?_, hb⟩
    · have : ∀ y : Str, (∀ d ∈ y, isIdentifierContinue d = true) → (∀ d ∈ y, d ≠ '\\') → IdTail y (gap m :: r) y := by
        intro y
        induction y with
        | nil => intro _ _; exact .done (by intro d hd; cases hd; exact gap_not_id m)
        | cons d y ih =>
          intro a b
          exact .char (a d (List.mem_cons_self ..)) (b d (List.mem_cons_self ..))
            (ih (fun e he => a e (List.mem_cons_of_mem _ he)) fun e he => b e (List.mem_cons_of_mem _ he))
      exact this x h2 fun d hd => (h3 d (List.mem_cons_of_mem _ hd)).2
    · rintro rfl; cases h1
  | number n =>
    obtain ⟨k, e⟩ := n
    change e = 0 at h
    subst h
    have hx : spellNat 10 k ≠ [] := by rw [spellNat]; split <;> simp
    refine ⟨⟨.regExp, .number (decimal_number k ?_), rfl⟩, hx, ?_, fun d hd => (spellNat_no_lines k d hd).1⟩
    · intro d hd; cases hd; cases m <;> decide
    · change ¬ StartsTrivia (spellNat 10 k ++ _)
      have := spellNat_no_lines k
      cases e : spellNat 10 k with
      | nil => exact absurd e hx
      | cons d y => rw [e] at this; exact not_trivia_of (this d (List.mem_cons_self ..)).2.1 (this d (List.mem_cons_self ..)).2.2
  | string v o =>
    change o = false at h
    subst h
    exact ⟨⟨.regExp, .string (.inl rfl) (spell_body (.inl rfl) v _), rfl⟩, by simp [textOf, spell],
      not_trivia_of (by decide) (by decide), spell_no_lines v⟩
  | punct p =>
    have h' : p.toStr ∈ punctuators := h
    refine ⟨⟨if (Content.punct p).fits .regExp = true then .regExp else .div, ?_, ?_⟩, ?_, ?_, ?_⟩
    · refine .punct ⟨h', rfl, ?_, fun h => nomatch h⟩ ?_ (fun _ => rfl) ?_
      · intro y hy hp
        refine Nat.le_of_not_lt fun hl => ?_
        exact gap_not_punct m y hy (mem_of_longer_prefix hp hl)
      · rintro - d hd; cases hd; cases m <;> rfl
      · cases p <;> simp [Content.fits, Punctuator.toStr, textOf]
    · split
      · assumption
      · cases p <;> rfl
    · cases p <;> simp [textOf, Punctuator.toStr]
    · clear h h'
      change ¬ StartsTrivia (p.toStr ++ _)
      by_cases hp : p = .slash
      · subst hp
        rintro (⟨d, y, h, hd⟩ | ⟨y, h⟩ | ⟨y, h⟩)
        · cases h; revert hd; decide
        · cases m <;> cases h
        · cases m <;> cases h
      · cases p <;> first
          | exact absurd rfl hp
          | exact not_trivia_of (by decide) (by decide)
          | (rintro (⟨d, y, h, hd⟩ | ⟨y, h⟩ | ⟨y, h⟩) <;> cases h <;> revert hd <;> decide)
    · change ∀ d ∈ p.toStr, _
      clear h h'
      cases p <;> decide

omit [Env] in
theorem render_gap (ws : List Word) (m : Bool) : ∃ n r, render (ws ++ [⟨.eof, m⟩]) = gap n :: r := by
  cases ws with
  | nil => exact ⟨m, [], rfl⟩
  | cons w ws => exact ⟨w.nl, _, rfl⟩

theorem words_render {ws : List Word} {m : Bool} {b : List Brace} (h : ∀ w ∈ ws, Plain w.c) (hb : ∀ x ∈ b, x = Brace.lBrace) :
    Words b (render (ws ++ [⟨.eof, m⟩])) (ws ++ [⟨.eof, m⟩]) := by
  induction ws generalizing b with
  | nil =>
    have := Words.eof (b := b) (w := [gap m]) (.blank (gap_blank m) .done)
    have e : decide (0 < lineBreaks [gap m]) = m := by
      rw [lineBreaks_gap]; cases m <;> rfl
    rw [e] at this
    exact this
  | cons w ws ih =>
    obtain ⟨c, n⟩ := w
    have hc : Plain c := h _ (List.mem_cons_self ..)
    obtain ⟨k, r, hr⟩ := render_gap ws m
    obtain ⟨⟨goal, h1, h2⟩, h3, h4, h5⟩ := plain_lexeme hc k r
    have hb' : ∀ x ∈ c.braces b, x = Brace.lBrace := by
      cases c with
      | punct p =>
        cases p <;> try exact hb
        · intro x hx
          rcases List.mem_cons.1 hx with rfl | hx
          · rfl
          · exact hb x hx
        · exact fun x hx => hb x (List.mem_of_mem_tail hx)
      | template => exact hc.elim
      | _ => exact hb
    have hd : decide (b.head? = some Brace.template) = false := by
      cases b with
      | nil => rfl
      | cons x b => rw [hb x (List.mem_cons_self ..)]; rfl
    rw [← hr] at h1 h4
    have := Words.word (goal := goal) (b := b) (w := [gap n]) (x := textOf c) (r := render (ws ++ [⟨.eof, m⟩])) (c := c)
      (.blank (gap_blank n) .done) h4 (by rw [hd]; exact h1) h2 h3 (ih (fun w hw => h w (List.mem_cons_of_mem _ hw)) hb')
    have e : decide (lineBreaks (render (ws ++ [⟨.eof, m⟩])) < lineBreaks ([gap n] ++ (textOf c ++ render (ws ++ [⟨.eof, m⟩])))) = n := by
      rw [List.singleton_append, lineBreaks_gap, lineBreaks_append h5]
      cases n <;> simp
    rw [e] at this
    exact this

/-- C32: words, written one after the other, are the words of the text. -/
theorem C32_words_are_read_back {c : Content} {ws : List Word} {m : Bool} (h : ∀ w ∈ (⟨c, false⟩ :: ws : List Word), Plain w.c) :
    SourceWords (render (⟨c, false⟩ :: ws ++ [⟨.eof, m⟩])) (⟨c, false⟩ :: ws ++ [⟨.eof, m⟩]) :=
  ⟨c, false, ws ++ [⟨.eof, m⟩], words_render h (by simp), rfl⟩

/-- C32: every script of the grammar that consists of such words is the result of parsing the text of its words. -/
theorem C32_scripts_round_trip {c : Content} {ws : List Word} {m : Bool} {t : Node}
    (h : ∀ w ∈ (⟨c, false⟩ :: ws : List Word), Plain w.c) (hc : NoClash (⟨c, false⟩ :: ws ++ [⟨.eof, m⟩]))
    (hs : Script (⟨c, false⟩ :: ws ++ [⟨.eof, m⟩]) t) :
    ∃ a, parseScript (render (⟨c, false⟩ :: ws ++ [⟨.eof, m⟩])) = .ok a ∧ bareNode a = t :=
  C41_scripts_are_parsed (by simp [render]) (C32_words_are_read_back h) hc hs

/-- C32: the same for modules. -/
theorem C32_modules_round_trip {c : Content} {ws : List Word} {m : Bool} {t : Node}
    (h : ∀ w ∈ (⟨c, false⟩ :: ws : List Word), Plain w.c) (hc : NoClash (⟨c, false⟩ :: ws ++ [⟨.eof, m⟩]))
    (hs : Module (⟨c, false⟩ :: ws ++ [⟨.eof, m⟩]) t) :
    ∃ a, parseModule (render (⟨c, false⟩ :: ws ++ [⟨.eof, m⟩])) = .ok a ∧ bareNode a = t :=
  C41_modules_are_parsed (by simp [render]) (C32_words_are_read_back h) hc hs

/-! ### Expressions -/

theorem parenTarget_one (t : Node) : parenTarget [t] = t.assignTargetType := rfl

theorem paren_primary {ws : List Word} {t : Node} (h : Assign exprCtx ws t) : Primary exprCtx (parens ws) (parenNode t) :=
  .paren (.one h)

theorem variable_primary {v : Str} (h : Variable v) : Primary exprCtx [W v false] (.identifier v .simple sp) :=
  .name h.1 h.2.1

omit [Env] in
theorem unary_text {o : Content} {s : Str} (h : UnaryOp exprCtx o s) : s = textOf o := by
  cases h <;> rfl

omit [Env] in
theorem binary_text {o : Content} {s : Str} {n : Nat} (h : BinOp exprCtx o s n) : s = textOf o ∧ 0 < n ∧ n < 12 := by
  cases h with
  | punct h => refine ⟨rfl, ?_⟩; revert h; simp only [List.mem_cons, Prod.mk.injEq, List.not_mem_nil, or_false]; omega
  | _ => exact ⟨rfl, by decide⟩

theorem dot_lhs {ws : List Word} {t : Node} {v : Str} (h : Assign exprCtx ws t) (hv : PropName v) :
    LHS true exprCtx (parens ws ++ [P .dot false, W v false])
      (.staticMemberExpression false (parenNode t) (.identifier v .invalid sp) .simple sp) := by
  have := LHS.mk (Head.primary (paren_primary h)) (Many.cons (CallSuffix.member (Suffix.dot (n := false) (m := false) hv)) .nil)
  rwa [List.append_nil] at this

theorem lhs_assign {ws : List Word} {t : Node} {f : Bool} (h : LHS f exprCtx ws t) : Assign exprCtx ws t :=
  .cond (.bin (bin_to 1 (.operand (.unary (.update (.lhs h)))) (by decide) (by decide)))

theorem primary_assign {ws : List Word} {t : Node} (h : Primary exprCtx ws t) : Assign exprCtx ws t := lhs_assign (lhs_prim h)

mutual
theorem ex_assign : ∀ e : Ex, e.Valid → Assign exprCtx e.words e.tree
  | .name v, h => by
    rw [Ex.Valid] at h; rw [Ex.words, Ex.tree]
    exact primary_assign (variable_primary h)
  | .number n, _ => by rw [Ex.words, Ex.tree]; exact primary_assign .number
  | .string v, _ => by rw [Ex.words, Ex.tree]; exact primary_assign (.string (by intro h; cases h))
  | .array es, h => by
    rw [Ex.Valid] at h; rw [Ex.words, Ex.tree]
    exact primary_assign (.array (exs_holes es h))
  | .dot e v, h => by
    rw [Ex.Valid] at h; rw [Ex.words, Ex.tree]
    exact lhs_assign (dot_lhs (ex_assign e h.1) h.2.1)
  | .index e i, h => by
    rw [Ex.Valid] at h; rw [Ex.words, Ex.tree]
    have := LHS.mk (Head.primary (paren_primary (ex_assign e h.1)))
      (Many.cons (CallSuffix.member (Suffix.index (n := false) (m := false) (.assign (ex_assign i h.2)))) .nil)
    rw [List.append_nil] at this
    exact lhs_assign this
  | .call f args, h => by
    rw [Ex.Valid] at h; rw [Ex.words, Ex.tree]
    have := LHS.mk (Head.primary (paren_primary (ex_assign f h.1)))
      (Many.cons (CallSuffix.call (Args.mk (n := false) (m := false) (exs_commas args h.2))) .nil)
    rw [List.append_nil] at this
    exact lhs_assign this
  | .unary o e, h => by
    rw [Ex.Valid] at h; rw [Ex.words, Ex.tree]
    obtain ⟨⟨s, hs⟩, he⟩ := h
    have := unary_text hs
    subst this
    have := Unary.op (n := false) hs (Unary.update (Update.lhs (lhs_prim (paren_primary (ex_assign e he)))))
    exact .cond (.bin (bin_to 1 (.operand (.unary this)) (by decide) (by decide)))
  | .binary o a b, h => by
    rw [Ex.Valid] at h; rw [Ex.words, Ex.tree]
    obtain ⟨ho, ha, hb⟩ := h
    have pa := paren_primary (ex_assign a ha)
    have pb := paren_primary (ex_assign b hb)
    rcases ho with ⟨s, n, ho⟩ | rfl
    · obtain ⟨rfl, hn⟩ := binary_text ho
      exact .cond (.bin (bin_op (n := false) ho hn pa pb))
    · have := Exp.pow (n := false) (Update.lhs (lhs_prim pa)) (Exp.unary (Unary.update (Update.lhs (lhs_prim pb))))
      exact .cond (.bin (bin_to 1 (.operand this) (by decide) (by decide)))
  | .cond a b c, h => by
    rw [Ex.Valid] at h; rw [Ex.words, Ex.tree]
    exact .cond (.cond (n := false) (m := false) (bin_prim 1 (by decide) (paren_primary (ex_assign a h.1)))
      (primary_assign (paren_primary (ex_assign b h.2.1))) (primary_assign (paren_primary (ex_assign c h.2.2))))
  | .assign v e, h => by
    rw [Ex.Valid] at h; rw [Ex.words, Ex.tree]
    exact .assign (n := false) (lhs_prim (variable_primary h.1)) rfl (primary_assign (paren_primary (ex_assign e h.2)))
  | .assignDot e v e', h => by
    rw [Ex.Valid] at h; rw [Ex.words, Ex.tree]
    exact .assign (n := false) (dot_lhs (ex_assign e h.1) h.2.1.1) rfl (primary_assign (paren_primary (ex_assign e' h.2.2)))

theorem exs_holes : ∀ es : Exs, es.Valid → Holes Elem exprCtx es.words (es.trees.map fun t => some (.expression t))
  | .nil, _ => by rw [Exs.words, Exs.trees]; exact .nil
  | .cons e .nil, h => by
    rw [Exs.Valid] at h; rw [Exs.words, Exs.trees, Exs.trees]
    exact .last (.expr (ex_assign e h.1))
  | .cons e (.cons e' es), h => by
    rw [Exs.Valid] at h; rw [Exs.words, Exs.trees]
    · exact .cons (.expr (ex_assign e h.1)) (exs_holes (.cons e' es) h.2)
    · intro h; cases h

theorem exs_commas : ∀ es : Exs, es.Valid → Commas Arg exprCtx es.words (es.trees.map .expression)
  | .nil, _ => by rw [Exs.words, Exs.trees]; exact .nil
  | .cons e .nil, h => by
    rw [Exs.Valid] at h; rw [Exs.words, Exs.trees, Exs.trees]
    exact .last (.expr (ex_assign e h.1))
  | .cons e (.cons e' es), h => by
    rw [Exs.Valid] at h; rw [Exs.words, Exs.trees]
    · exact .cons (.expr (ex_assign e h.1)) (exs_commas (.cons e' es) h.2)
    · intro h; cases h
end

/-- words that clash with nothing after them -/
def quiet : Content → Bool
  | .punct .rBrace | .punct .inc | .punct .dec | .template _ _ _ _ => false
  | _ => true

omit [Env] in
theorem noClash_of_quiet {ws : List Word} (h : ∀ w ∈ ws, quiet w.c = true) : NoClash ws := by
  induction ws with
  | nil => trivial
  | cons a ws ih =>
    cases ws with
    | nil => trivial
    | cons b ws =>
      refine ⟨?_, ih fun w hw => h w (List.mem_cons_of_mem _ hw)⟩
      have := h a (List.mem_cons_self ..)
      obtain ⟨c, n⟩ := a
      cases c with
      | punct p => cases p <;> first | rfl | cases this
      | template => cases this
      | _ => rfl

/-- a word that can be written and clashes with nothing after it -/
def Good (w : Word) : Prop := Plain w.c ∧ quiet w.c = true

theorem letters_plain {v : Str} (hv : v ≠ []) (h : ∀ c ∈ v, inRange 'a' 'z' c = true) : Plain (.name v) := by
  cases v with
  | nil => exact absurd rfl hv
  | cons c x =>
    have h1 : ∀ c, inRange 'a' 'z' c = true → isIdentifierStart c = true ∧ isIdentifierContinue c = true := by
      intro c hc; simp [isIdentifierStart, isIdentifierContinue, hc]
    have h2 : ∀ c, inRange 'a' 'z' c = true → isBlank c = false ∧ c ≠ '\\' := by
      intro c hc
      simp only [inRange, Bool.and_eq_true, decide_eq_true_eq] at hc
      have h3 : 97 ≤ c.toNat ∧ c.toNat ≤ 122 := hc
      refine ⟨?_, ?_⟩
      · have ne : ∀ d : Char, (d.toNat < 97 ∨ 122 < d.toNat) → (c == d) = false := by
          intro d hd
          rw [beq_eq_false_iff_ne]; rintro rfl; omega
        simp only [isBlank, charIsWhitespace, isLineTerminator, ne ' ' (by decide), ne '\u0085' (by decide), ne '\u00A0' (by decide),
          ne '\u1680' (by decide), ne '\u2028' (by decide), ne '\u2029' (by decide), ne '\u202F' (by decide), ne '\u205F' (by decide),
          ne '\u3000' (by decide), ne '\n' (by decide), ne '\r' (by decide), Bool.or_false, Bool.false_or, Bool.or_eq_false_iff,
          Bool.and_eq_false_iff, decide_eq_false_iff_not]
        omega
      · rintro rfl; revert h3; decide
    exact ⟨c, x, rfl, (h1 c (h c (List.mem_cons_self ..))).1, fun d hd => (h1 d (h d (List.mem_cons_of_mem _ hd))).2,
      fun d hd => h2 d (h d hd)⟩

theorem unary_good {o : Content} {s : Str} (h : UnaryOp exprCtx o s) : Good ⟨o, false⟩ := by
  cases h with
  | @punct p h => refine ⟨?_, ?_⟩ <;> (simp only [List.mem_cons, List.not_mem_nil, or_false] at h; rcases h with rfl | rfl | rfl | rfl) <;> first | rfl | (change _ ∈ punctuators; decide)
  | @name v h =>
    refine ⟨?_, rfl⟩
    simp only [List.mem_cons, List.not_mem_nil, or_false] at h
    rcases h with rfl | rfl | rfl <;> exact letters_plain (by decide) (by decide)
  | await h => cases h

theorem binary_good {o : Content} {s : Str} {n : Nat} (h : BinOp exprCtx o s n) : Good ⟨o, false⟩ := by
  cases h with
  | @punct p _ h =>
    have : ∀ x ∈ [(Punctuator.logicalOr, 1), (.logicalAnd, 2), (.bitOr, 3), (.bitXor, 4), (.bitAnd, 5), (.equal, 6), (.nEqual, 6),
       (.strictEqual, 6), (.strictNEqual, 6), (.lAngle, 7), (.rAngle, 7), (.lEqual, 7), (.gEqual, 7), (.lShift, 8),
       (.rShift, 8), (.zRShift, 8), (.plus, 9), (.minus, 9), (.star, 10), (.slash, 10), (.mod, 11)],
       x.1.toStr ∈ punctuators ∧ quiet (.punct x.1) = true := by decide
    exact this _ h
  | instanceof => exact ⟨letters_plain (by decide) (by decide), rfl⟩
  | «in» _ => exact ⟨letters_plain (by decide) (by decide), rfl⟩

theorem punct_good (p : Punctuator) (h1 : p.toStr ∈ punctuators) (h2 : quiet (.punct p) = true) : Good (P p false) := ⟨h1, h2⟩

theorem name_good {v : Str} (h : Plain (.name v)) : Good (W v false) := ⟨h, rfl⟩

/-- all words can be written -/
def Goods (ws : List Word) : Prop := ∀ w ∈ ws, Good w

theorem goods_nil : Goods [] := by intro w hw; cases hw
theorem goods_cons {w : Word} {ws : List Word} (h : Good w) (h' : Goods ws) : Goods (w :: ws) := by
  intro x hx
  rcases List.mem_cons.1 hx with rfl | hx
  · exact h
  · exact h' x hx
theorem goods_append {ws ws' : List Word} (h : Goods ws) (h' : Goods ws') : Goods (ws ++ ws') := by
  intro x hx
  rcases List.mem_append.1 hx with hx | hx
  · exact h x hx
  · exact h' x hx
theorem goods_parens {ws : List Word} (h : Goods ws) : Goods (parens ws) :=
  goods_cons (punct_good _ (by decide) rfl) (goods_append h (goods_cons (punct_good _ (by decide) rfl) goods_nil))

mutual
theorem ex_goods : ∀ e : Ex, e.Valid → Goods e.words
  | .name v, h => by
    rw [Ex.Valid] at h; rw [Ex.words]
    exact goods_cons (name_good h.2.2) goods_nil
  | .number n, _ => by rw [Ex.words]; exact goods_cons ⟨rfl, rfl⟩ goods_nil
  | .string v, _ => by rw [Ex.words]; exact goods_cons ⟨rfl, rfl⟩ goods_nil
  | .array es, h => by
    rw [Ex.Valid] at h; rw [Ex.words]
    exact goods_cons (punct_good _ (by decide) rfl)
      (goods_append (exs_goods es h) (goods_cons (punct_good _ (by decide) rfl) goods_nil))
  | .dot e v, h => by
    rw [Ex.Valid] at h; rw [Ex.words]
    exact goods_append (goods_parens (ex_goods e h.1))
      (goods_cons (punct_good _ (by decide) rfl) (goods_cons (name_good h.2.2) goods_nil))
  | .index e i, h => by
    rw [Ex.Valid] at h; rw [Ex.words]
    exact goods_append (goods_parens (ex_goods e h.1)) (goods_cons (punct_good _ (by decide) rfl)
      (goods_append (ex_goods i h.2) (goods_cons (punct_good _ (by decide) rfl) goods_nil)))
  | .call f args, h => by
    rw [Ex.Valid] at h; rw [Ex.words]
    exact goods_append (goods_parens (ex_goods f h.1)) (goods_parens (exs_goods args h.2))
  | .unary o e, h => by
    rw [Ex.Valid] at h; rw [Ex.words]
    obtain ⟨⟨s, hs⟩, he⟩ := h
    exact goods_cons (unary_good hs) (goods_parens (ex_goods e he))
  | .binary o a b, h => by
    rw [Ex.Valid] at h; rw [Ex.words]
    obtain ⟨ho, ha, hb⟩ := h
    refine goods_append (goods_parens (ex_goods a ha)) (goods_cons ?_ (goods_parens (ex_goods b hb)))
    rcases ho with ⟨s, n, ho⟩ | rfl
    · exact binary_good ho
    · exact punct_good _ (by decide) rfl
  | .cond a b c, h => by
    rw [Ex.Valid] at h; rw [Ex.words]
    exact goods_append (goods_parens (ex_goods a h.1)) (goods_cons (punct_good _ (by decide) rfl)
      (goods_append (goods_parens (ex_goods b h.2.1)) (goods_cons (punct_good _ (by decide) rfl) (goods_parens (ex_goods c h.2.2)))))
  | .assign v e, h => by
    rw [Ex.Valid] at h; rw [Ex.words]
    exact goods_append (goods_cons (name_good h.1.2.2) goods_nil)
      (goods_cons (punct_good _ (by decide) rfl) (goods_parens (ex_goods e h.2)))
  | .assignDot e v e', h => by
    rw [Ex.Valid] at h; rw [Ex.words]
    exact goods_append (goods_append (goods_parens (ex_goods e h.1))
      (goods_cons (punct_good _ (by decide) rfl) (goods_cons (name_good h.2.1.2) goods_nil)))
      (goods_cons (punct_good _ (by decide) rfl) (goods_parens (ex_goods e' h.2.2)))

theorem exs_goods : ∀ es : Exs, es.Valid → Goods es.words
  | .nil, _ => by rw [Exs.words]; exact goods_nil
  | .cons e .nil, h => by
    rw [Exs.Valid] at h; rw [Exs.words]
    exact ex_goods e h.1
  | .cons e (.cons e' es), h => by
    rw [Exs.Valid] at h; rw [Exs.words]
    · exact goods_append (ex_goods e h.1) (goods_cons (punct_good _ (by decide) rfl) (exs_goods (.cons e' es) h.2))
    · intro h; cases h
end

theorem program_goods {es : List Ex} (h : ∀ e ∈ es, e.Valid) :
    Goods (es.flatMap fun e => parens e.words ++ [P .semicolon false]) := by
  intro w hw
  obtain ⟨e, he, hw⟩ := List.mem_flatMap.1 hw
  exact goods_append (goods_parens (ex_goods e (h e he))) (goods_cons (punct_good _ (by decide) rfl) goods_nil) w hw

theorem program_items {es : List Ex} (h : ∀ e ∈ es, e.Valid) (nx : Word) :
    Items Item scriptCtx (es.flatMap fun e => parens e.words ++ [P .semicolon false]) nx
      (es.map fun e => .expressionStatement (parenNode e.tree) sp) := by
  induction es with
  | nil => exact .nil
  | cons e es ih =>
    refine .cons (.stmt (.expr (.assign (primary_assign (paren_primary (ex_assign e (h e (List.mem_cons_self ..)))))) (.inl rfl) .semi))
      (ih fun e he => h e (List.mem_cons_of_mem _ he))

/-- C32: print expressions, parse the text, and get the trees of the expressions back. -/
theorem C32_expressions_round_trip {es : List Ex} (h : ∀ e ∈ es, e.Valid) (hne : es ≠ []) :
    ∃ a, parseScript (programText es) = .ok a ∧ bareNode a = programTree es := by
  have hs : Script (programWords es) (programTree es) := by
    have := Script.mk (w := []) (ws := es.flatMap fun e => parens e.words ++ [P .semicolon false]) (m := false) .nil
      (program_items h ⟨.eof, false⟩) ?_
    · exact this
    · intro v o k ws' hw
      cases es with
      | nil => exact hne rfl
      | cons e es => cases hw
  cases es with
  | nil => exact absurd rfl hne
  | cons e es =>
    have hg := program_goods h
    refine C32_scripts_round_trip (c := .punct .lParen)
      (ws := (e.words ++ [P .rParen false]) ++ [P .semicolon false] ++ es.flatMap fun e => parens e.words ++ [P .semicolon false])
      (m := false) (t := programTree (e :: es)) ?_ ?_ hs
    · intro w hw; exact (hg w hw).1
    · refine noClash_of_quiet (ws := programWords (e :: es)) ?_
      intro w hw
      rcases List.mem_append.1 hw with hw | hw
      · exact (hg w hw).2
      · rw [List.mem_singleton] at hw; subst hw; rfl

end

/-- the witness: `f((a) - (-1)).x = 'it\'s'` and `[1, b]` -/
def demoExs : List Ex :=
  [.assignDot (.call (.name cs!"f") (.cons (.binary (.punct .minus) (.name cs!"a") (.unary (.punct .minus) (.number 1))) .nil))
     cs!"x" (.string cs!"it's"), .array (.cons (.number 1) (.cons (.name cs!"b") .nil))]

example : programText demoExs = cs!" ( ( ( f ) ( ( a ) - ( - ( 1 ) ) ) ) . x = ( 'it\\'s' ) ) ; ( [ 1 , b ] ) ; " := by
  simp [programText, programWords, demoExs, Ex.words, Exs.words, parens, render, gap, textOf, spellNat, spell, spellChar,
    Punctuator.toStr, digitChar]

example : letI := ascii; ∃ a, parseScript (programText demoExs) = .ok a ∧ bareNode a = programTree demoExs := by
  letI := ascii
  have hv : ∀ v ∈ [cs!"f", cs!"a", cs!"b", cs!"x"], Variable v ∧ PropName v := by
    intro v hv
    have h1 : Plain (.name v) := by
      refine letters_plain ?_ ?_ <;> (revert v; decide)
    exact ⟨⟨by clear h1; revert v; unfold Ref PlainName; decide, by clear h1; revert v; decide, h1⟩,
      by clear h1; revert v; unfold PropName; decide⟩
  refine C32_expressions_round_trip ?_ (by simp [demoExs])
  simp only [demoExs, List.mem_cons, List.not_mem_nil, or_false, forall_eq_or_imp, forall_eq, Ex.Valid, Exs.Valid, and_true, true_and]
  refine ⟨⟨⟨(hv _ (by decide)).1, .inl ⟨_, _, .punct (p := .minus) (n := 9) (by decide)⟩, (hv _ (by decide)).1, ⟨_, .punct (p := .minus) (by decide)⟩⟩,
    (hv _ (by decide)).2, (hv _ (by decide)).1.2.2⟩, (hv _ (by decide)).1⟩

end Giron

import Verif.Proofs.Spell.Inside
import Verif.Thm.Spell
import Verif.Thm.Path
/-
C48: every part of the tree is a part of the source; line breaks and semicolons.
-/
set_option maxRecDepth 20000
namespace Giron
open Spec Lang

/-- the words of a part, and what is known of the words after it -/
theorem part_words [Env] {source : Str} {t : Node} {p : List Item} {it : Item} (h : Accepted source t) (hp : PathTo t p it) :
    ∃ before rest ms more, Lexes source (before ++ rest) ∧ Spell.item it ms ∧ Obeys before.reverse (ms ++ more) rest := by
  obtain ⟨ws, ms, hl, hf, hs⟩ := C43_tree_spells_source h
  obtain ⟨h1, h2, h3⟩ := hp
  cases p with
  | nil => cases h1
  | cons a p =>
    simp only [List.head?_cons, Option.some.injEq] at h1
    subst h1
    obtain ⟨u, v, w, rfl, hv⟩ := Spell.path_words (a := .node .program t) (ms := ms) hs h2 h3
    obtain ⟨us, vs, rfl, -, hf⟩ := hf.part
    exact ⟨us, vs, v, w, hl, hv, by simpa using hf⟩

theorem item_words [Env] {r : Role} {n : Node} {ms : List Mark} (hr : r ≠ .forInit) (h : Spell.item (.node r n) ms) :
    Spell.node n ms ∨ Spell.whole n ms := by
  cases r <;> first | exact .inl h | exact .inr h | exact absurd rfl hr

theorem item_node [Env] {r : Role} {n : Node} {ms : List Mark} (hr : r ≠ .forInit) (hn : ∀ body st sp, n ≠ .program body st sp)
    (h : Spell.item (.node r n) ms) : Spell.node n ms := by
  rcases item_words hr h with h | h
  · exact h
  · cases n <;> first | exact h.elim | exact absurd rfl (hn _ _ _)

theorem Spec.Obeys.pos {p ws : List Word} {ms : List Mark} (h : Obeys p ms ws) : ∃ w more, ws = w :: more := by
  cases h <;> exact ⟨_, _, rfl⟩

/-- C48.  Every node of the tree of an accepted source, at any depth, was read from words that follow one another in the source.
(Not the first part of `for (...;...;...)`: see `C48_for_head`.  The root has the words of a whole program.) -/
theorem C48_part_of_source [Env] {source : Str} {t n : Node} {p : List Item} {r : Role} (h : Accepted source t)
    (hp : PathTo t p (.node r n)) (hr : r ≠ .forInit) :
    ∃ before ws after ms, Lexes source (before ++ (ws ++ after)) ∧ ws.map Word.c = wordsOf ms ∧ (Spell.node n ms ∨ Spell.whole n ms) := by
  obtain ⟨before, rest, ms, more, h1, h2, h3⟩ := part_words h hp
  obtain ⟨us, vs, rfl, h4, -⟩ := h3.part
  exact ⟨before, us, vs, ms, h1, h4, item_words hr h2⟩

/-- The first part of `for (...;...;...)` is a declaration without its semicolon, or expressions. -/
theorem C48_for_head [Env] {source : Str} {t n : Node} {p : List Item} (h : Accepted source t) (hp : PathTo t p (.node .forInit n)) :
    ∃ before ws after ms, Lexes source (before ++ (ws ++ after)) ∧ ws.map Word.c = wordsOf ms ∧ Spell.forHead n ms := by
  obtain ⟨before, rest, ms, more, h1, h2, h3⟩ := part_words h hp
  obtain ⟨us, vs, rfl, h4, -⟩ := h3.part
  exact ⟨before, us, vs, ms, h1, h4, h2⟩

/-! ### Semicolons -/

/-- Statements that end with a semicolon. -/
def endsWithSemicolon : Node → Bool
  | .breakStatement .. | .continueStatement .. | .debuggerStatement .. | .doWhileStatement .. | .expressionStatement ..
  | .returnStatement .. | .throwStatement .. | .variableDeclaration .. | .exportAllDeclaration .. | .importDeclaration .. => true
  | _ => false

/-- every sequence ends with a semicolon, or where one is inserted -/
def Semi (L : Lang) : Prop := ∀ ms, L ms → ∃ ms', ms = ms' ++ [.punct .semicolon] ∨ ms = ms' ++ [.inserted]

theorem Semi.cat {A B : Lang} (h : Semi B) : Semi (A ⬝ B) := by
  rintro _ ⟨a, b, rfl, _, hb⟩
  obtain ⟨ms, h⟩ := h b hb
  exact ⟨a ++ ms, h.imp (fun h => by simp [h]) (fun h => by simp [h])⟩

theorem Semi.semi : Semi Spell.semi := fun _ h => ⟨[], h⟩

theorem endsWithSemicolon_semi [Env] {n : Node} (h : endsWithSemicolon n = true) : Semi (Spell.node n) := by
  cases n
  case breakStatement => rw [Spell.node]; exact .cat (.cat .semi)
  case continueStatement => rw [Spell.node]; exact .cat (.cat .semi)
  case returnStatement => rw [Spell.node]; exact .cat (.cat .semi)
  case throwStatement => rw [Spell.node]; exact .cat (.cat .semi)
  case debuggerStatement => rw [Spell.node]; exact .cat .semi
  case expressionStatement => rw [Spell.node]; exact .cat .semi
  case doWhileStatement => rw [Spell.node]; exact .cat (.cat (.cat (.cat (.cat (.cat .semi)))))
  case variableDeclaration => rw [Spell.node]; exact .cat (.cat .semi)
  case exportAllDeclaration => rw [Spell.node]; exact .cat (.cat (.cat (.cat .semi)))
  case importDeclaration => rw [Spell.node]; exact .cat (.cat (.cat (.cat .semi)))
  all_goals cases h

/-- A statement that needs a semicolon has one behind its other words, or the next word is `}` or on a new line, or there is
none. -/
theorem C48_semicolon [Env] {source : Str} {t n : Node} {p : List Item} {r : Role} (h : Accepted source t)
    (hp : PathTo t p (.node r n)) (hr : r ≠ .forInit) (hn : endsWithSemicolon n = true) :
    ∃ before ws w after ms, Lexes source (before ++ (ws ++ w :: after)) ∧ ws.map Word.c = wordsOf ms ∧
      (w.c = .punct .semicolon ∧ Spell.node n (ms ++ [.punct .semicolon]) ∨
        (w.c = .punct .rBrace ∨ w.c = .eof ∨ w.nl = true) ∧ Spell.node n (ms ++ [.inserted])) := by
  obtain ⟨before, rest, ms, more, h1, h2, h3⟩ := part_words h hp
  replace h2 := item_node hr (by rintro _ _ _ rfl; cases hn) h2
  obtain ⟨ms', rfl | rfl⟩ := endsWithSemicolon_semi hn _ h2
  · rw [List.append_assoc] at h3
    obtain ⟨us, vs, rfl, h4, h5⟩ := h3.part
    obtain ⟨n, vs, rfl, -⟩ := Obeys.word_inv h5
    exact ⟨before, us, _, vs, ms', h1, h4, .inl ⟨rfl, h2⟩⟩
  · rw [List.append_assoc] at h3
    obtain ⟨us, vs, rfl, h4, h5⟩ := h3.part
    obtain ⟨w, vs, rfl, h6, -⟩ := Obeys.mark_inv h5 nofun
    exact ⟨before, us, w, vs, ms', h1, h4, .inr ⟨h6, h2⟩⟩

/-! ### Restricted productions -/

/-- Statements with a keyword whose operand must begin on its line, and the keyword. -/
def restricted : Node → Option Str
  | .returnStatement (some _) _ => some cs!"return"
  | .throwStatement _ _ => some cs!"throw"
  | .breakStatement (some _) _ => some cs!"break"
  | .continueStatement (some _) _ => some cs!"continue"
  | _ => none

/-- The operand of `return`, `throw`, `break` or `continue` begins on the line of that word - unless giron has lost count. -/
theorem C48_restricted [Env] {source : Str} {t n : Node} {p : List Item} {r : Role} {k : Str} (h : Accepted source t)
    (hp : PathTo t p (.node r n)) (hr : r ≠ .forInit) (hn : restricted n = some k) :
    ∃ before nl w rest ms, Lexes source (before ++ ⟨.name k, nl⟩ :: w :: rest) ∧ wordsOf ms <+: (w :: rest).map Word.c ∧
      Spell.node n (.name k :: .joined :: ms) ∧ (w.nl = false ∨ LostCount (⟨.name k, nl⟩ :: before.reverse)) := by
  obtain ⟨before, rest, ms, more, h1, h2, h3⟩ := part_words h hp
  replace h2 := item_node hr (by rintro _ _ _ rfl; cases hn) h2
  have key : ∃ ms', ms = .name k :: .joined :: ms' := by
    cases n with
    | returnStatement a =>
      cases a with
      | none => cases hn
      | some a =>
        cases hn
        rw [Spell.node] at h2
        obtain ⟨_, _, rfl, rfl, _, _, rfl, ⟨_, _, rfl, rfl, _⟩, _⟩ := h2
        exact ⟨_, rfl⟩
    | throwStatement a =>
      cases hn
      rw [Spell.node] at h2
      obtain ⟨_, _, rfl, rfl, _, _, rfl, ⟨_, _, rfl, rfl, _⟩, _⟩ := h2
      exact ⟨_, rfl⟩
    | breakStatement a =>
      cases a with
      | none => cases hn
      | some a =>
        cases hn
        rw [Spell.node] at h2
        obtain ⟨_, _, rfl, rfl, _, _, rfl, ⟨_, _, rfl, rfl, _⟩, _⟩ := h2
        exact ⟨_, rfl⟩
    | continueStatement a =>
      cases a with
      | none => cases hn
      | some a =>
        cases hn
        rw [Spell.node] at h2
        obtain ⟨_, _, rfl, rfl, _, _, rfl, ⟨_, _, rfl, rfl, _⟩, _⟩ := h2
        exact ⟨_, rfl⟩
    | _ => cases hn
  obtain ⟨ms, rfl⟩ := key
  obtain ⟨nl, vs, rfl, h4⟩ := Obeys.word_inv h3
  obtain ⟨w, vs, rfl, h5, h6⟩ := Obeys.mark_inv h4 nofun
  obtain ⟨ws, after, h7, h8, -⟩ := h6.part
  exact ⟨before, nl, w, vs, ms, h1, ⟨after.map Word.c, by rw [h7, List.map_append, h8]⟩, h2, h5⟩

/-- `++` and `--` behind an operand are on the line on which the operand ends - unless giron has lost count. -/
theorem C48_postfix [Env] {source : Str} {t a : Node} {p : List Item} {r : Role} {op : Str} {att : ATT} {sp : Span}
    (h : Accepted source t) (hp : PathTo t p (.node r (.updateExpression op a false att sp))) (hr : r ≠ .forInit) :
    ∃ before ws w after ms pt, Lexes source (before ++ (ws ++ w :: after)) ∧ ws.map Word.c = wordsOf ms ∧ Spell.node a ms ∧
      w.c = .punct pt ∧ pt.toStr = op ∧ (w.nl = false ∨ LostCount (ws.reverse ++ before.reverse)) := by
  obtain ⟨before, rest, ms, more, h1, h2, h3⟩ := part_words h hp
  replace h2 := item_node hr (fun _ _ _ => Node.noConfusion) h2
  rw [Spell.node] at h2
  obtain ⟨ms, _, rfl, h2, _, _, rfl, rfl, c, rfl, pt, rfl, hpt⟩ := h2
  rw [List.append_assoc] at h3
  obtain ⟨ws, vs, rfl, h4, h5⟩ := h3.part
  obtain ⟨w, vs, rfl, h6, h7⟩ := Obeys.mark_inv h5 nofun
  obtain ⟨nl, vs, h8, -⟩ := Obeys.word_inv h7
  cases h8
  exact ⟨before, ws, _, vs, ms, pt, h1, h4, h2, rfl, hpt, h6⟩

/-! ### The dangling else -/

/-- Behind an `if` statement without `else` comes no `else`: it belongs to the nearest `if` that can have it. -/
theorem C48_else [Env] {source : Str} {t test body : Node} {p : List Item} {r : Role} {sp : Span} (h : Accepted source t)
    (hp : PathTo t p (.node r (.ifStatement test body none sp))) (hr : r ≠ .forInit) :
    ∃ before ws w after ms, Lexes source (before ++ (ws ++ w :: after)) ∧ ws.map Word.c = wordsOf ms ∧
      Spell.node (.ifStatement test body none sp) ms ∧ w.c ≠ .name cs!"else" := by
  obtain ⟨before, rest, ms, more, h1, h2, h3⟩ := part_words h hp
  replace h2 := item_node hr (fun _ _ _ => Node.noConfusion) h2
  have key : ∃ ms', ms = ms' ++ [.noElse] := by
    rw [Spell.node] at h2
    obtain ⟨_, _, rfl, rfl, _, _, rfl, rfl, x, _, rfl, _, _, _, rfl, rfl, y, _, rfl, _, _, _, rfl, rfl, h⟩ := h2
    cases h
    exact ⟨.name cs!"if" :: .punct .lParen :: (x ++ .punct .rParen :: y), by simp⟩
  obtain ⟨ms, rfl⟩ := key
  rw [List.append_assoc] at h3
  obtain ⟨ws, vs, rfl, h4, h5⟩ := h3.part
  obtain ⟨w, vs, rfl, h6, -⟩ := Obeys.mark_inv h5 nofun
  exact ⟨before, ws, w, vs, _, h1, by rw [h4, wordsOf_append]; simp [wordsOf], h2, h6⟩

/-! ### Witnesses -/

/-- the part is a node for which this holds -/
def isNodeWith (f : Node → Bool) : Item → Bool
  | .node r n => decide (r ≠ .forInit) && f n
  | _ => false

theorem isNodeWith_inv {f : Node → Bool} {it : Item} (h : isNodeWith f it = true) : ∃ r n, it = .node r n ∧ r ≠ .forInit ∧ f n = true := by
  cases it with
  | node r n => simp only [isNodeWith, Bool.and_eq_true, decide_eq_true_eq] at h; exact ⟨r, n, rfl, h.1, h.2⟩
  | _ => cases h

/-- An accepted source has a node at this place for which this holds. -/
theorem node_at {source : Str} {is : List Nat} {f : Node → Bool} (h : letI := ascii; reaches (parseScript source) is (isNodeWith f) = true) :
    letI := ascii; ∃ t p r n, Accepted source t ∧ PathTo t p (.node r n) ∧ r ≠ .forInit ∧ f n = true := by
  letI := ascii
  obtain ⟨t, p, it, h1, h2, h3⟩ := reaches_path h
  obtain ⟨r, n, rfl, h4, h5⟩ := isNodeWith_inv h3
  exact ⟨t, p, r, n, .inl h1, h2, h4, h5⟩

/-- Witness for `C48_part_of_source`, `C48_semicolon` and `C48_restricted`: a `return` with an operand and no semicolon, deep inside. -/
example : letI := ascii; ∃ t p r n, Accepted cs!"x = [1, function f() { return a\n}]" t ∧ PathTo t p (.node r n) ∧ r ≠ .forInit ∧
    (endsWithSemicolon n && restricted n == some cs!"return") = true :=
  node_at (is := [0, 0, 1, 1, 0, 1, 0]) (by decide +kernel)

/-- Witness for `C48_postfix`. -/
example : letI := ascii; ∃ t p r n, Accepted cs!"if (a) b++\nc" t ∧ PathTo t p (.node r n) ∧ r ≠ .forInit ∧
    (match n with | .updateExpression _ _ false _ _ => true | _ => false) = true :=
  node_at (is := [0, 1, 0]) (by decide +kernel)

/-- Witness for `C48_else`: the inner `if` has the `else`, the outer one has none. -/
example : letI := ascii; ∃ t p r n, Accepted cs!"if (a) if (b) c; else d" t ∧ PathTo t p (.node r n) ∧ r ≠ .forInit ∧
    (match n with | .ifStatement _ (.ifStatement _ _ (some _) _) none _ => true | _ => false) = true :=
  node_at (is := [0]) (by decide +kernel)

/-- Witness for `C48_for_head`. -/
example : letI := ascii; ∃ t p n, Accepted cs!"for (var i = 0; ; ) ;" t ∧ PathTo t p (.node .forInit n) := by
  letI := ascii
  have h : reaches (parseScript cs!"for (var i = 0; ; ) ;") [0, 0] (fun it => match it with | .node .forInit _ => true | _ => false) = true := by
    decide +kernel
  obtain ⟨t, p, it, h1, h2, h3⟩ := reaches_path h
  split at h3
  · exact ⟨t, p, _, .inl h1, h2⟩
  · cases h3

/-! ### What happens when giron has lost count

A statement that begins with `async`: the operand of a `return` or `throw` behind it may be on the next line. -/

/-- `return` and its operand on two lines, after `async`; other names do no harm. -/
example : letI := ascii;
    reaches (parseScript cs!"function f() { async\nreturn\na }") [0, 1, 1] (isNodeWith fun n => restricted n == some cs!"return") = true ∧
    reaches (parseScript cs!"function f() { asynx\nreturn\na }") [0, 1, 1] (isNodeWith fun n => restricted n == some cs!"return") = false ∧
    reaches (parseScript cs!"async\nthrow\na") [1] (isNodeWith fun n => restricted n == some cs!"throw") = true ∧
    reaches (parseScript cs!"asynx\nthrow\na") [1] (isNodeWith fun n => restricted n == some cs!"throw") = false :=
  letI := ascii; ⟨by decide +kernel, by decide +kernel, by decide +kernel, by decide +kernel⟩

end Giron

import Verif.Proofs.Prints
import Verif.Proofs.Spell.Obeys
import Verif.Thm.Spell
/-
C47: the JSON that JavaScript gets has all the words of the source.
-/
set_option maxRecDepth 20000
namespace Giron
open Spec Lang

/-- C47.  If JavaScript gets a tree for a source, then the words of which the source is made are words of that tree, read as
ESTree: nothing is left out, nothing is added, nothing changes its place; and they are on lines where the tree allows them to
be. -/
theorem C47_json_prints_source [Env] {source : Str} {j : Json}
    (h : wasmParseScript source = some (.tree j) ∨ wasmParseModule source = some (.tree j)) :
    ∃ L ws ms, Prints .whole j L ∧ L ms ∧ Obeys [] ms ws ∧ Lexes source ws := by
  have key : ∀ {r : Except Fail Node}, jsResult r = some (.tree j) → ∃ t, r = .ok t ∧ j = nodeJson t := fun {r} h => by
    cases r with
    | ok t => cases h; exact ⟨t, rfl, rfl⟩
    | error f => cases f <;> cases h
  rcases h with h | h
  · obtain ⟨t, ht, rfl⟩ := key h
    obtain ⟨ws, ms, hl, hf, hs⟩ := C43_tree_spells_source (.inl ht)
    exact ⟨_, ws, ms, Prints.whole_prints t, hs, hf, hl⟩
  · obtain ⟨t, ht, rfl⟩ := key h
    obtain ⟨ws, ms, hl, hf, hs⟩ := C43_tree_spells_source (.inr ht)
    exact ⟨_, ws, ms, Prints.whole_prints t, hs, hf, hl⟩

/-! ### JSON has few spellings -/

/-- what is known of the value -/
def Known (j : Json) (type : Str) (members : List (Str × Json)) : Prop := Has j type members

theorem type_eq {j : Json} {a b : Str} {l m : List (Str × Json)} (h : Known j a l) (h' : Has j b m) : a = b := by
  have := h.1.symm.trans h'.1
  cases this
  rfl

set_option maxHeartbeats 1000000
/-- An identifier is spelled by its name. -/
theorem prints_identifier [Env] {name : Str} {L : Lang} {j : Json} (h : Prints .node j L) (hj : Has j cs!"Identifier" [(cs!"name", .str name)]) :
    ∀ ws, L ws → ws = [.name name] := by
  refine @Prints.rec _ (fun s j L _ => s = .node → Known j cs!"Identifier" [(cs!"name", .str name)] → ∀ ws, L ws → ws = [.name name])
    (fun _ _ _ => True) (fun _ _ _ _ _ => True) (fun _ _ _ _ _ => True) ?nothing ?less ?_ ?_ ?_ ?_ ?binary
    ?_ ?_ ?_ ?_ ?identifier ?_ ?_ ?_ ?_ ?_ ?_ ?_ ?_
    ?_ ?_ ?_ ?_ ?_ ?_ ?_ ?_ ?_ ?_ ?_ ?_ ?_
    ?_ ?_ ?_ ?_ ?expression ?_ ?_ ?_ ?_ ?_ ?_ ?_ ?_ ?_
    ?_ ?_ ?_ ?_ ?_ ?_ ?_ ?_ ?_ ?_ ?_ ?_ ?_ ?_ ?_
    ?_ ?_ ?_ ?_ ?_ ?_ ?_ ?_ ?_
    ?_ ?_ ?_ ?_ ?_ ?_ ?_ ?program ?_ ?_ ?_ ?_ ?_ ?_
    ?_ ?_ ?_ ?_ ?_ ?_ ?_ ?_ .node j L h rfl hj
  case nothing => exact fun _ _ _ h => h.elim
  case less => exact fun _ hs ih hk hj ws hw => ih hk hj ws (hs ws hw)
  case identifier =>
    intro j name' h _ hj
    have e := h.2.1.symm.trans hj.2.1
    cases e
    exact fun _ h => h
  all_goals intros; first | trivial | contradiction | skip
  all_goals try unfold Named at *
  all_goals exact absurd (type_eq (by with_reducible assumption) (by with_reducible assumption)) (by decide)

/-- A binary expression is spelled by its left operand, its operator and its right operand. -/
theorem prints_binary [Env] {l r : Json} {op : Str} {L : Lang} {j : Json} (h : Prints .node j L) (hj : Has j cs!"BinaryExpression" [(cs!"operator", .str op), (cs!"left", l), (cs!"right", r)]) :
    ∀ ws, L ws → ∃ A B, Prints .node l A ∧ Prints .node r B ∧ (A ⬝ Spell.operator op ⬝ B) ws := by
  refine @Prints.rec _ (fun s j L _ => s = .node → Known j cs!"BinaryExpression" [(cs!"operator", .str op), (cs!"left", l), (cs!"right", r)] → ∀ ws, L ws → ∃ A B, Prints .node l A ∧ Prints .node r B ∧ (A ⬝ Spell.operator op ⬝ B) ws)
    (fun _ _ _ => True) (fun _ _ _ _ _ => True) (fun _ _ _ _ _ => True) ?nothing ?less ?_ ?_ ?_ ?_ ?binary
    ?_ ?_ ?_ ?_ ?identifier ?_ ?_ ?_ ?_ ?_ ?_ ?_ ?_
    ?_ ?_ ?_ ?_ ?_ ?_ ?_ ?_ ?_ ?_ ?_ ?_ ?_
    ?_ ?_ ?_ ?_ ?expression ?_ ?_ ?_ ?_ ?_ ?_ ?_ ?_ ?_
    ?_ ?_ ?_ ?_ ?_ ?_ ?_ ?_ ?_ ?_ ?_ ?_ ?_ ?_ ?_
    ?_ ?_ ?_ ?_ ?_ ?_ ?_ ?_ ?_
    ?_ ?_ ?_ ?_ ?_ ?_ ?_ ?program ?_ ?_ ?_ ?_ ?_ ?_
    ?_ ?_ ?_ ?_ ?_ ?_ ?_ ?_ .node j L h rfl hj
  case nothing => exact fun _ _ _ h => h.elim
  case less => exact fun _ hs ih hk hj ws hw => ih hk hj ws (hs ws hw)
  case binary =>
    intro j l' r' op' A B h h1 h2 _ _ _ hj
    have e1 := h.2.1.symm.trans hj.2.1
    have e2 := h.2.2.1.symm.trans hj.2.2.1
    have e3 := h.2.2.2.1.symm.trans hj.2.2.2.1
    cases e1; cases e2; cases e3
    exact fun ws hw => ⟨A, B, h1, h2, hw⟩
  all_goals intros; first | trivial | contradiction | skip
  all_goals try unfold Named at *
  all_goals exact absurd (type_eq (by with_reducible assumption) (by with_reducible assumption)) (by decide)

/-- A statement that is an expression is spelled by the expression and perhaps a semicolon. -/
theorem prints_statement [Env] {e : Json} {L : Lang} {j : Json} (h : Prints .node j L) (hj : Has j cs!"ExpressionStatement" [(cs!"expression", e)]) :
    ∀ ws, L ws → ∃ E, Prints .node e E ∧ (notFirst [.punct .lBrace] E ⬝ Spell.semi) ws := by
  refine @Prints.rec _ (fun s j L _ => s = .node → Known j cs!"ExpressionStatement" [(cs!"expression", e)] → ∀ ws, L ws → ∃ E, Prints .node e E ∧ (notFirst [.punct .lBrace] E ⬝ Spell.semi) ws)
    (fun _ _ _ => True) (fun _ _ _ _ _ => True) (fun _ _ _ _ _ => True) ?nothing ?less ?_ ?_ ?_ ?_ ?binary
    ?_ ?_ ?_ ?_ ?identifier ?_ ?_ ?_ ?_ ?_ ?_ ?_ ?_
    ?_ ?_ ?_ ?_ ?_ ?_ ?_ ?_ ?_ ?_ ?_ ?_ ?_
    ?_ ?_ ?_ ?_ ?expression ?_ ?_ ?_ ?_ ?_ ?_ ?_ ?_ ?_
    ?_ ?_ ?_ ?_ ?_ ?_ ?_ ?_ ?_ ?_ ?_ ?_ ?_ ?_ ?_
    ?_ ?_ ?_ ?_ ?_ ?_ ?_ ?_ ?_
    ?_ ?_ ?_ ?_ ?_ ?_ ?_ ?program ?_ ?_ ?_ ?_ ?_ ?_
    ?_ ?_ ?_ ?_ ?_ ?_ ?_ ?_ .node j L h rfl hj
  case nothing => exact fun _ _ _ h => h.elim
  case less => exact fun _ hs ih hk hj ws hw => ih hk hj ws (hs ws hw)
  case expression =>
    intro j e' E h h1 _ _ hj
    have e1 := h.2.1.symm.trans hj.2.1
    cases e1
    exact fun ws hw => ⟨E, h1, hw⟩
  all_goals intros; first | trivial | contradiction | skip
  all_goals try unfold Named at *
  all_goals exact absurd (type_eq (by with_reducible assumption) (by with_reducible assumption)) (by decide)

/-- A program is spelled by its statements. -/
theorem prints_program [Env] {ss : List Json} {L : Lang} {j : Json} (h : Prints .whole j L) (hj : Has j cs!"Program" [(cs!"body", .arr ss)]) :
    ∀ ws, L ws → ∃ S, PrintsAll .node .none ss S ∧ S ws := by
  refine @Prints.rec _ (fun s j L _ => s = .whole → Known j cs!"Program" [(cs!"body", .arr ss)] → ∀ ws, L ws → ∃ S, PrintsAll .node .none ss S ∧ S ws)
    (fun _ _ _ => True) (fun _ _ _ _ _ => True) (fun _ _ _ _ _ => True) ?nothing ?less ?_ ?_ ?_ ?_ ?binary
    ?_ ?_ ?_ ?_ ?identifier ?_ ?_ ?_ ?_ ?_ ?_ ?_ ?_
    ?_ ?_ ?_ ?_ ?_ ?_ ?_ ?_ ?_ ?_ ?_ ?_ ?_
    ?_ ?_ ?_ ?_ ?expression ?_ ?_ ?_ ?_ ?_ ?_ ?_ ?_ ?_
    ?_ ?_ ?_ ?_ ?_ ?_ ?_ ?_ ?_ ?_ ?_ ?_ ?_ ?_ ?_
    ?_ ?_ ?_ ?_ ?_ ?_ ?_ ?_ ?_
    ?_ ?_ ?_ ?_ ?_ ?_ ?_ ?program ?_ ?_ ?_ ?_ ?_ ?_
    ?_ ?_ ?_ ?_ ?_ ?_ ?_ ?_ .whole j L h rfl hj
  case nothing => exact fun _ _ _ h => h.elim
  case less => exact fun _ hs ih hk hj ws hw => ih hk hj ws (hs ws hw)
  case program =>
    intro j ss' S h h1 _ _ hj
    have e1 := h.2.1.symm.trans hj.2.1
    cases e1
    exact fun ws hw => ⟨S, h1, hw⟩
  all_goals intros; first | trivial | contradiction | skip
  all_goals try unfold Named at *
  all_goals exact absurd (type_eq (by with_reducible assumption) (by with_reducible assumption)) (by decide)

/-- If JavaScript gets a program of one statement `x - y`, then the source is made of the words `x`, `-`, `y`, in that order, and
perhaps a semicolon. -/
theorem C47_difference [Env] {source : Str} {j s e l r : Json} {x y : Str}
    (h : wasmParseScript source = some (.tree j) ∨ wasmParseModule source = some (.tree j))
    (hj : Has j cs!"Program" [(cs!"body", .arr [s])]) (hs : Has s cs!"ExpressionStatement" [(cs!"expression", e)])
    (he : Has e cs!"BinaryExpression" [(cs!"operator", .str cs!"-"), (cs!"left", l), (cs!"right", r)])
    (hl : Named l x) (hr : Named r y) :
    ∃ ws, Lexes source ws ∧ (ws.map Word.c = [.name x, .punct .minus, .name y, .eof] ∨
      ws.map Word.c = [.name x, .punct .minus, .name y, .punct .semicolon, .eof]) := by
  obtain ⟨L, ws, ms, h1, h2, h3, h0⟩ := C47_json_prints_source h
  obtain ⟨S, h4, h5⟩ := prints_program h1 hj ms h2
  cases h4 with
  | cons h6 h7 =>
  cases h7
  obtain ⟨u, v, rfl, hu, rfl⟩ := h5
  obtain ⟨E, h8, h9⟩ := prints_statement h6 hs u hu
  obtain ⟨c, d, rfl, hc, hd⟩ := h9
  obtain ⟨A, B, ha, hb, a, _, rfl, hwa, o, b, rfl, ⟨p, rfl, hp⟩, hwb⟩ := prints_binary h8 he c hc.1
  rw [prints_identifier ha hl a hwa, prints_identifier hb hr b hwb] at h3
  have e : p = .punct .minus := by
    rcases hp with ⟨p, rfl, hp⟩ | ⟨hk, rfl⟩
    · cases p <;> first | rfl | exact absurd hp (by decide)
    · exact absurd hk (by decide)
  subst e
  refine ⟨ws, h0, ?_⟩
  obtain ⟨n1, ws, rfl, k1⟩ := Obeys.word_inv h3
  obtain ⟨n2, ws, rfl, k2⟩ := Obeys.word_inv k1
  obtain ⟨n3, ws, rfl, k3⟩ := Obeys.word_inv k2
  rcases hd with rfl | rfl
  · obtain ⟨n4, ws, rfl, k4⟩ := Obeys.word_inv k3
    obtain ⟨n5, rfl⟩ := k4.nil_inv
    exact .inr rfl
  · obtain ⟨_, _, _, _, k4⟩ := Obeys.mark_inv k3 nofun
    obtain ⟨n4, rfl⟩ := k4.nil_inv
    exact .inl rfl

/-! ### Witnesses -/

/-- Witness for C47: a program for which JavaScript gets a tree. -/
example : letI := ascii; ∃ j, wasmParseScript cs!"for (var {a} in b) `x${(c) => c}y`; ({get f() {}, 'g': [, 1], [h]() {}})" = some (.tree j) := by
  letI := ascii
  obtain ⟨t, ht⟩ : ∃ t, parseScript cs!"for (var {a} in b) `x${(c) => c}y`; ({get f() {}, 'g': [, 1], [h]() {}})" = .ok t := ok_of (by decide +kernel)
  exact ⟨nodeJson t, by unfold wasmParseScript; rw [ht]; rfl⟩

/-- a program `a - b` -/
def isDifference : Option Node → Bool
  | some (.program [.expressionStatement (.binaryExpression op (.identifier a _ _) (.identifier b _ _) _ _) _] _ _) =>
    op == cs!"-" && a == cs!"a" && b == cs!"b"
  | _ => false

/-- Witness for `C47_difference`. -/
example : letI := ascii; ∃ j s e l r, wasmParseScript cs!"a - b" = some (.tree j) ∧ Has j cs!"Program" [(cs!"body", .arr [s])] ∧
    Has s cs!"ExpressionStatement" [(cs!"expression", e)] ∧
    Has e cs!"BinaryExpression" [(cs!"operator", .str cs!"-"), (cs!"left", l), (cs!"right", r)] ∧ Named l cs!"a" ∧ Named r cs!"b" := by
  letI := ascii
  have h : isDifference (result? (parseScript cs!"a - b")) = true := by decide +kernel
  unfold isDifference at h
  split at h
  · next op a _ _ b _ _ _ _ _ _ _ he =>
    simp only [Bool.and_eq_true, beq_iff_eq] at h
    obtain ⟨⟨rfl, rfl⟩, rfl⟩ := h
    have ht := congrArg jsResult (result?_eq he)
    exact ⟨_, _, _, _, _, ht, ⟨rfl, rfl, trivial⟩, ⟨rfl, rfl, trivial⟩, ⟨rfl, rfl, rfl, rfl, trivial⟩, ⟨rfl, rfl, trivial⟩, ⟨rfl, rfl, trivial⟩⟩
  · cases h

end Giron

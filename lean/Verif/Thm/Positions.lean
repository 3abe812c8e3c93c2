import Verif.Proofs.Pos.Parts
import Verif.Thm.Layout
/-
C45: the positions in a tree are positions in the source.
-/
namespace Giron
open Spec Pos

/-- C45.  Every place that the tree of an accepted source holds, of a node or of any other part, is in the source: its line
is one of the lines of the source, its index at most the length of the source. -/
theorem C45_places_are_in_the_source [Env] {source : Str} {t : Node}
    (h : parseScript source = .ok t ∨ parseModule source = .ok t) {p : List Item} {it : Item} (hp : PathTo t p it) :
    ∀ sp ∈ spans it, InSource source sp.start ∧ InSource source sp.end := by
  rcases h with h | h
  · obtain ⟨q, q1, h1, h2, -⟩ := script_inv h
    exact path_al ((inferInstance : Ks (In source) (prIn source)
      (Parser.parseScriptBody (Parser.run (Parser.depth source)))).out _ _ _ (in_new h1) h2).2 hp
  · obtain ⟨q, q1, h1, h2, -⟩ := module_inv h
    exact path_al ((inferInstance : Ks (In source) (prIn source)
      (Parser.parseModuleBody (Parser.run (Parser.depth source)))).out _ _ _ (in_new h1) h2).2 hp

/-- C45.  If no word of the source is `async`, `get` or `set`, every span in the tree begins where a word of the source
begins and ends where the same or a later word ends. -/
theorem C45_spans_are_those_of_words [Env] {source : Str} {t : Node} (hs : NeverLooksAhead source)
    (h : parseScript source = .ok t ∨ parseModule source = .ok t) {p : List Item} {it : Item} (hp : PathTo t p it) :
    ∀ sp ∈ spans it, OnWords source sp := by
  rcases h with h | h
  · obtain ⟨q, q1, h1, h2, -⟩ := script_inv h
    exact path_al ((inferInstance : Ks (On source) (prOn source)
      (Parser.parseScriptBody (Parser.run (Parser.depth source)))).out _ _ _ (on_new hs h1) h2).2 hp
  · obtain ⟨q, q1, h1, h2, -⟩ := module_inv h
    exact path_al ((inferInstance : Ks (On source) (prOn source)
      (Parser.parseModuleBody (Parser.run (Parser.depth source)))).out _ _ _ (on_new hs h1) h2).2 hp

theorem lineAt_mono {source pre x post pre' x' post' : Str} (h : source = pre ++ (x ++ post)) (h' : source = pre' ++ (x' ++ post'))
    (hl : (pre ++ x).length ≤ (pre' ++ x').length) : lineAt source post ≤ lineAt source post' := by
  unfold lineAt
  rw [← List.append_assoc] at h h'
  have : post' = post.drop ((pre' ++ x').length - (pre ++ x).length) := by
    have e : post' = source.drop (pre' ++ x').length := by rw [h']; simp
    have e' : post = source.drop (pre ++ x).length := by rw [h]; simp
    rw [e, e', List.drop_drop]
    congr 1
    omega
  have k : lineBreaks post' ≤ lineBreaks post := by
    have e : post.take ((pre' ++ x').length - (pre ++ x).length) ++ post' = post := by rw [this, List.take_append_drop]
    have := Scanner.lineBreaks_drop_le (post.take ((pre' ++ x').length - (pre ++ x).length)) post'
    rw [e] at this
    exact this
  omega

/-- C45.  If no word of the source is `async`, `get` or `set`, no span in the tree ends before it begins. -/
theorem C45_spans_are_in_order [Env] {source : Str} {t : Node} (hs : NeverLooksAhead source)
    (h : parseScript source = .ok t ∨ parseModule source = .ok t) {p : List Item} {it : Item} (hp : PathTo t p it) :
    ∀ sp ∈ spans it, sp.start.idx ≤ sp.end.idx ∧ sp.start.line ≤ sp.end.line := by
  intro sp hsp
  obtain ⟨pre, x, post, c, pre', x', post', c', h1, h2, h3, h4, h5, h6, -, h7, h8, -⟩ :=
    C45_spans_are_those_of_words hs h hp sp hsp
  refine ⟨?_, ?_⟩
  · rw [h5, h7, List.length_append]; omega
  · rw [h6, h8]; exact lineAt_mono h1.text h2.text h4

theorem idTail_plain [Env] {x r v : Str} (h : IdTail x r v) (hx : '\\' ∉ x) : v = x := by
  induction h with
  | done _ => rfl
  | char _ _ _ ih => rw [ih (fun h => hx (List.mem_cons_of_mem _ h))]
  | escape _ _ _ => exact absurd List.mem_cons_self hx

/-- C45.  When no word is `async`, `get` or `set`: for one thing, if these letters do not occur, nor a backslash. -/
theorem C45_never_looks_ahead [Env] {source : Str} (hb : '\\' ∉ source) (h1 : ¬ cs!"async" <:+: source)
    (h2 : ¬ cs!"get" <:+: source) (h3 : ¬ cs!"set" <:+: source) : NeverLooksAhead source := by
  intro pre x post c hw hc
  obtain ⟨g, q, hl⟩ := hw.lexeme
  have hx : x <:+: source := ⟨pre, post, by rw [hw.text, List.append_assoc]⟩
  have hbx : '\\' ∉ x := fun h => hb (hx.subset h)
  cases hl with
  | @name c x _ v hc' ht =>
    have e := idTail_plain ht (fun h => hbx (List.mem_cons_of_mem _ h))
    subst e
    rcases hc with hc | hc | hc <;> injection hc with hc <;> rw [hc] at hx <;> contradiction
  | _ => rcases hc with hc | hc | hc <;> cases hc

/-! ### Witnesses -/

set_option maxRecDepth 20000

/-- some span that the part holds is such a one -/
def holds (test : Span → Bool) (it : Item) : Bool := (spans it).any test

example : letI := ascii
    ∃ t p it, parseScript cs!"a +\nb" = .ok t ∧ PathTo t p it ∧ ∃ sp ∈ spans it, sp = ⟨⟨2, 2, 4⟩, ⟨2, 1, 5⟩⟩ := by
  letI := ascii
  obtain ⟨t, p, it, h1, h2, h3⟩ := has_path (e := parseScript cs!"a +\nb") (test := holds (· == ⟨⟨2, 2, 4⟩, ⟨2, 1, 5⟩⟩))
    (by decide +kernel)
  obtain ⟨sp, h4, h5⟩ := List.any_eq_true.1 h3
  exact ⟨t, p, it, h1, h2, sp, h4, by simpa using h5⟩

example : letI := ascii
    ∃ t p it, parseModule cs!"import {a as b} from 'c'" = .ok t ∧ PathTo t p it ∧ ∃ sp ∈ spans it, sp.start.idx = 13 := by
  letI := ascii
  obtain ⟨t, p, it, h1, h2, h3⟩ := has_path (e := parseModule cs!"import {a as b} from 'c'") (test := holds (·.start.idx == 13))
    (by decide +kernel)
  obtain ⟨sp, h4, h5⟩ := List.any_eq_true.1 h3
  exact ⟨t, p, it, h1, h2, sp, h4, by simpa using h5⟩

example : letI := ascii; NeverLooksAhead cs!"a + b * c" := by
  letI := ascii
  exact C45_never_looks_ahead (by decide) (by decide) (by decide) (by decide)

/-- a span of the part `it` that one of its immediate parts begins before -/
def startsLate (it : Item) : Bool :=
  (spans it).any fun sp => (children it).any fun k => (spans k).any fun sp' => sp'.start.idx < sp.start.idx

/-- C45, what is false.  In `a + b * c` the sum is said to begin at index 4, behind its first operand, which begins at 0. -/
theorem C45_spans_do_not_nest : letI := ascii
    ∃ t p it, parseScript cs!"a + b * c" = .ok t ∧ PathTo t p it ∧
      ∃ sp ∈ spans it, ∃ k ∈ children it, ∃ sp' ∈ spans k, sp'.start.idx < sp.start.idx := by
  letI := ascii
  obtain ⟨t, p, it, h1, h2, h3⟩ := has_path (e := parseScript cs!"a + b * c") (test := startsLate) (by decide +kernel)
  obtain ⟨sp, h4, h5⟩ := List.any_eq_true.1 h3
  obtain ⟨k, h6, h7⟩ := List.any_eq_true.1 h5
  obtain ⟨sp', h8, h9⟩ := List.any_eq_true.1 h7
  exact ⟨t, p, it, h1, h2, sp, h4, k, h6, sp', h8, by simpa using h9⟩

/-- the part is an identifier whose span is longer than its name -/
def tooLong : Item → Bool
  | .node _ (.identifier v _ sp) => sp.start.idx + v.length < sp.end.idx
  | _ => false

/-- C45, what is false.  The span of the name `a` in `a ; b` has the word behind it, too. -/
theorem C45_spans_run_over : letI := ascii
    ∃ t p r v att sp, parseScript cs!"a ; b" = .ok t ∧ PathTo t p (.node r (.identifier v att sp)) ∧
      sp.start.idx + v.length < sp.end.idx := by
  letI := ascii
  obtain ⟨t, p, it, h1, h2, h3⟩ := has_path (e := parseScript cs!"a ; b") (test := tooLong) (by decide +kernel)
  unfold tooLong at h3
  split at h3
  · exact ⟨t, p, _, _, _, _, h1, h2, by simpa using h3⟩
  · cases h3

/-- C45, what is false.  After a look at the word behind `async`, giron goes on with the index and line of `async`: a span
may end before it begins. -/
theorem C45_spans_out_of_order : letI := ascii
    ∃ t p it, parseScript cs!"async /* a long comment */ \n foo; d ; e" = .ok t ∧ PathTo t p it ∧
      ∃ sp ∈ spans it, sp.end.idx < sp.start.idx ∧ sp.end.line < sp.start.line := by
  letI := ascii
  obtain ⟨t, p, it, h1, h2, h3⟩ := has_path (e := parseScript cs!"async /* a long comment */ \n foo; d ; e")
    (test := holds fun sp => decide (sp.end.idx < sp.start.idx ∧ sp.end.line < sp.start.line)) (by decide +kernel)
  obtain ⟨sp, h4, h5⟩ := List.any_eq_true.1 h3
  exact ⟨t, p, it, h1, h2, sp, h4, of_decide_eq_true h5⟩

end Giron

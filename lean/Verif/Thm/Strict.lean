import Verif.Proofs.Shift.Strict
import Verif.Proofs.Shift.Directive
import Verif.Proofs.Shift.Zero
import Verif.Proofs.Complete.Feed
import Verif.Thm.Shift
import Verif.Thm.Patterns
/-
Modules are strict scripts with imports and exports.
-/
set_option maxRecDepth 20000
namespace Giron
open Spec Parser

variable [Env] {source : Str}

/-- `parse_script` (parser.rs:110-121), started in a strict context -/
def Spec.parseStrictScript (source : Str) : Except Fail Node :=
  match Parser.new source with
  | .ok p => (Parser.parseScriptBody (Parser.run (Parser.depth source)) { p with ctx := { p.ctx with strict := true } }).map Prod.fst
  | .error e => .error e

theorem Parser.R.scanners {μ : Mode} {s s' : Parser} (h : R μ s s') : Scanner.MovedBy μ.d μ.ℓ true s.scanner s'.scanner := by
  cases h; assumption

/-- the parser that is made stands in the same place as itself -/
theorem new_refl (hne : source ≠ []) {s : Parser} (h : Parser.new source = .ok s) : Parser.R ⟨0, 0, []⟩ s s := by
  rcases new_moved (w := []) (source := source) .done hne with ⟨s1, s2, h1, h2, hR⟩ | ⟨p, ⟨h1, -⟩ | ⟨h1, -⟩⟩
  · rw [h] at h1; cases h1
    rw [List.nil_append, h] at h2; cases h2
    have : prefixLines [] source = 0 := by unfold prefixLines; simp
    rw [this] at hR
    exact hR
  · rw [h] at h1; cases h1
  · rw [h] at h1; cases h1

namespace Parser
variable {L n : Nat} {c : Cx} {r : Rec} {t : Token} {s : Parser}

theorem parseScriptBody_safe (hE : RecE L r n) (hS : RecS L r n) (hs : St L c n t s) :
    Sat (ParseFail L) (parseScriptBody r) s (fun a _ => ∃ body sp, a = .program body cs!"script" sp) := by
  unfold parseScriptBody
  w_start
  refine Sat.bind (parseDirectivePrologues_sat hE hS hs) ?_
  rintro pro s ⟨t2, b, hpro, hs, ht2⟩
  w_call l hl t3
  w_end sp hsp
  exact ⟨_, _, rfl⟩

end Parser

theorem strictScript_sat (source : Str) : match parseStrictScript source with
    | .ok a => ∃ body sp, a = .program body cs!"script" sp
    | .error f => f ≠ .fuel := by
  have h := new_sat source
  unfold parseStrictScript
  cases hx : Parser.new source with
  | error f => rw [hx] at h; rcases h with h | h
               · exact fun e => by subst e; exact h
               · subst h; exact fun e => nomatch e
  | ok s =>
    rw [hx] at h
    obtain ⟨t, hs⟩ := h
    have hg := run_good (lines source) (depth source)
    have hs' : St (lines source) (Cx.init.setStrict true) (source.length + 1) t { s with ctx := { s.ctx with strict := true } } := by
      refine ⟨?_, ?_, hs.params, hs.stack, hs.size, hs.current⟩
      · obtain ⟨a, b, c, d, e⟩ := hs.inv
        exact ⟨a, b, c, d, e⟩
      · show { s.ctx with strict := true } = _
        rw [hs.ctx]
        rfl
    have := parseScriptBody_safe (hg.1 (source.length + 1) (by unfold depth; omega))
      (hg.2 (source.length + 1) (by unfold depth; omega)) hs'
    unfold Sat at this
    simp only
    split at this <;> rename_i e <;> rw [e]
    · exact this
    · intro e'; rw [e'] at this; exact this

/-- the two runs -/
theorem module_and_strict (hne : source ≠ []) :
    (∃ f f', parseModule source = .error f ∧ parseStrictScript source = .error f') ∨
    (∃ b sp, parseModule source = .ok (.program b cs!"module" sp) ∧ parseStrictScript source = .ok (.program b cs!"script" sp)) ∨
    (∃ b sp f, parseModule source = .ok (.program b cs!"module" sp) ∧ parseStrictScript source = .error f ∧
      ∃ a ∈ b, isImportExport a = true) := by
  have h0 := (C01_parsing_terminates source).2
  have h1 := strictScript_sat source
  have h4 := parseModuleState_sat source
  unfold parseModule parseModuleState at *
  unfold parseStrictScript at *
  cases hx : Parser.new source with
  | error f => rw [hx] at h0; exact .inl ⟨f, f, rfl, rfl⟩
  | ok s =>
    rw [hx] at h0 h1 h4
    dsimp only at h0 h1 h4 ⊢
    have hp : s.params = Params.new := by
      unfold Parser.new at hx; split at hx <;> cases hx; rfl
    have hR' : R ⟨0, 0, []⟩ { s with ctx := { s.ctx with strict := true } } { s with ctx := { s.ctx with strict := true } } := by
      have hm := (new_refl hne hx).scanners
      have hk : s.markerStack = [] := by
        unfold Parser.new at hx; split at hx <;> cases hx; rfl
      obtain ⟨sc, nl, cur, ctx, ps, st, ms⟩ := s
      dsimp only at hk
      subst hk
      exact R.mk (s := ⟨sc, nl, cur, { ctx with strict := true }, ps, st, []⟩) hm
    rcases body_out (r := run (depth source)) (r' := run (depth source)) bad_item rfl hR' hp with
      h2 | h2 | ⟨f, h2, h2'⟩ | ⟨b, sp', t, t', h2, h2'⟩ | ⟨⟨f, h2⟩, h3⟩
    · rw [h2] at h0; exact absurd rfl h0
    · rw [h2] at h1; exact absurd rfl h1
    · rw [h2, h2']; exact .inl ⟨_, _, rfl, rfl⟩
    · rw [h2, h2']
      refine .inr (.inl ⟨b, sp', rfl, ?_⟩)
      have : (mv 0 0 b : List Node) = b := by
        show b.map (moveNode 0 0) = b
        have : (moveNode 0 0) = id := funext moveNode_zero
        rw [this, List.map_id]
      show Except.ok (Node.program (mv 0 0 b) _ _) = _
      rw [this]
      rfl
    · rw [h2]
      cases hm : parseModuleBody (run (depth source)) s with
      | error f' => exact .inl ⟨_, _, rfl, rfl⟩
      | ok p =>
        obtain ⟨a, u⟩ := p
        rw [hm] at h4
        obtain ⟨b, sp, rfl⟩ := h4.ty
        exact .inr (.inr ⟨b, sp, f, rfl, rfl, h3 _ _ _ hm⟩)

/-- C31: a module without imports and exports is a script parsed in strict mode: what is accepted as a module is
accepted as a script started in strict mode, with the same statements, unless there is an import or an export among
them; -/
theorem C31_module_is_strict_script (hne : source ≠ []) {body : List Node} {sp : Span}
    (h : parseModule source = .ok (.program body cs!"module" sp)) (hb : ∀ a ∈ body, isImportExport a = false) :
    parseStrictScript source = .ok (.program body cs!"script" sp) := by
  rcases module_and_strict hne with ⟨f, f', h1, -⟩ | ⟨b, sp', h1, h2⟩ | ⟨b, sp', f, h1, h2, a, ha, hm⟩
  · rw [h] at h1; cases h1
  · rw [h] at h1; cases h1; exact h2
  · rw [h] at h1; cases h1; rw [hb a ha] at hm; cases hm

/-- C31: and what is accepted as a script started in strict mode is accepted as a module, with the same statements. -/
theorem C31_strict_script_is_module (hne : source ≠ []) {body : List Node} {sp : Span}
    (h : parseStrictScript source = .ok (.program body cs!"script" sp)) :
    parseModule source = .ok (.program body cs!"module" sp) := by
  rcases module_and_strict hne with ⟨f, f', -, h1⟩ | ⟨b, sp', h1, h2⟩ | ⟨b, sp', f, -, h1, -⟩
  · rw [h] at h1; cases h1
  · rw [h] at h2; cases h2; exact h1
  · rw [h] at h1; cases h1

/-- C31: a script whose first token is the string `use strict`, followed by a token that does not continue the
expression, is parsed as if it were started in strict mode. -/
theorem C31_directive_starts_strict {t t' : Token} {sc sc' : Scanner} (h1 : Scanner.next .regExp (Scanner.new source) = .ok (t, sc))
    (h2 : t.tokentype = .stringLiteral) (h3 : t.value = .str cs!"use strict") (h4 : Scanner.next .div sc = .ok (t', sc'))
    (h5 : endsDirective t') : parseScript source = parseStrictScript source := by
  have H : AtString sc sc' t t' := ⟨h2, ⟨_, h3⟩, h4, stops h5⟩
  unfold parseScript parseScriptState parseStrictScript Parser.new
  rw [h1]
  dsimp only
  have e : depth source = (2 * source.length + 5) + 1 := rfl
  rw [e]
  rw [script_string H rfl h3 ⟨false, false, false, false⟩ ⟨true, false, false, false⟩ rfl]

/-- C31: so a source that begins so is parsed alike by both entry points: what is accepted as a script is accepted as
a module, with the same statements, -/
theorem C31_use_strict_to_module {t t' : Token} {sc sc' : Scanner} (h1 : Scanner.next .regExp (Scanner.new source) = .ok (t, sc))
    (h2 : t.tokentype = .stringLiteral) (h3 : t.value = .str cs!"use strict") (h4 : Scanner.next .div sc = .ok (t', sc'))
    (h5 : endsDirective t') (hne : source ≠ []) {body : List Node} {sp : Span}
    (h : parseScript source = .ok (.program body cs!"script" sp)) :
    parseModule source = .ok (.program body cs!"module" sp) :=
  C31_strict_script_is_module hne (by rw [← C31_directive_starts_strict h1 h2 h3 h4 h5]; exact h)

/-- C31: and conversely unless there is an import or an export among them. -/
theorem C31_use_strict_to_script {t t' : Token} {sc sc' : Scanner} (h1 : Scanner.next .regExp (Scanner.new source) = .ok (t, sc))
    (h2 : t.tokentype = .stringLiteral) (h3 : t.value = .str cs!"use strict") (h4 : Scanner.next .div sc = .ok (t', sc'))
    (h5 : endsDirective t') (hne : source ≠ []) {body : List Node} {sp : Span}
    (h : parseModule source = .ok (.program body cs!"module" sp)) (hb : ∀ a ∈ body, isImportExport a = false) :
    parseScript source = .ok (.program body cs!"script" sp) := by
  rw [C31_directive_starts_strict h1 h2 h3 h4 h5]
  exact C31_module_is_strict_script hne h hb

/-- the text of such a source -/
theorem useStrict_tokens {q : Char} {w w' r : Str} (hq : q = '\'' ∨ q = '"')
    (hw : Trivia w (q :: (cs!"use strict" ++ [q]) ++ (w' ++ ';' :: r))) (hw' : Trivia w' (';' :: r)) :
    ∃ t t' sc sc', Scanner.next .regExp (Scanner.new (w ++ (q :: (cs!"use strict" ++ [q]) ++ (w' ++ ';' :: r)))) = .ok (t, sc) ∧
      t.tokentype = .stringLiteral ∧ t.value = .str cs!"use strict" ∧ Scanner.next .div sc = .ok (t', sc') ∧
      endsDirective t' := by
  have hb : StringBody q cs!"use strict" (q :: (w' ++ ';' :: r)) cs!"use strict" false := by
    have hi : ∀ (c : Char) (y v : Str) (r : Str), c ∈ cs!"use trict" → StringBody q y r v false → StringBody q (c :: y) r (c :: v) false := by
      intro c y v r hc h
      refine StringBody.item (x := [c]) (o := false) (p := false) ?_ (.char ?_ ?_) h
      · intro he
        simp only [List.head?_cons, Option.some.injEq] at he
        subst he
        rcases hq with rfl | rfl <;> exact absurd hc (by decide)
      · rintro rfl; exact absurd hc (by decide)
      · revert hc; revert c; decide
    iterate 10 (refine hi _ _ _ _ (by decide) ?_)
    exact .done
  have hn : ¬ StartsTrivia (q :: (cs!"use strict" ++ [q]) ++ (w' ++ ';' :: r)) := by
    rintro (⟨c, x, h, hc⟩ | ⟨x, h⟩ | ⟨x, h⟩)
    · cases h
      rcases hq with rfl | rfl <;> exact absurd hc (by decide)
    · cases h
    · cases h
  obtain ⟨k, i, j, sc', h1, h2, h3, h4⟩ := Complete.feed_step (g := .regExp) (Scanner.at_new _) rfl rfl hw hn
    (.string hq hb) (by intro h; exact absurd (List.append_eq_nil_iff.1 h).2 (by simp))
  have hn' : ¬ StartsTrivia ([';'] ++ r) := by
    rintro (⟨c, x, h, hc⟩ | ⟨x, h⟩ | ⟨x, h⟩)
    · cases h; exact absurd hc (by decide)
    · cases h
    · cases h
  have hp : Punct [';'] r .semicolon := by
    refine ⟨by decide, rfl, ?_, fun _ => by decide⟩
    intro y hy hpre
    have key : ∀ y ∈ punctuators, y.head? = some ';' → y.length ≤ 1 := by decide
    cases y with
    | nil => simp
    | cons c y =>
      obtain ⟨z, hz⟩ := hpre
      refine key _ hy ?_
      simp only [List.cons_append, List.cons.injEq] at hz
      rw [hz.1]; rfl
  obtain ⟨k', i', j', sc'', h1', -, -, -⟩ := Complete.feed_step (g := .div) (x := [';']) (r := r) h2 h4 h3 hw' hn'
    (.punct (p := .semicolon) hp (fun h => nomatch h) (fun h => nomatch h) (fun _ => rfl)) (by intro h; exact absurd (List.append_eq_nil_iff.1 h).2 (by simp))
  exact ⟨_, _, _, _, h1, rfl, rfl, h1', .inl ⟨rfl, rfl⟩⟩

/-- C31: in the text: a source that consists of white space and comments, the string `use strict`, further white space
and comments, a semicolon and whatever follows is accepted as a script exactly when it is accepted as a module without
imports and exports, and the statements are the same. -/
theorem C31_use_strict_text {q : Char} {w w' r : Str} (hq : q = '\'' ∨ q = '"')
    (hw : Trivia w (q :: (cs!"use strict" ++ [q]) ++ (w' ++ ';' :: r))) (hw' : Trivia w' (';' :: r))
    (hs : source = w ++ (q :: (cs!"use strict" ++ [q]) ++ (w' ++ ';' :: r))) (body : List Node) (sp : Span) :
    parseScript source = .ok (.program body cs!"script" sp) ↔
      parseModule source = .ok (.program body cs!"module" sp) ∧ ∀ a ∈ body, isImportExport a = false := by
  obtain ⟨t, t', sc, sc', h1, h2, h3, h4, h5⟩ := useStrict_tokens hq hw hw'
  rw [← hs] at h1
  have hne : source ≠ [] := by rw [hs]; simp
  constructor
  · intro h
    refine ⟨C31_use_strict_to_module h1 h2 h3 h4 h5 hne h, ?_⟩
    intro a ha
    cases hx : isImportExport a with
    | false => rfl
    | true =>
      have hp : PathTo (.program body cs!"script" sp) [.node .program (.program body cs!"script" sp), .node .stmt a] (.node .stmt a) := by
        refine ⟨rfl, ⟨?_, trivial⟩, rfl⟩
        simp only [children, nodeParts]
        exact List.mem_map_of_mem ha
      obtain ⟨-, b, sp', h', -⟩ := C16_import_export_top_level (.inl h) hp hx
      cases h'
  · rintro ⟨h, hb⟩
    exact C31_use_strict_to_script h1 h2 h3 h4 h5 hne h hb

/-! ### Witnesses -/

/-- C31: a module without imports -/
example : letI := ascii; ∃ b sp, parseModule cs!"let a = b; f(a)" = .ok (.program b cs!"module" sp) ∧
    (∀ a ∈ b, isImportExport a = false) ∧ parseStrictScript cs!"let a = b; f(a)" = .ok (.program b cs!"script" sp) := by
  letI := ascii
  have hc : (match parseModule cs!"let a = b; f(a)" with
    | .ok (.program b ty _) => decide (ty = cs!"module") && b.all (fun a => !isImportExport a) && decide (b.length = 2)
    | _ => false) = true := by decide +kernel
  cases hx : parseModule cs!"let a = b; f(a)" with
  | error f => rw [hx] at hc; cases hc
  | ok t =>
    rw [hx] at hc
    cases t <;> try (cases hc; done)
    rename_i b ty sp
    simp only [Bool.and_eq_true, decide_eq_true_eq, List.all_eq_true, Bool.not_eq_true'] at hc
    obtain ⟨⟨rfl, hb⟩, -⟩ := hc
    exact ⟨b, sp, rfl, hb, C31_module_is_strict_script (by decide) hx hb⟩

/-- C31: the module with an import is not a script -/
example : letI := ascii; failure? (parseScript cs!"'use strict'; import {a} from 'm'") ≠ none ∧
    (result? (parseModule cs!"'use strict'; import {a} from 'm'")).isSome = true := by
  letI := ascii
  constructor <;> decide +kernel

/-- C31: a source of this form -/
example : letI := ascii; ∃ b sp, parseScript cs!" 'use strict' ; let a = b" = .ok (.program b cs!"script" sp) ∧
    parseModule cs!" 'use strict' ; let a = b" = .ok (.program b cs!"module" sp) ∧ b.length = 2 := by
  letI := ascii
  have hc : (match parseScript cs!" 'use strict' ; let a = b" with
    | .ok (.program b ty _) => decide (ty = cs!"script") && decide (b.length = 2)
    | _ => false) = true := by decide +kernel
  cases hx : parseScript cs!" 'use strict' ; let a = b" with
  | error f => rw [hx] at hc; cases hc
  | ok t =>
    rw [hx] at hc
    cases t <;> try (cases hc; done)
    rename_i b ty sp
    simp only [Bool.and_eq_true, decide_eq_true_eq] at hc
    obtain ⟨rfl, hb⟩ := hc
    refine ⟨b, sp, rfl, ?_, hb⟩
    exact ((C31_use_strict_text (q := '\'') (w := cs!" ") (w' := cs!" ") (r := cs!" let a = b") (.inl rfl)
      (.blank (by decide) .done) (.blank (by decide) .done) rfl b sp).1 hx).1

/-- C31: the directive changes what is accepted -/
example : letI := ascii; failure? (parseScript cs!"'use strict'; with (a) b") ≠ none ∧
    (result? (parseScript cs!"'use other'; with (a) b")).isSome = true := by
  letI := ascii
  constructor <;> decide +kernel

end Giron

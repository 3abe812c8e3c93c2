import Verif.Proofs.Marks.Walk
import Verif.Proofs.Why.Module
import Verif.Thm.Reasons
/-
C59: what it takes for the stack of positions to be found empty.
-/
set_option maxRecDepth 20000
namespace Giron
open Spec

theorem new_no_span [Env] {source : Str} {p : PanicSite} (h : Parser.new source = .error (.panic p)) : p ≠ .spanStack := by
  unfold Parser.new at h
  cases hn : Scanner.next .regExp (Scanner.new source) with
  | ok x => rw [hn] at h; cases h
  | error f =>
    rw [hn] at h
    cases f with
    | err e => cases h; exact fun e => by cases e
    | panic q => cases h; exact fun e => by subst e; exact Marks.Nsp.out (m := Scanner.next .regExp) _ hn
    | fuel => cases h

theorem no_span_of_plain [Env] {source : Str} [Marks.Plain source] : ¬ Rejected source (.panic .spanStack) := by
  rintro (h | h)
  · unfold parseScript parseScriptState at h
    cases hp : Parser.new source with
    | error f =>
      rw [hp] at h
      cases h
      exact new_no_span hp rfl
    | ok p =>
      rw [hp] at h
      obtain ⟨w, hw⟩ := Why.here_new (R := ⟨source, true⟩) hp
      have := (Marks.at_parseScriptBody (src := source) (r := Parser.run (Parser.depth source))).out p ⟨_, _, hw⟩ (Nat.zero_le _)
      cases hb : Parser.parseScriptBody (Parser.run (Parser.depth source)) p with
      | ok x => dsimp only at h; rw [hb] at h; cases h
      | error f => dsimp only at h; rw [hb] at h; cases h; exact this.1 hb
  · unfold parseModule parseModuleState at h
    cases hp : Parser.new source with
    | error f =>
      rw [hp] at h
      cases h
      exact new_no_span hp rfl
    | ok p =>
      rw [hp] at h
      obtain ⟨w, hw⟩ := Why.here_new (R := ⟨source, true⟩) hp
      have := (Marks.at_parseModuleBody (src := source) (r := Parser.run (Parser.depth source))).out p ⟨_, _, hw⟩ (Nat.zero_le _)
      cases hb : Parser.parseModuleBody (Parser.run (Parser.depth source)) p with
      | ok x => dsimp only at h; rw [hb] at h; cases h
      | error f => dsimp only at h; rw [hb] at h; cases h; exact this.1 hb

/-- C59.  If parsing panics because the stack of positions is empty, the source begins with words the last of which is `new`, or
is `++` or `--` without a line break before it. -/
theorem C59_empty_stack_has_a_cause [Env] {source : Str} (h : Rejected source (.panic .spanStack)) :
    ∃ past w text, OpensWith source (w :: past).reverse text ∧ Endangers past w := by
  refine Classical.byContradiction fun hn => ?_
  have : Marks.Plain source := ⟨fun past w text ho he => hn ⟨past, w, text, ho, he⟩⟩
  exact no_span_of_plain h

theorem punct_text [Env] {goal : LexGoal} {resume : Bool} {x r : Str} {p : Punctuator} (h : Lexeme goal resume x r (.punct p)) :
    p.toStr = x := by
  cases h with
  | punct hp => exact hp.2.1

/-- C59, for example.  A source in which there is no backslash, and in which the letters `new`, `++` and `--` do not occur. -/
theorem C59_plain_text [Env] {source : Str} (hb : '\\' ∉ source) (h1 : ¬ cs!"new" <:+: source) (h2 : ¬ cs!"++" <:+: source)
    (h3 : ¬ cs!"--" <:+: source) : ¬ Rejected source (.panic .spanStack) := by
  intro h
  obtain ⟨past, w, text, ho, he⟩ := C59_empty_stack_has_a_cause h
  obtain ⟨g, q, x, r, hx, hl⟩ := (opensWith_word ho).2 w (by simp)
  rcases he with hc | ⟨hc | hc, _⟩
  · rw [hc] at hl
    cases hl with
    | @name c x _ v hc' ht =>
      have e := idTail_plain ht (fun h => hb (hx.subset (List.mem_cons_of_mem _ h)))
      subst e
      exact h1 hx
  · rw [hc] at hl
    rw [← punct_text hl] at hx
    exact h2 hx
  · rw [hc] at hl
    rw [← punct_text hl] at hx
    exact h3 hx

/-- the hypotheses of the example are met by a source with most kinds of expressions -/
example : letI := ascii; (failure? (parseScript cs!"x = [a + b * c ** d, f(g)(h).i, j ? k : (l, m) => n, {o: p, get q(){}}]")) = none := by
  decide +kernel

/-- C59.  It does happen, for each of the three causes. -/
theorem C59_causes_occur : letI := ascii;
    Rejected cs!"class A extends new B {}" (.panic .spanStack) ∧
    Rejected cs!"a++ + b++*c++ + b++*c++ + b++*c++" (.panic .spanStack) ∧
    Rejected cs!"a-- + b--*c-- + b--*c-- + b--*c--" (.panic .spanStack) := by
  letI := ascii
  refine ⟨.inl (failure?_eq ?_), .inl (failure?_eq ?_), .inl (failure?_eq ?_)⟩ <;> decide +kernel

end Giron

import Verif.Thm.Causes
import Verif.Thm.Marks
import Verif.Thm.Outcome
/-
C61: the words that giron cannot read without a panic.
-/
set_option maxRecDepth 20000
namespace Giron
open Spec Parser

/-- C61.  If parsing panics at a template that does not end, there is a backquote in the source, and after some words of the source
there is such a template. -/
theorem C61_unterminated_template [Env] {source : Str} (h : Rejected source (.panic .unterminatedTemplate)) : Unterminated source := by
  rcases h with h | h
  · exact script_owed (by simp [Cause.Watched]) h
  · exact module_owed (by simp [Cause.Watched]) h

/-- C61, a consequence.  A source without a backquote. -/
theorem C61_no_backquote [Env] {source : Str} (h : '`' ∉ source) : ¬ Rejected source (.panic .unterminatedTemplate) :=
  fun hr => h (C61_unterminated_template hr).1

theorem body_not_first [Env] {source : Str} {p : Parser} (hp : Parser.new source = .ok p) :
    parseScriptBody (run (depth source)) p ≠ .error (.panic .firstToken) ∧
    parseModuleBody (run (depth source)) p ≠ .error (.panic .firstToken) := by
  have h := new_sat source
  rw [hp] at h
  obtain ⟨t, hs⟩ := h
  have hg := run_good (lines source) (depth source)
  have h1 := parseScriptBody_sat (hg.1 (source.length + 1) (by unfold depth; omega))
    (hg.2 (source.length + 1) (by unfold depth; omega)) hs rfl
  have h2 := parseModuleBody_sat (hg.1 (source.length + 1) (by unfold depth; omega))
    (hg.2 (source.length + 1) (by unfold depth; omega)) hs rfl
  unfold Sat at h1 h2
  constructor
  · intro e; rw [e] at h1; exact h1
  · intro e; rw [e] at h2; exact h2

theorem first_token_next [Env] {source : Str} (h : Rejected source (.panic .firstToken)) :
    ∃ e, Scanner.next .regExp (Scanner.new source) = .error (.err e) := by
  have hs := new_sat source
  cases hn : Scanner.next .regExp (Scanner.new source) with
  | ok x =>
    obtain ⟨t, sc⟩ := x
    have hp : ∃ p, Parser.new source = .ok p := by unfold Parser.new; rw [hn]; exact ⟨_, rfl⟩
    obtain ⟨p, hp⟩ := hp
    have hb := body_not_first hp
    rcases h with h | h
    · unfold parseScript parseScriptState at h
      rw [hp] at h
      cases hx : parseScriptBody (run (depth source)) p with
      | ok x => dsimp only at h; rw [hx] at h; cases h
      | error f => dsimp only at h; rw [hx] at h; cases h; exact absurd hx hb.1
    · unfold parseModule parseModuleState at h
      rw [hp] at h
      cases hx : parseModuleBody (run (depth source)) p with
      | ok x => dsimp only at h; rw [hx] at h; cases h
      | error f => dsimp only at h; rw [hx] at h; cases h; exact absurd hx hb.2
  | error f =>
    cases f with
    | err e => exact ⟨e, rfl⟩
    | panic q =>
      have hp : Parser.new source = .error (.panic q) := by unfold Parser.new; rw [hn]
      have hr := Scanner.scanFresh_sat (L := lines source) (s := Scanner.new source) (by simp [Pos, Scanner.new, lines]) .regExp
      have e : Scanner.next .regExp (Scanner.new source) = Scanner.scanFresh .regExp (Scanner.new source) := rfl
      unfold Sat at hr
      rw [← e, hn] at hr
      have hq : q ≠ .firstToken := by
        rintro rfl
        rcases hr with ⟨h, _⟩ | h | ⟨h, _⟩ <;> cases h
      rcases h with h | h
      · unfold parseScript parseScriptState at h; rw [hp] at h; cases h; exact absurd rfl hq
      · unfold parseModule parseModuleState at h; rw [hp] at h; cases h; exact absurd rfl hq
    | fuel =>
      rw [show Parser.new source = .error .fuel by unfold Parser.new; rw [hn]] at hs
      rcases hs with hs | hs
      · exact hs.elim
      · cases hs

/-- C61.  If the first token makes giron panic, the source does not begin with a word of JavaScript. -/
theorem C61_first_token [Env] {source : Str} (h : Rejected source (.panic .firstToken)) : ¬ BeginsWithWord source := by
  rintro ⟨w, x, r, c, h1, h2, h3, h4⟩
  obtain ⟨e, he⟩ := first_token_next h
  rw [Scanner.next_eq (s := Scanner.new source) rfl ⟨rfl, rfl⟩ h1 h2 h3 h4] at he
  unfold Scanner.emit at he
  split at he <;> cases he

/-- C61.  And if it does not begin with one, giron panics (where arithmetic is not checked): at the first token, or at a template
that does not end. -/
theorem C61_no_first_word [Env] {source : Str} (hc : Env.checked = false) (h : ¬ BeginsWithWord source) :
    parseScript source = .error (.panic .firstToken) ∧ parseModule source = .error (.panic .firstToken) ∨
    (parseScript source = .error (.panic .unterminatedTemplate) ∧ parseModule source = .error (.panic .unterminatedTemplate) ∧
      ∃ w body v, source = w ++ '`' :: body ∧ Trivia w ('`' :: body) ∧ TemplateBody body [] v) := by
  have both : ∀ {q : PanicSite}, Parser.new source = .error (.panic q) →
      parseScript source = .error (.panic q) ∧ parseModule source = .error (.panic q) := by
    intro q hq
    unfold parseScript parseScriptState parseModule parseModuleState
    rw [hq]
    exact ⟨rfl, rfl⟩
  have hr := Scanner.scanFresh_sat (L := lines source) (s := Scanner.new source) (by simp [Pos, Scanner.new, lines]) .regExp
  have e : Scanner.next .regExp (Scanner.new source) = Scanner.scanFresh .regExp (Scanner.new source) := rfl
  unfold Sat at hr
  rw [← e] at hr
  cases hn : Scanner.next .regExp (Scanner.new source) with
  | ok x =>
    obtain ⟨t, sc⟩ := x
    obtain ⟨w, x, r, c, h1, h2, h3, h4⟩ := Scanner.next_inv (s := Scanner.new source) rfl hn
    exact absurd ⟨w, x, r, c, h1, h2, h3, h4⟩ h
  | error f =>
    rw [hn] at hr
    cases f with
    | err e => exact .inl (both (by unfold Parser.new; rw [hn]))
    | fuel => exact hr.elim
    | panic q =>
      rcases hr with ⟨_, hr⟩ | hr | ⟨_, hr⟩
      · rw [hc] at hr; cases hr
      · subst hr
        obtain ⟨_, hw⟩ := first_word_fails hn (by simp [Cause.Watched])
        have := both (q := .unterminatedTemplate) (by unfold Parser.new; rw [hn])
        exact .inr ⟨this.1, this.2, hw⟩
      · rw [hc] at hr; cases hr

/-- C61, with C02, C59 and C60.  Where arithmetic is not checked: a script that begins with a word, in which there is no backslash,
no backquote and no closing bracket, and in which the letters `new`, `++`, `--`, `async`, `import`, `class` and `use strict` do not
occur, does not make giron panic, unless giron asks for the span of an expression that has none. -/
theorem C61_plain_scripts [Env] {source : Str} {p : PanicSite} (hc : Env.checked = false) (hw : BeginsWithWord source)
    (h1 : '\\' ∉ source) (h2 : '`' ∉ source) (h3 : ']' ∉ source) (h4 : ¬ cs!"new" <:+: source) (h5 : ¬ cs!"++" <:+: source)
    (h6 : ¬ cs!"--" <:+: source) (h7 : ¬ cs!"async" <:+: source) (h8 : ¬ cs!"import" <:+: source) (h9 : ¬ cs!"class" <:+: source)
    (h10 : ¬ cs!"use strict" <:+: source) (h : parseScript source = .error (.panic p)) : p = .exprSpan := by
  have four : p ∉ wordPanics := fun hp => C60_plain_text hp h1 h7 h8 h9 h10 h3 h
  rcases C02_panics_only_at_known_sites (.inl h) with hp | ⟨hp, _⟩
  · simp only [List.mem_cons, List.not_mem_nil, or_false] at hp
    rcases hp with rfl | rfl | rfl | rfl | rfl | rfl | rfl | rfl
    · exact absurd hw (C61_first_token (.inl h))
    · exact absurd (.inl h) (C61_no_backquote h2)
    · exact absurd (by simp) four
    · exact absurd (by simp) four
    · exact absurd (.inl h) (C59_plain_text h1 h4 h5 h6)
    · rfl
    · exact absurd (by simp) four
    · exact absurd (by simp) four
  · rw [hc] at hp; cases hp

/-- a script to which this applies, and the hypothesis about the first word -/
example : letI := ascii; BeginsWithWord cs!"/* a */ var b = {c: (d) => d * 2}, e = f(b)" := by
  letI := ascii
  cases hn : Scanner.next .regExp (Scanner.new cs!"/* a */ var b = {c: (d) => d * 2}, e = f(b)") with
  | error f =>
    have : (failure? (Scanner.next .regExp (Scanner.new cs!"/* a */ var b = {c: (d) => d * 2}, e = f(b)"))).isNone = true := by
      decide +kernel
    rw [hn] at this
    cases this
  | ok x =>
    obtain ⟨t, sc⟩ := x
    obtain ⟨w, x, r, c, h1, h2, h3, h4⟩ := Scanner.next_inv (s := Scanner.new _) rfl hn
    exact ⟨w, x, r, c, h1, h2, h3, h4⟩

/-- C61.  Both happen, at the beginning of the source and later, and after a substitution. -/
theorem C61_they_happen : letI := ascii;
    Rejected cs!"/* */ 'abc" (.panic .firstToken) ∧
    Rejected cs!"#" (.panic .firstToken) ∧
    Rejected cs!"`abc" (.panic .unterminatedTemplate) ∧
    Rejected cs!"f(a) + b`c\\`" (.panic .unterminatedTemplate) ∧
    Rejected cs!"a`b${c}d$" (.panic .unterminatedTemplate) := by
  letI := ascii
  refine ⟨.inl (failure?_eq ?_), .inl (failure?_eq ?_), .inl (failure?_eq ?_), .inl (failure?_eq ?_), .inl (failure?_eq ?_)⟩ <;> decide +kernel

end Giron

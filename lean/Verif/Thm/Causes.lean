import Verif.Proofs.Cause.Walk
import Verif.Thm.Reasons
/-
C60: on what words giron panics.
-/
set_option maxRecDepth 20000
namespace Giron
open Spec

/-- the first word: the scanner fails -/
theorem first_word_fails [Env] {source : Str} {f : Fail} (h : Scanner.next .regExp (Scanner.new source) = .error f) (hf : Cause.Watched f) :
    f = .panic .unterminatedTemplate ∧ ∃ w body v, source = w ++ '`' :: body ∧ Trivia w ('`' :: body) ∧ TemplateBody body [] v := by
  obtain ⟨e, _, w, b, body, v, h1, h2, h3, h4⟩ := Cause.next_runs h hf
  rcases h3 with rfl | ⟨_, h3⟩
  · exact ⟨e, w, body, v, h1, h2, h4⟩
  · cases h3

theorem new_owed [Env] {source : Str} {m : Bool} {p : PanicSite} (h : Parser.new source = .error (.panic p))
    (hp : Cause.Watched (.panic p)) : Cause.Owed ⟨source, m⟩ p := by
  unfold Parser.new at h
  cases hn : Scanner.next .regExp (Scanner.new source) with
  | ok x => rw [hn] at h; cases h
  | error f =>
    rw [hn] at h
    cases f with
    | err e => cases h; exact hp.elim
    | panic q =>
      cases h
      obtain ⟨e, w, body, v, h1, h2, h3⟩ := first_word_fails hn hp
      cases e
      exact ⟨by rw [h1]; simp, [], source, .nil, w, '`', body, v, h1, h2, .inl rfl, h3⟩
    | fuel => cases h

theorem new_mind [Env] {source : Str} {q : Parser} (h : Parser.new source = .ok q) : Cause.Mind source q.scanner := by
  unfold Parser.new at h
  cases hn : Scanner.next .regExp (Scanner.new source) with
  | ok x =>
    obtain ⟨t, sc⟩ := x
    rw [hn] at h
    cases h
    exact (Cause.mind_next ⟨⟨rfl, rfl⟩, List.suffix_refl _, fun _ h => by cases h⟩ hn).1
  | error f => rw [hn] at h; cases f <;> cases h

theorem script_owed [Env] {source : Str} {p : PanicSite} (hp : Cause.Watched (.panic p)) (h : parseScript source = .error (.panic p)) :
    Cause.Owed ⟨source, false⟩ p := by
  unfold parseScript parseScriptState at h
  cases hn : Parser.new source with
  | error f => rw [hn] at h; cases h; exact new_owed hn hp
  | ok q =>
    rw [hn] at h
    obtain ⟨w, hw⟩ := Why.here_new (R := ⟨source, false⟩) hn
    have hm := new_mind hn
    have := (Cause.al_parseScriptBody (R := ⟨source, false⟩) (r := Parser.run (Parser.depth source))).out q ⟨_, _, hw, hm⟩
    cases hb : Parser.parseScriptBody (Parser.run (Parser.depth source)) q with
    | ok x => dsimp only at h; rw [hb] at h; cases h
    | error f => dsimp only at h; rw [hb] at h; cases h; exact this.bad p hb hp

theorem module_owed [Env] {source : Str} {p : PanicSite} (hp : Cause.Watched (.panic p)) (h : parseModule source = .error (.panic p)) :
    Cause.Owed ⟨source, true⟩ p := by
  unfold parseModule parseModuleState at h
  cases hn : Parser.new source with
  | error f => rw [hn] at h; cases h; exact new_owed hn hp
  | ok q =>
    rw [hn] at h
    obtain ⟨w, hw⟩ := Why.here_new (R := ⟨source, true⟩) hn
    have hm := new_mind hn
    have := (Cause.al_parseModuleBody (R := ⟨source, true⟩) (r := Parser.run (Parser.depth source)) rfl).out q ⟨_, _, hw, hm⟩
    cases hb : Parser.parseModuleBody (Parser.run (Parser.depth source)) q with
    | ok x => dsimp only at h; rw [hb] at h; cases h
    | error f => dsimp only at h; rw [hb] at h; cases h; exact this.bad p hb hp

/-- the panics spoken of -/
abbrev wordPanics : List PanicSite := [.tokenNotStr, .invalidPunctuator, .importString, .unreachableArm 2965]

/-- C60.  A panic of one of these kinds, while a script is parsed, has its cause in the words with which the source begins. -/
theorem C60_script_panics_have_causes [Env] {source : Str} {p : PanicSite} (hp : p ∈ wordPanics)
    (h : parseScript source = .error (.panic p)) : Caused source false p := by
  simp only [wordPanics, List.mem_cons, List.not_mem_nil, or_false] at hp
  rcases hp with rfl | rfl | rfl | rfl <;> exact script_owed (by simp [Cause.Watched]) h

/-- C60, for modules. -/
theorem C60_module_panics_have_causes [Env] {source : Str} {p : PanicSite} (hp : p ∈ wordPanics)
    (h : parseModule source = .error (.panic p)) : Caused source true p := by
  simp only [wordPanics, List.mem_cons, List.not_mem_nil, or_false] at hp
  rcases hp with rfl | rfl | rfl | rfl <;> exact module_owed (by simp [Cause.Watched]) h

/-- C60, a consequence.  A script in which `import` is not a word before a string does not make giron panic at an import. -/
theorem C60_needs_import [Env] {source : Str} (h : Rejected source (.panic .importString)) :
    ∃ past n v o m text, OpensWith source (⟨.string v o, m⟩ :: ⟨.name cs!"import", n⟩ :: past).reverse text := by
  have key : ∀ b, Caused source b .importString →
      ∃ past n v o m text, OpensWith source (⟨.string v o, m⟩ :: ⟨.name cs!"import", n⟩ :: past).reverse text := by
    rintro b ⟨past, ⟨c, m⟩, text, h1, ⟨n, more, rfl⟩, v, o, hc⟩
    cases hc
    exact ⟨more, n, v, o, m, text, h1⟩
  rcases h with h | h
  · exact key _ (C60_script_panics_have_causes (by simp) h)
  · exact key _ (C60_module_panics_have_causes (by simp) h)

/-- a word in a text without backslashes -/
theorem word_in_text [Env] {source : Str} {ws : List Word} {text v : Str} {w : Word} (hb : '\\' ∉ source)
    (ho : OpensWith source ws text) (hw : w ∈ ws) (hc : w.c = .name v) : v <:+: source := by
  obtain ⟨g, q, x, r, hx, hl⟩ := (opensWith_word ho).2 w hw
  rw [hc] at hl
  cases hl with
  | @name c x _ v hc' ht =>
    have e := idTail_plain ht (fun h => hb (hx.subset (List.mem_cons_of_mem _ h)))
    subst e
    exact hx

theorem punct_in_text [Env] {source : Str} {ws : List Word} {text : Str} {w : Word} {p : Punctuator}
    (ho : OpensWith source ws text) (hw : w ∈ ws) (hc : w.c = .punct p) : p.toStr <:+: source := by
  obtain ⟨g, q, x, r, hx, hl⟩ := (opensWith_word ho).2 w hw
  rw [hc] at hl
  cases hl with
  | punct hp => rw [hp.2.1]; exact hx

theorem string_in_text [Env] {source : Str} {ws : List Word} {text v : Str} {o : Bool} {w : Word} (hb : '\\' ∉ source)
    (ho : OpensWith source ws text) (hw : w ∈ ws) (hc : w.c = .string v o) : v <:+: source := by
  obtain ⟨g, q, x, r, hx, hl⟩ := (opensWith_word ho).2 w hw
  rw [hc] at hl
  cases hl with
  | @string d x _ v o hq hs =>
    have e := stringBody_plain hs (fun h => hb (hx.subset (List.mem_cons_of_mem _ (List.mem_append_left _ h))))
    subst e
    exact List.IsInfix.trans ⟨[d], [d], by simp⟩ hx

/-- C60, for example.  A script without a backslash, in which the letters `async`, `import`, `class` and `use strict` do not
occur, and no closing bracket, does not make giron panic in one of these ways. -/
theorem C60_plain_text [Env] {source : Str} {p : PanicSite} (hp : p ∈ wordPanics) (hb : '\\' ∉ source)
    (h1 : ¬ cs!"async" <:+: source) (h2 : ¬ cs!"import" <:+: source) (h3 : ¬ cs!"class" <:+: source)
    (h4 : ¬ cs!"use strict" <:+: source) (h5 : ']' ∉ source) : parseScript source ≠ .error (.panic p) := by
  intro h
  obtain ⟨past, w, text, ho, hc⟩ := C60_script_panics_have_causes hp h
  simp only [wordPanics, List.mem_cons, List.not_mem_nil, or_false] at hp
  rcases hp with rfl | rfl | rfl | rfl
  · rcases hc.2 with h | ⟨u, hu, he⟩ | ⟨u, hu, o, he⟩
    · cases h
    · exact h3 (word_in_text hb ho (by simpa using (List.mem_cons.1 hu).symm) he)
    · exact h4 (string_in_text hb ho (by simpa using (List.mem_cons.1 hu).symm) he)
  · obtain ⟨n, more, e⟩ := hc.1
    exact h1 (word_in_text (w := ⟨.name cs!"async", n⟩) hb ho (by simp [e]) rfl)
  · obtain ⟨n, more, e⟩ := hc.1
    exact h2 (word_in_text (w := ⟨.name cs!"import", n⟩) hb ho (by simp [e]) rfl)
  · obtain ⟨n, more, e⟩ := hc.2.1
    have := punct_in_text (w := ⟨.punct .rBracket, n⟩) (p := .rBracket) ho (by simp [e]) rfl
    exact h5 (this.subset (by decide))

/-- the hypotheses of the example are met by a source with most kinds of statements -/
example : letI := ascii; (failure? (parseScript cs!"var {a, b: c} = null; if (a) { while (5) f(7, 'x') } else { switch (b) { case 1: break } }")) =
    none := by decide +kernel

/-- C60.  They all happen. -/
theorem C60_causes_occur : letI := ascii;
    Rejected cs!"class 5 {}" (.panic .tokenNotStr) ∧
    Rejected cs!"'use strict'; function null(){}" (.panic .tokenNotStr) ∧
    Rejected cs!"async + 1" (.panic .invalidPunctuator) ∧
    Rejected cs!"import 'x'" (.panic .importString) ∧
    Rejected cs!"var {[x]} = 1" (.panic (.unreachableArm 2965)) := by
  letI := ascii
  refine ⟨.inl (failure?_eq ?_), .inl (failure?_eq ?_), .inl (failure?_eq ?_), .inr (failure?_eq ?_), .inl (failure?_eq ?_)⟩ <;> decide +kernel

end Giron

import Verif.Thm.Positions
/-
C46: errors are about words of the source.
-/
namespace Giron
open Spec Pos

theorem script_err_inv [Env] {source : Str} {e : Error} (h : parseScript source = .error (.err e)) :
    ∃ p, Parser.new source = .ok p ∧ Parser.parseScriptBody (Parser.run (Parser.depth source)) p = .error (.err e) := by
  unfold parseScript at h
  cases hs : parseScriptState source with
  | ok x => rw [hs] at h; cases h
  | error f =>
    rw [hs] at h
    cases h
    unfold parseScriptState at hs
    split at hs
    · next p hp => exact ⟨p, hp, hs⟩
    · next f hp =>
      cases hs
      unfold Parser.new at hp
      split at hp
      · cases hp
      · cases hp
      · next e' hne _ => cases hp; exact absurd rfl (hne e)

theorem module_err_inv [Env] {source : Str} {e : Error} (h : parseModule source = .error (.err e)) :
    ∃ p, Parser.new source = .ok p ∧ Parser.parseModuleBody (Parser.run (Parser.depth source)) p = .error (.err e) := by
  unfold parseModule at h
  cases hs : parseModuleState source with
  | ok x => rw [hs] at h; cases h
  | error f =>
    rw [hs] at h
    cases h
    unfold parseModuleState at hs
    split at hs
    · next p hp => exact ⟨p, hp, hs⟩
    · next f hp =>
      cases hs
      unfold Parser.new at hp
      split at hp
      · cases hp
      · cases hp
      · next e' hne _ => cases hp; exact absurd rfl (hne e)

/-- C46.  What an error calls an unexpected word is a word of the source. -/
theorem C46_unexpected_words_are_words [Env] {source v : Str} {e : Error} (h : Rejected source (.err e))
    (hv : e.errortype = .unexpectedToken v) : ∃ pre x post c, IsWord source pre x post c ∧ v = shown c := by
  rcases h with h | h
  · obtain ⟨q, h1, h2⟩ := script_err_inv h
    exact (inferInstance : Ks (In source) (prIn source)
      (Parser.parseScriptBody (Parser.run (Parser.depth source)))).bad _ _ (in_new h1) h2 v hv
  · obtain ⟨q, h1, h2⟩ := module_err_inv h
    exact (inferInstance : Ks (In source) (prIn source)
      (Parser.parseModuleBody (Parser.run (Parser.depth source)))).bad _ _ (in_new h1) h2 v hv

/-- C46.  If no word of the source is `async`, `get` or `set`, every error is at a word of the source, which is the word
that it calls unexpected, if any, or it is where a text begins that is not a word. -/
theorem C46_errors_are_at_words [Env] {source : Str} {e : Error} (hs : NeverLooksAhead source)
    (h : Rejected source (.err e)) : AtWord source e ∨ NotAWord source e := by
  rcases h with h | h
  · obtain ⟨q, h1, h2⟩ := script_err_inv h
    exact (inferInstance : Ks (On source) (prOn source)
      (Parser.parseScriptBody (Parser.run (Parser.depth source)))).bad _ _ (on_new hs h1) h2
  · obtain ⟨q, h1, h2⟩ := module_err_inv h
    exact (inferInstance : Ks (On source) (prOn source)
      (Parser.parseModuleBody (Parser.run (Parser.depth source)))).bad _ _ (on_new hs h1) h2

/-! ### Witnesses -/

set_option maxRecDepth 20000

/-- the closing bracket is on the second line; the column is its length plus one -/
example : letI := ascii; Rejected cs!"a\n )" (.err ⟨2, 2, .unexpectedToken cs!")"⟩) := by
  letI := ascii
  exact .inl (failure?_eq (by decide +kernel))

example : letI := ascii; NeverLooksAhead cs!"a\n )" := by
  letI := ascii
  exact C45_never_looks_ahead (by decide) (by decide) (by decide) (by decide)

/-- an error that names no word -/
example : letI := ascii; Rejected cs!"a\n + (1 = 2)" (.err ⟨2, 2, .invalidLhsInAssignment⟩) := by
  letI := ascii
  exact .inl (failure?_eq (by decide +kernel))

/-- a string without an end; the column counts a character behind the end -/
example : letI := ascii; Rejected cs!"a = 'b" (.err ⟨1, 4, .invalidOrUnexpectedToken⟩) := by
  letI := ascii
  exact .inl (failure?_eq (by decide +kernel))

example : letI := ascii; Rejected cs!"a #" (.err ⟨1, 1, .invalidOrUnexpectedToken⟩) := by
  letI := ascii
  exact .inl (failure?_eq (by decide +kernel))

/-- C46, a curiosity.  At the end of the source the word `null`, which is not there, is called unexpected. -/
theorem C46_the_end_is_called_null : letI := ascii;
    Rejected cs!"(a" (.err ⟨1, 1, .unexpectedToken cs!"null"⟩) ∧ ¬ cs!"null" <:+: cs!"(a" := by
  letI := ascii
  exact ⟨.inl (failure?_eq (by decide +kernel)), by decide⟩

end Giron

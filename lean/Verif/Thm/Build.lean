import Verif.Proofs.Build.Walk
import Verif.Model.Json
import Verif.Thm.Witness
/-
C58: the build does not matter.  A build has tables of Unicode, with or without checks of overflow; the result of a run depends
on little of it.
-/
namespace Giron
open Spec

/-- the run panics with an arithmetic overflow: of the value of an escape (scanner.rs:212), of the end of a token
(scanner.rs:1007) or of the last index of an array (estree.rs:1265) -/
def Overflows {α : Type} (run : Except Fail α) : Prop :=
  ∃ p ∈ [PanicSite.escOverflow, .tokenEndUnderflow, .arrayLenUnderflow], run = .error (.panic p)

/-- the two builds write numbers in the same way, and their tables agree on the characters of the text that are not ASCII -/
structure SameText (a b : Env) (source : Str) : Prop where
  numbers : b.showNum = a.showNum
  starts : ∀ c ∈ source, 128 ≤ c.toNat → b.idStart c = a.idStart c
  parts : ∀ c ∈ source, 128 ≤ c.toNat → b.idContinue c = a.idContinue c

theorem Build.Burst.overflows {α : Type} {e o : Env} {x : Except Fail (α × Parser)} (h : Build.Burst e o x) :
    (e.checked = true ∧ o.checked = false) ∧ Overflows (x.map Prod.fst) := by
  cases x with
  | ok y => exact h.elim
  | error f =>
    cases f with
    | panic p =>
      refine ⟨h.1, p, ?_, rfl⟩
      have := h.2
      cases p <;> simp_all [PanicSite.overflow]
    | _ => exact h.elim

theorem Build.runs_agree {a b : Env} {source : Str} (hs : SameText a b source)
    (hc : (a.checked = true ∧ b.checked = false) ∨ (b.checked = a.checked ∧ b.usizeMax = a.usizeMax)) :
    ((a.checked = true ∧ b.checked = false) ∧ Overflows (@parseScript a source) ∨ @parseScript b source = @parseScript a source) ∧
    ((a.checked = true ∧ b.checked = false) ∧ Overflows (@parseModule a source) ∨ @parseModule b source = @parseModule a source) := by
  obtain ⟨st, ct, sh, ck, um, pr⟩ := b
  obtain ⟨h1, h2, h3⟩ := hs
  dsimp only at h1 h2 h3
  subst h1
  have h : Build.Agree a (other a st ct ck um pr) source := ⟨hc, fun c hc hn => ⟨h2 c hc hn, h3 c hc hn⟩⟩
  constructor
  · rcases Build.scriptState_agree h with h | h
    · exact .inl h.overflows
    · exact .inr (congrArg (Except.map Prod.fst) h)
  · rcases Build.moduleState_agree h with h | h
    · exact .inl h.overflows
    · exact .inr (congrArg (Except.map Prod.fst) h)

/-- C58: a build with checks of overflow panics with an overflow, or the build without does exactly the same: the same tree, the
same error, the same panic. -/
theorem C58_debug_and_release_agree {debug release : Env} {source : Str} (hd : debug.checked = true) (hr : release.checked = false)
    (hs : SameText debug release source) :
    (Overflows (@parseScript debug source) ∨ @parseScript release source = @parseScript debug source) ∧
    (Overflows (@parseModule debug source) ∨ @parseModule release source = @parseModule debug source) := by
  have := Build.runs_agree hs (.inl ⟨hd, hr⟩)
  exact ⟨this.1.imp_left And.right, this.2.imp_left And.right⟩

/-- C58: so what the debug build accepts, the release build accepts, with the same tree; and what it rejects with an error, the
release build rejects with the same error at the same place. -/
theorem C58_release_keeps_the_outcome {debug release : Env} {source : Str} (hd : debug.checked = true) (hr : release.checked = false)
    (hs : SameText debug release source) :
    (∀ t, @parseScript debug source = .ok t → @parseScript release source = .ok t) ∧
    (∀ x, @parseScript debug source = .error (.err x) → @parseScript release source = .error (.err x)) ∧
    (∀ t, @parseModule debug source = .ok t → @parseModule release source = .ok t) ∧
    (∀ x, @parseModule debug source = .error (.err x) → @parseModule release source = .error (.err x)) := by
  have := C58_debug_and_release_agree hd hr hs
  refine ⟨fun t ht => ?_, fun x hx => ?_, fun t ht => ?_, fun x hx => ?_⟩
  · rcases this.1 with ⟨p, _, h⟩ | h
    · rw [ht] at h; cases h
    · rw [h, ht]
  · rcases this.1 with ⟨p, _, h⟩ | h
    · rw [hx] at h; cases h
    · rw [h, hx]
  · rcases this.2 with ⟨p, _, h⟩ | h
    · rw [ht] at h; cases h
    · rw [h, ht]
  · rcases this.2 with ⟨p, _, h⟩ | h
    · rw [hx] at h; cases h
    · rw [h, hx]

/-- C58: of the tables of Unicode, only the entries of the characters of the text that are not ASCII matter. -/
theorem C58_only_the_characters_of_the_text {a b : Env} {source : Str} (hc : b.checked = a.checked) (hu : b.usizeMax = a.usizeMax)
    (hs : SameText a b source) :
    @parseScript b source = @parseScript a source ∧ @parseModule b source = @parseModule a source := by
  have := Build.runs_agree hs (.inr ⟨hc, hu⟩)
  constructor
  · rcases this.1 with ⟨⟨h1, h2⟩, _⟩ | h
    · rw [hc, h1] at h2; cases h2
    · exact h
  · rcases this.2 with ⟨⟨h1, h2⟩, _⟩ | h
    · rw [hc, h1] at h2; cases h2
    · exact h

/-- C58: a text of ASCII characters is parsed without the tables of Unicode, whatever they are. -/
theorem C58_ascii_needs_no_tables {a b : Env} {source : Str} (hc : b.checked = a.checked) (hu : b.usizeMax = a.usizeMax)
    (hn : b.showNum = a.showNum) (hs : ∀ c ∈ source, c.toNat < 128) :
    @parseScript b source = @parseScript a source ∧ @parseModule b source = @parseModule a source :=
  C58_only_the_characters_of_the_text hc hu
    ⟨hn, fun c h h' => absurd (hs c h) (Nat.not_lt.2 h'), fun c h h' => absurd (hs c h) (Nat.not_lt.2 h')⟩

/-- C58: what JavaScript gets is the same, too, from two builds that also agree on which characters are printed as they are in the
text of an error. -/
theorem C58_javascript_gets_the_same {a b : Env} {source : Str} (hc : b.checked = a.checked) (hu : b.usizeMax = a.usizeMax)
    (hp : b.printable = a.printable) (hs : SameText a b source) :
    @wasmParseScript b source = @wasmParseScript a source ∧ @wasmParseModule b source = @wasmParseModule a source := by
  have h := C58_only_the_characters_of_the_text hc hu hs
  have hj : ∀ x, @jsResult b x = @jsResult a x := by
    obtain ⟨st, ct, sh, ck, um, pr⟩ := b
    obtain ⟨h1, _, _⟩ := hs
    dsimp only at h1 hp
    subst h1 hp
    intro x
    rfl
  unfold wasmParseScript wasmParseModule
  rw [h.1, h.2, hj, hj]
  exact ⟨rfl, rfl⟩

/-- a build with checks of overflow, and with a table in which `é` starts and continues identifiers -/
@[reducible] def accents (checked : Bool) : Env :=
  { ascii with idStart := fun c => c.isAlpha || c == 'é', idContinue := fun c => c.isAlphanum || c == 'é', checked }

/-- C58: the builds do what the theorems say, on a text with a letter that is not ASCII; -/
theorem C58_release_keeps_the_outcome_applies :
    (accents true).checked = true ∧ (accents false).checked = false ∧ SameText (accents true) (accents false) cs!"let é = aé + 1" ∧
      ∃ t, @parseScript (accents true) cs!"let é = aé + 1" = .ok t ∧ @parseScript (accents false) cs!"let é = aé + 1" = .ok t := by
  refine ⟨rfl, rfl, ⟨rfl, fun _ _ _ => rfl, fun _ _ _ => rfl⟩, ?_⟩
  have h : (result? (@parseScript (accents true) cs!"let é = aé + 1")).isSome = true := by decide +kernel
  obtain ⟨t, ht⟩ := Option.isSome_iff_exists.1 h
  have ht := result?_eq ht
  exact ⟨t, ht, (C58_release_keeps_the_outcome (debug := accents true) (release := accents false) rfl rfl
    ⟨rfl, fun _ _ _ => rfl, fun _ _ _ => rfl⟩).1 t ht⟩

/-- C58: the exception for overflow is needed: the debug build panics, where the release build accepts the text or rejects it with an
error; -/
theorem C58_overflow_is_an_exception :
    @parseScript asciiChecked cs!"a = '\\u{fffffffff}'" = .error (.panic .escOverflow) ∧
    (∃ x, @parseScript ascii cs!"a = '\\u{fffffffff}'" = .error (.err x)) ∧
    @parseScript asciiChecked cs!"([]) => 1" = .error (.panic .arrayLenUnderflow) ∧
    (∃ t, @parseScript ascii cs!"([]) => 1" = .ok t) ∧
    @parseScript asciiChecked cs!"" = .error (.panic .tokenEndUnderflow) ∧
    (∃ t, @parseScript ascii cs!"" = .ok t) := by
  refine ⟨failure?_eq ?_, ?_, failure?_eq ?_, ?_, failure?_eq ?_, ?_⟩
  · decide +kernel
  · have h : (match failure? (@parseScript ascii cs!"a = '\\u{fffffffff}'") with | some (.err x) => some x | _ => none).isSome = true := by
      decide +kernel
    cases hf : failure? (@parseScript ascii cs!"a = '\\u{fffffffff}'") with
    | none => rw [hf] at h; cases h
    | some f =>
      cases f with
      | err x => exact ⟨x, failure?_eq hf⟩
      | _ => rw [hf] at h; cases h
  · decide +kernel
  · have h : (result? (@parseScript ascii cs!"([]) => 1")).isSome = true := by decide +kernel
    obtain ⟨t, ht⟩ := Option.isSome_iff_exists.1 h
    exact ⟨t, result?_eq ht⟩
  · decide +kernel
  · have h : (result? (@parseScript ascii cs!"")).isSome = true := by decide +kernel
    obtain ⟨t, ht⟩ := Option.isSome_iff_exists.1 h
    exact ⟨t, result?_eq ht⟩

/-- C58: and so is the agreement of the tables: a letter that only one table has is part of a name in one build, and an error in the
other. -/
theorem C58_tables_matter :
    (∃ t, @parseScript (accents false) cs!"a = é" = .ok t) ∧
    (∃ f, @parseScript ascii cs!"a = é" = .error f) := by
  constructor
  · have h : (result? (@parseScript (accents false) cs!"a = é")).isSome = true := by decide +kernel
    obtain ⟨t, ht⟩ := Option.isSome_iff_exists.1 h
    exact ⟨t, result?_eq ht⟩
  · have h : (failure? (@parseScript ascii cs!"a = é")).isSome = true := by decide +kernel
    obtain ⟨t, ht⟩ := Option.isSome_iff_exists.1 h
    exact ⟨t, failure?_eq ht⟩

end Giron

import Verif.Model.Json
import Verif.Proofs.Errors
import Verif.Thm.Witness
/-
C49: the text of an error tells which error it is.
-/
set_option maxRecDepth 20000
namespace Giron
open Spec

/-- C49: two errors with the same message (`to_string()`) are of the same kind, and about the same token if they are about
one. -/
theorem C49_message_tells_kind [Env] (e f : Error) (h : e.display = f.display) : e.errortype = f.errortype := display_inj h

/-- C49: and what is inside the message is the text of the token, as it is. -/
theorem C49_message_of_token (e : Error) (s : Str) : e.display = cs!"Unexpected token " ++ s ↔ e.errortype = .unexpectedToken s := by
  constructor
  · intro h
    exact display_inj (f := ⟨e.line, e.col, .unexpectedToken s⟩) h
  · intro h
    simp only [Error.display, h]

/-- C49: two errors with the same `{:?}` text are the same: line, column, kind and token can be read back from it. -/
theorem C49_text_tells_error [Env] (e f : Error) (h : e.debug = f.debug) : e = f := debug_inj h

/-- What JavaScript gets from `parseScript` (`parseModule` with `module = true`). -/
def jsParse [Env] (module : Bool) (source : Str) : Option JsResult :=
  if module then wasmParseModule source else wasmParseScript source
/-- What Rust gets. -/
def rustParse [Env] (module : Bool) (source : Str) : Except Fail Node :=
  if module then parseModule source else parseScript source

theorem jsParse_eq [Env] (module : Bool) (source : Str) : jsParse module source = jsResult (rustParse module source) := by
  cases module <;> rfl

/-- C49: JavaScript gets a string just when there is an error, and it gets a tree just when there is a tree. -/
theorem C49_js_string [Env] (module : Bool) (source s : Str) :
    jsParse module source = some (.text s) ↔ ∃ e, rustParse module source = .error (.err e) ∧ s = e.debug := by
  rw [jsParse_eq]
  unfold jsResult
  split
  · rename_i t h
    simp [h]
  · rename_i e h
    rw [h]
    refine ⟨fun x => ?_, fun x => ?_⟩
    · cases x
      exact ⟨e, rfl, rfl⟩
    · obtain ⟨f, hf, rfl⟩ := x
      cases hf
      rfl
  · rename_i f h1 h2
    refine ⟨fun x => (by cases x), fun x => ?_⟩
    obtain ⟨e, he, _⟩ := x
    rw [h2] at he
    cases he
    exact absurd rfl (h1 e)

theorem C49_js_tree [Env] (module : Bool) (source : Str) :
    (∃ j, jsParse module source = some (.tree j)) ↔ ∃ t, rustParse module source = .ok t := by
  rw [jsParse_eq]
  unfold jsResult
  split <;> simp_all

/-- C49: JavaScript can tell the errors apart: equal strings from two calls mean equal errors in Rust. -/
theorem C49_js_tells_error [Env] {module module' : Bool} {source source' s : Str}
    (h : jsParse module source = some (.text s)) (h' : jsParse module' source' = some (.text s)) :
    ∃ e, rustParse module source = .error (.err e) ∧ rustParse module' source' = .error (.err e) := by
  obtain ⟨e, he, hs⟩ := (C49_js_string _ _ _).1 h
  obtain ⟨f, hf, hs'⟩ := (C49_js_string _ _ _).1 h'
  have : e = f := debug_inj (hs.symm.trans hs')
  subst this
  exact ⟨e, he, hf⟩

/-- the text JavaScript gets for a string after a name: the name of the token, with its quotation mark and line break
escaped, is in it -/
example : letI := ascii; jsParse false cs!"(a\n 'x\"\\n'" =
    some (.text cs!"Error { line: 2, col: 7, errortype: UnexpectedToken(\"x\\\"\\n\") }") := by
  letI := ascii
  rw [C49_js_string]
  exact ⟨⟨2, 7, .unexpectedToken cs!"x\"\n"⟩, failure?_eq (by decide +kernel), by decide +kernel⟩

/-- a module that JavaScript gets a tree for, and one that it gets a string for -/
example : letI := ascii; (∃ j, jsParse true cs!"import a from 'b'" = some (.tree j)) ∧
    jsParse true cs!"a + 1 = 2" = some (.text cs!"Error { line: 1, col: 2, errortype: InvalidLhsInAssignment }") := by
  letI := ascii
  refine ⟨(C49_js_tree _ _).2 ?_, (C49_js_string _ _ _).2
    ⟨⟨1, 2, .invalidLhsInAssignment⟩, failure?_eq (by decide +kernel), by decide +kernel⟩⟩
  have : ∃ t, result? (rustParse true cs!"import a from 'b'") = some t := by
    apply Option.isSome_iff_exists.1
    decide +kernel
  exact this.imp fun t ht => result?_eq ht

end Giron

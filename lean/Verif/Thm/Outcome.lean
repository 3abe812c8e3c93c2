import Verif.Thm.Path
/-
How a run of the parser can end.
-/
set_option maxRecDepth 20000
namespace Giron
open Spec Parser

theorem script_fail [Env] {source : Str} {f : Fail} (h : parseScript source = .error f) : RunFail (lines source) f := by
  have := parseScriptState_sat source
  unfold parseScript at h
  cases hx : parseScriptState source with
  | error f' => rw [hx] at h this; cases h; exact this
  | ok p => rw [hx] at h; cases h

theorem module_fail [Env] {source : Str} {f : Fail} (h : parseModule source = .error f) : RunFail (lines source) f := by
  have := parseModuleState_sat source
  unfold parseModule at h
  cases hx : parseModuleState source with
  | error f' => rw [hx] at h this; cases h; exact this
  | ok p => rw [hx] at h; cases h

/-- The source was rejected with `f`, as a script or as a module. -/
def Rejected [Env] (source : Str) (f : Fail) : Prop := parseScript source = .error f ∨ parseModule source = .error f

theorem Rejected.run [Env] {source : Str} {f : Fail} (h : Rejected source f) : RunFail (lines source) f := by
  rcases h with h | h
  · exact script_fail h
  · exact module_fail h

/-- C01: the parser always ends with a tree, an error or a panic: a recursion depth of `2 * length + 6` calls (and as
many rounds of every loop as there are characters left) is enough for every source. -/
theorem C01_parsing_terminates [Env] (source : Str) :
    parseScript source ≠ .error .fuel ∧ parseModule source ≠ .error .fuel := by
  constructor <;> intro h
  · rcases script_fail h with h | h
    · exact h
    · cases h
  · rcases module_fail h with h | h
    · exact h
    · cases h

/-- C02: if the parser panics, it does so at one of eight sites, or — in builds with overflow checks — at one of three
more. -/
theorem C02_panics_only_at_known_sites [Env] {source : Str} {p : PanicSite} (h : Rejected source (.panic p)) :
    p ∈ [.firstToken, .unterminatedTemplate, .tokenNotStr, .invalidPunctuator, .spanStack, .exprSpan, .importString,
        .unreachableArm 2965] ∨
      Env.checked = true ∧ p ∈ [.escOverflow, .tokenEndUnderflow, .arrayLenUnderflow] := by
  rcases h.run with h | h
  · cases p <;> simp_all [ParseFail]
  · cases h; simp

/-- C02: each of these sites is reached. -/
theorem C02_sites_are_reached : letI := ascii;
    Rejected cs!"'" (.panic .firstToken) ∧
    Rejected cs!"a`b" (.panic .unterminatedTemplate) ∧
    Rejected cs!"class 5 {}" (.panic .tokenNotStr) ∧
    Rejected cs!"async + 1" (.panic .invalidPunctuator) ∧
    Rejected cs!"a++ + b++*c++ + b++*c++ + b++*c++ + b++*c++ + b++*c++ + b++*c++ + b++*c++" (.panic .spanStack) ∧
    Rejected cs!"[class A{}] = 1" (.panic .exprSpan) ∧
    Rejected cs!"import 'x'" (.panic .importString) ∧
    Rejected cs!"var {[x]} = 1" (.panic (.unreachableArm 2965)) := by
  letI := ascii
  refine ⟨.inl (failure?_eq ?_), .inl (failure?_eq ?_), .inl (failure?_eq ?_), .inl (failure?_eq ?_),
    .inl (failure?_eq ?_), .inl (failure?_eq ?_), .inr (failure?_eq ?_), .inl (failure?_eq ?_)⟩ <;> decide +kernel

/-- C02: and so are the three sites of builds with overflow checks. -/
theorem C02_checked_sites_are_reached : letI := asciiChecked;
    Rejected cs!"a = '\\u{fffffffff}'" (.panic .escOverflow) ∧
    Rejected cs!"" (.panic .tokenEndUnderflow) ∧
    Rejected cs!"([]) => 1" (.panic .arrayLenUnderflow) := by
  letI := asciiChecked
  refine ⟨.inl (failure?_eq ?_), .inl (failure?_eq ?_), .inl (failure?_eq ?_)⟩ <;> decide +kernel

/-- C03: when a tree is returned, the current token is the end of input and no character is left unread. -/
theorem C03_everything_consumed [Env] {source : Str} {t : Node} {s : Parser}
    (h : parseScriptState source = .ok (t, s) ∨ parseModuleState source = .ok (t, s)) :
    s.current.tokentype = .eof ∧ s.scanner.rest = [] ∧
      ∀ t', s.scanner.unscanned = some t' → t'.tokentype = .eof := by
  have key : ∀ {c n ty}, ProgQ (lines source) c n ty t s → s.current.tokentype = .eof ∧ s.scanner.rest = [] ∧
      ∀ t', s.scanner.unscanned = some t' → t'.tokentype = .eof := by
    intro c n ty hq
    obtain ⟨b, tk, hs, he⟩ := hq.st
    have hc : s.current.tokentype = .eof := by rw [hs.current]; exact he
    exact ⟨hc, hs.inv.eof hc⟩
  rcases h with h | h
  · have := parseScriptState_sat source
    rw [h] at this
    exact key this
  · have := parseModuleState_sat source
    rw [h] at this
    exact key this

/-- the hypothesis is met -/
example : letI := ascii; (result? (parseScriptState cs!"while (a) { b(c) }  ")).isSome = true := by decide +kernel

/-- C29: the line of an error is a line of the source. -/
theorem C29_error_lines [Env] {source : Str} {e : Error} (h : Rejected source (.err e)) :
    1 ≤ e.line ∧ e.line ≤ lines source := by
  rcases h.run with h | h
  · exact h
  · cases h

/-- the hypothesis is met, with an error on the last of three lines -/
example : letI := ascii; ∃ e, Rejected cs!"a\n  b\r\n c)" (.err e) ∧ e.line = 3 ∧ lines cs!"a\n  b\r\n c)" = 3 := by
  letI := ascii
  have h : (match parseScript cs!"a\n  b\r\n c)" with | .error (.err e) => e.line == 3 | _ => false) = true := by
    decide +kernel
  split at h
  · rename_i e he
    exact ⟨e, .inl he, by simpa using h, by decide⟩
  · cases h

/-- C30, for the whole parse: at the end of a script the parsing context is the initial one (strictness aside), and
no saved parameters are left over. -/
theorem C30_final_context [Env] {source : Str} {t : Node} {s : Parser} (h : parseScriptState source = .ok (t, s)) :
    s.ctx.inFunction = false ∧ s.ctx.inIteration = false ∧ s.ctx.inSwitch = false ∧ s.params = Params.new ∧
      s.paramsStack = [] := by
  have := parseScriptState_sat source
  rw [h] at this
  obtain ⟨b, tk, hs, he⟩ := this.st
  have h1 := hs.ctx
  have h2 := hs.params
  have h3 := hs.stack
  rw [h1, h2, h3]
  cases b <;> exact ⟨rfl, rfl, rfl, rfl, rfl⟩

end Giron

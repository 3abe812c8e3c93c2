import Verif.Proofs.Shift.Stmt
import Verif.Thm.Tokens
import Verif.Thm.Outcome
/-
What comes before a program: white space, line terminators and comments move its tree and change nothing else.
-/
set_option maxRecDepth 20000
namespace Giron
open Spec Parser Scanner

variable [Env] {source : Str}

/-- the lines in a prefix -/
def Spec.prefixLines (w r : Str) : Nat := lineBreaks (w ++ r) - lineBreaks r

/-- the state in which the first token of `w ++ r` is scanned -/
def firstState (w r : Str) : Scanner :=
  ⟨w.length, w.length, 1 + prefixLines w r, 1, decide (lineBreaks r < lineBreaks (w ++ r)), r, false, [], [], none, none⟩

omit [Env] in
theorem firstState_eq (w r : Str) : { afterN w.length (Scanner.new (w ++ r)) with
    col := 1, start := (afterN w.length (Scanner.new (w ++ r))).current } = firstState w r := by
  have l1 := afterN_lines w.length (Scanner.new (w ++ r))
  have e1 : (Scanner.new (w ++ r)).rest = w ++ r := rfl
  rw [e1, List.drop_left] at l1
  have l2 := lineBreaks_drop_le w r
  have l3 : (Scanner.new (w ++ r)).line = 1 := rfl
  unfold firstState
  simp only [Scanner.mk.injEq, afterN_current, afterN_rest, afterN_recordRaw, afterN_rawString, afterN_curly,
        afterN_unscanned, afterN_state, e1, List.drop_left, afterN_newline e1, prefixLines]
  simp [Scanner.new]
  simp [Scanner.new] at l1
  omega

theorem next_new {w r : Str} (ht : Trivia w r) (hr : ¬ StartsTrivia r) :
    Scanner.next .regExp (Scanner.new (w ++ r)) = scanToken .regExp (firstState w r) := by
  rw [← firstState_eq]
  show scanFresh .regExp (Scanner.new (w ++ r)) = _
  unfold scanFresh
  rw [M.bind_ok (show (M.modify fun s : Scanner => { s with newline := false }) (Scanner.new (w ++ r)) =
    .ok ((), Scanner.new (w ++ r)) from rfl), M.bind_ok (scanComments_eq ht hr rfl)]
  rfl

omit [Env] in
theorem moved_firstState {w w0 r0 : Str} {p : Bool} (hp : p = true → w0 ≠ []) :
    Scanner.MovedBy w.length (prefixLines w (w0 ++ r0)) p (firstState w0 r0) (firstState (w ++ w0) r0) := by
  constructor
  · refine ⟨(firstState (w ++ w0) r0).newline, none, ?_, rfl⟩
    have l3 := lineBreaks_drop_le w (w0 ++ r0)
    have l4 := lineBreaks_drop_le w0 r0
    simp only [firstState, prefixLines, Scanner.mk.injEq, List.append_assoc, Option.map_none, and_self, and_true, true_and,
      List.length_append]
    omega
  · intro h
    exact List.length_pos_iff.mpr (hp h)

/-- the parsers for the two sources start in related states, or both panic -/
theorem new_moved {w : Str} (hw : Trivia w source) (hne : source ≠ []) :
    (∃ s s', Parser.new source = .ok s ∧ Parser.new (w ++ source) = .ok s' ∧
      Parser.R ⟨w.length, prefixLines w source, []⟩ s s') ∨
    ∃ p, Parser.new source = .error (.panic p) ∧ Parser.new (w ++ source) = .error (.panic p) ∨
      Parser.new source = .error .fuel ∧ Parser.new (w ++ source) = .error .fuel := by
  obtain ⟨w0, r0, rfl, hw0, hn0⟩ := exists_trivia source
  have e1 := next_new hw0 hn0
  have e2 := next_new (hw.append hw0) hn0
  rw [List.append_assoc] at e2
  have hm : Scanner.Out w.length (prefixLines w (w0 ++ r0)) true (TV w.length (prefixLines w (w0 ++ r0))) (scanToken .regExp (firstState w0 r0))
      (scanToken .regExp (firstState (w ++ w0) r0)) := by
    by_cases h0 : w0 = []
    · refine sh_scanToken (p := false) (moved_firstState (fun h => nomatch h)) (.inr ?_)
      subst h0
      simpa [firstState, Scanner.new] using hne
    · exact sh_scanToken (p := true) (moved_firstState (fun _ => h0)) (.inl rfl)
  unfold Parser.new
  rw [e1, e2]
  cases hx : scanToken .regExp (firstState w0 r0) with
  | error f =>
    rw [hx] at hm
    have hm : _ = Except.error _ := hm
    rw [hm]
    right
    cases f with
    | err e => exact ⟨.firstToken, .inl ⟨rfl, rfl⟩⟩
    | panic p => exact ⟨p, .inl ⟨rfl, rfl⟩⟩
    | fuel => exact ⟨.firstToken, .inr ⟨rfl, rfl⟩⟩
  | ok v =>
    obtain ⟨t, sc⟩ := v
    rw [hx] at hm
    obtain ⟨t', sc', hy, hv, hs⟩ := hm
    have hv : t' = t.moved _ _ := hv
    subst hv
    rw [hy]
    exact .inl ⟨_, _, rfl, rfl, .mk hs⟩

/-- the outcome with every position moved by `d` characters and `ℓ` lines -/
def Spec.moveOutcome (d ℓ : Nat) : Except Fail Node → Except Fail Node
  | .ok t => .ok (moveNode d ℓ t)
  | .error f => .error (f.moved ℓ)

/-- C33: putting white space, line terminators and complete comments before a source moves the tree, or the error,
by the length and the number of lines of what was put there, and changes nothing else: for scripts, -/
theorem C33_leading_trivia_script {w : Str} (hw : Trivia w source) (hne : source ≠ []) :
    parseScript (w ++ source) =
      moveOutcome w.length (lineBreaks (w ++ source) - lineBreaks source) (parseScript source) := by
  have nf := C01_parsing_terminates source
  have nf' := C01_parsing_terminates (w ++ source)
  unfold parseScript parseScriptState at *
  rcases new_moved hw hne with ⟨s, s', h1, h2, hR⟩ | ⟨p, ⟨h1, h2⟩ | ⟨h1, h2⟩⟩
  · rw [h1] at nf
    rw [h2] at nf'
    rw [h1, h2]
    dsimp only at nf nf' ⊢
    rcases (sim_parseScriptBody (r := run (depth source)) (r' := run (depth (w ++ source)))).out s s' hR with
      h | h | ⟨h, hx⟩ | ⟨f, h, h'⟩ | ⟨a, t, t', h, h', -, -, -⟩
    · rw [h] at nf; exact absurd rfl nf.1
    · rw [h] at nf'; exact absurd rfl nf'.1
    · exact absurd rfl hx
    · rw [h, h']; rfl
    · rw [h, h']; rfl
  · rw [h1, h2]; rfl
  · rw [h1] at nf; exact absurd rfl nf.1

/-- C33: and for modules. -/
theorem C33_leading_trivia_module {w : Str} (hw : Trivia w source) (hne : source ≠ []) :
    parseModule (w ++ source) =
      moveOutcome w.length (lineBreaks (w ++ source) - lineBreaks source) (parseModule source) := by
  have nf := C01_parsing_terminates source
  have nf' := C01_parsing_terminates (w ++ source)
  unfold parseModule parseModuleState at *
  rcases new_moved hw hne with ⟨s, s', h1, h2, hR⟩ | ⟨p, ⟨h1, h2⟩ | ⟨h1, h2⟩⟩
  · rw [h1] at nf
    rw [h2] at nf'
    rw [h1, h2]
    dsimp only at nf nf' ⊢
    rcases (sim_parseModuleBody (r := run (depth source)) (r' := run (depth (w ++ source)))).out s s' hR with
      h | h | ⟨h, hx⟩ | ⟨f, h, h'⟩ | ⟨a, t, t', h, h', -, -, -⟩
    · rw [h] at nf; exact absurd rfl nf.2
    · rw [h] at nf'; exact absurd rfl nf'.2
    · exact absurd rfl hx
    · rw [h, h']; rfl
    · rw [h, h']; rfl
  · rw [h1, h2]; rfl
  · rw [h1] at nf; exact absurd rfl nf.2

/-- C33: the hypotheses are met, and there is a tree to move -/
example : letI := ascii; Trivia cs!"// c\n " cs!"a.b = 1" ∧ cs!"a.b = 1" ≠ [] ∧
    ∃ t, parseScript cs!"a.b = 1" = .ok t ∧ parseScript (cs!"// c\n " ++ cs!"a.b = 1") = .ok (moveNode 6 1 t) := by
  letI := ascii
  have hw : Trivia cs!"// c\n " cs!"a.b = 1" :=
    .line (body := cs!" c") (w := cs!"\n ") ⟨by decide, by decide⟩ (.blank (by decide) (.blank (by decide) .done))
  refine ⟨hw, by decide, ?_⟩
  have h := C33_leading_trivia_script hw (by decide)
  have hc : (result? (parseScript cs!"a.b = 1")).isSome = true := by decide +kernel
  cases hx : parseScript cs!"a.b = 1" with
  | error f => rw [hx] at hc; cases hc
  | ok t => rw [hx] at h; exact ⟨t, rfl, h⟩

/-- C33: an error is moved too -/
example : letI := ascii; Rejected cs!"\n\na +" (.err ⟨3, 1, .invalidOrUnexpectedToken⟩) := by
  letI := ascii
  have hw : Trivia cs!"\n\n" cs!"a +" := .blank (by decide) (.blank (by decide) .done)
  have h := C33_leading_trivia_module hw (by decide)
  have hc : parseModule cs!"a +" = .error (.err ⟨1, 1, .invalidOrUnexpectedToken⟩) := failure?_eq (by decide +kernel)
  rw [hc] at h
  exact .inr h

end Giron

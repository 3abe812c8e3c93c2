import Verif.Spec.Answer
import Verif.Thm.Layout
import Verif.Proofs.Layout.Barrier
import Verif.Thm.Errors
/-
C51: the first error depends on nothing but the words read so far, and cannot be repaired behind.
-/
set_option maxRecDepth 20000
namespace Giron
open Spec Layout

theorem script_of [Env] {source : Str} {p : Parser} (h : Parser.new source = .ok p) :
    parseScript source = match Parser.parseScriptBody (Parser.run (Parser.depth source)) p with
      | .ok (t, _) => .ok t
      | .error f => .error f := by
  unfold parseScript parseScriptState
  rw [h]
  cases hb : Parser.parseScriptBody (Parser.run (Parser.depth source)) p with
  | ok x => obtain ⟨t, s⟩ := x; dsimp only; rw [hb]; rfl
  | error f => dsimp only; rw [hb]; rfl

theorem module_of [Env] {source : Str} {p : Parser} (h : Parser.new source = .ok p) :
    parseModule source = match Parser.parseModuleBody (Parser.run (Parser.depth source)) p with
      | .ok (t, _) => .ok t
      | .error f => .error f := by
  unfold parseModule parseModuleState
  rw [h]
  cases hb : Parser.parseModuleBody (Parser.run (Parser.depth source)) p with
  | ok x => obtain ⟨t, s⟩ := x; dsimp only; rw [hb]; rfl
  | error f => dsimp only; rw [hb]; rfl

theorem bare_err {f : Fail} {e : Error} (h : f.bare = (Fail.err e).bare) : ∃ e', f = .err e' ∧ e'.errortype = e.errortype := by
  cases f with
  | err e' => exact ⟨e', rfl, by simpa [Fail.bare] using h⟩
  | _ => simp [Fail.bare] at h

theorem goes_made [Env] {w x r b : Str} {c : Content} {P : List Said} (h1 : Trivia w (x ++ r)) (h2 : ¬ StartsTrivia (x ++ r))
    (h3 : Lexeme .regExp false x r c) (hg : Goes (opens c) r P b) : MadeOf c P (w ++ (x ++ r)) := .mk h1 h2 h3 (hg.begins _)

/-- C51.  An error comes from the words read.  If a script is rejected with an error that does not say that there is
something that is not a word, then there are words that it begins with, such that every script that begins with these words
is rejected with an error of the same kind, whatever follows: giron does not read on in search of another error. -/
theorem C51_errors_come_from_the_words [Env] {source : Str} {e : Error} (h : parseScript source = .error (.err e))
    (hk : ¬ NotAWordKind e.errortype) :
    ∃ c ws, MadeOf c ws source ∧ ∀ source', source' ≠ [] → MadeOf c ws source' →
      ∃ e', parseScript source' = .error (.err e') ∧ e'.errortype = e.errortype := by
  obtain ⟨p, hp, hb⟩ := script_err_inv h
  obtain ⟨w, x, c, P, r, h1, h2, h3, h4, h5, h6⟩ := body_bad (f := Parser.parseScriptBody) (n' := Parser.depth) inferInstance hp hb
    ⟨nofun, nofun, nofun⟩
  refine ⟨c, P, ?_, fun source' hne hm => ?_⟩
  · rw [h3]; exact goes_made h1 h2 h4 h5
  · rcases h6 with ⟨h6, -⟩ | h6
    · exact absurd (h6 e rfl) hk
    · obtain ⟨p', hp', hx⟩ := h6 source' [] hne (by rw [List.append_nil]; exact hm)
      rcases hx with hx | ⟨f', hx, ht⟩
      · exact absurd (by rw [script_of hp', hx]) (C01_parsing_terminates source').1
      · obtain ⟨e', rfl, he⟩ := bare_err ht
        exact ⟨e', by rw [script_of hp', hx], he⟩

/-- C51, for modules. -/
theorem C51_errors_come_from_the_words_module [Env] {source : Str} {e : Error} (h : parseModule source = .error (.err e))
    (hk : ¬ NotAWordKind e.errortype) :
    ∃ c ws, MadeOf c ws source ∧ ∀ source', source' ≠ [] → MadeOf c ws source' →
      ∃ e', parseModule source' = .error (.err e') ∧ e'.errortype = e.errortype := by
  obtain ⟨p, hp, hb⟩ := module_err_inv h
  obtain ⟨w, x, c, P, r, h1, h2, h3, h4, h5, h6⟩ := body_bad (f := Parser.parseModuleBody) (n' := Parser.depth) inferInstance hp hb
    ⟨nofun, nofun, nofun⟩
  refine ⟨c, P, ?_, fun source' hne hm => ?_⟩
  · rw [h3]; exact goes_made h1 h2 h4 h5
  · rcases h6 with ⟨h6, -⟩ | h6
    · exact absurd (h6 e rfl) hk
    · obtain ⟨p', hp', hx⟩ := h6 source' [] hne (by rw [List.append_nil]; exact hm)
      rcases hx with hx | ⟨f', hx, ht⟩
      · exact absurd (by rw [module_of hp', hx]) (C01_parsing_terminates source').2
      · obtain ⟨e', rfl, he⟩ := bare_err ht
        exact ⟨e', by rw [module_of hp', hx], he⟩

/-- the word an error names is the last one read, or the last but one, if that is a word giron looks ahead from -/
def NamesLast (v : Str) (words : List Str) : Prop :=
  words.getLast? = some v ∨ (v = cs!"async" ∨ v = cs!"get" ∨ v = cs!"set") ∧ words.dropLast.getLast? = some v

/-- C51.  An unexpected word is final.  If a script is rejected because of an unexpected word `v`, then it begins with words
of which `v` is the last one, and every script that begins with these words is rejected.  (If `v` is `async`, `get` or `set`,
there may be one more word.) -/
theorem C51_unexpected_words_are_final [Env] {source v : Str} {e : Error} (h : parseScript source = .error (.err e))
    (hv : e.errortype = .unexpectedToken v) :
    ∃ c ws, NamesLast v (shownWords c ws) ∧ MadeOf c ws source ∧
      ∀ source', source' ≠ [] → MadeOf c ws source' → ∃ f, parseScript source' = .error f := by
  obtain ⟨p, hp, hb⟩ := script_err_inv h
  obtain ⟨w, x, c, P, r, h1, h2, h3, h4, h5, h6, h7⟩ := body_dead (f := Parser.parseScriptBody) (n' := Parser.depth) inferInstance hp hb
    (by rw [hv]; simp [Pos.LexErr])
  refine ⟨c, P, ?_, ?_, fun source' hne hm => ?_⟩
  · obtain ⟨pre, h | ⟨h, u, h'⟩⟩ := h6 v hv
    · left; show (shown c :: Layout.wordsOf P).getLast? = _; rw [h]; simp
    · refine .inr ⟨h, ?_⟩; show (shown c :: Layout.wordsOf P).dropLast.getLast? = _; rw [h']; simp [List.dropLast_append_cons]
  · rw [h3]; exact goes_made h1 h2 h4 h5
  · obtain ⟨p', hp', f, hx⟩ := h7 source' [] hne (by rw [List.append_nil]; exact hm)
    exact ⟨f, by rw [script_of hp', hx]⟩

/-- C51, for modules. -/
theorem C51_unexpected_words_are_final_module [Env] {source v : Str} {e : Error} (h : parseModule source = .error (.err e))
    (hv : e.errortype = .unexpectedToken v) :
    ∃ c ws, NamesLast v (shownWords c ws) ∧ MadeOf c ws source ∧
      ∀ source', source' ≠ [] → MadeOf c ws source' → ∃ f, parseModule source' = .error f := by
  obtain ⟨p, hp, hb⟩ := module_err_inv h
  obtain ⟨w, x, c, P, r, h1, h2, h3, h4, h5, h6, h7⟩ := body_dead (f := Parser.parseModuleBody) (n' := Parser.depth) inferInstance hp hb
    (by rw [hv]; simp [Pos.LexErr])
  refine ⟨c, P, ?_, ?_, fun source' hne hm => ?_⟩
  · obtain ⟨pre, h | ⟨h, u, h'⟩⟩ := h6 v hv
    · left; show (shown c :: Layout.wordsOf P).getLast? = _; rw [h]; simp
    · refine .inr ⟨h, ?_⟩; show (shown c :: Layout.wordsOf P).dropLast.getLast? = _; rw [h']; simp [List.dropLast_append_cons]
  · rw [h3]; exact goes_made h1 h2 h4 h5
  · obtain ⟨p', hp', f, hx⟩ := h7 source' [] hne (by rw [List.append_nil]; exact hm)
    exact ⟨f, by rw [module_of hp', hx]⟩

theorem answer_of {x y : Except Fail Node} (hx : ∀ t, x = .ok t → ∃ t', y = .ok t' ∧ bareNode t = bareNode t')
    (hy : ∀ t, y = .ok t → ∃ t', x = .ok t' ∧ bareNode t = bareNode t')
    (kx : ∀ f, x = .error f → f ≠ .panic .tokenEndUnderflow → ∃ f', y = .error f' ∧ f'.bare = f.bare)
    (ky : ∀ f, y = .error f → f ≠ .panic .tokenEndUnderflow → ∃ f', x = .error f' ∧ f'.bare = f.bare) : answer x = answer y := by
  have hb : ∀ f, answer (.error f) = .error f.bare := by intro f; cases f <;> rfl
  cases x with
  | ok t => obtain ⟨t', rfl, h⟩ := hx t rfl; exact congrArg Except.ok h
  | error f =>
    cases y with
    | ok t => obtain ⟨_, h, _⟩ := hy t rfl; cases h
    | error g =>
      rw [hb, hb]
      by_cases h1 : f = .panic .tokenEndUnderflow
      · by_cases h2 : g = .panic .tokenEndUnderflow
        · rw [h1, h2]
        · obtain ⟨f', h3, h4⟩ := ky g rfl h2; cases h3; rw [h4]
      · obtain ⟨f', h3, h4⟩ := kx f rfl h1; cases h3; rw [h4]

/-- C51.  If none of the words is a regular expression, a part of a template or begins with a slash: to two sources that are
made of the same words, up to the end, giron gives the same answer but for positions, also if it is an error or a panic. -/
theorem C51_same_words_same_answer [Env] {source source' : Str} {c : Content} {ws : List Said}
    (h : source ≠ []) (h' : source' ≠ []) (hm : MadeOf c ws source) (hm' : MadeOf c ws source')
    (hp : OneWay c ∧ ∀ u ∈ ws, OneWay u.says) (he : (c :: ws.map Said.says).getLast? = some .eof) :
    answer (parseScript source) = answer (parseScript source') ∧
    answer (parseModule source) = answer (parseModule source') := by
  have k : ∀ {a b : Str}, a ≠ [] → b ≠ [] → MadeOf c ws a → MadeOf c ws b →
      (∀ t, parseScript a = .ok t → ∃ t', parseScript b = .ok t' ∧ bareNode t = bareNode t') ∧
      (∀ t, parseModule a = .ok t → ∃ t', parseModule b = .ok t' ∧ bareNode t = bareNode t') ∧
      (∀ f, parseScript a = .error f → f ≠ .panic .tokenEndUnderflow → ∃ f', parseScript b = .error f' ∧ f'.bare = f.bare) ∧
      (∀ f, parseModule a = .error f → f ≠ .panic .tokenEndUnderflow → ∃ f', parseModule b = .error f' ∧ f'.bare = f.bare) := by
    intro a b hna hb ha hb'
    refine ⟨?_, ?_, ?_, ?_⟩
    · intro t ht
      obtain ⟨w, x, r, c, P, h1, h2, h3, h4, h5, h6⟩ := script_both ht
      exact h6 b [] hb (by rw [List.append_nil]; exact made_plain h1 h2 h3 h4 h5 ha hp he hb')
    · intro t ht
      obtain ⟨w, x, r, c, P, h1, h2, h3, h4, h5, h6⟩ := module_both ht
      exact h6 b [] hb (by rw [List.append_nil]; exact made_plain h1 h2 h3 h4 h5 ha hp he hb')
    · intro f hf hne
      obtain ⟨p, hpn⟩ := new_plain hna ha hp.1
      have hf0 := hf
      rw [script_of hpn] at hf
      split at hf
      · cases hf
      · next g hg =>
        cases hf
        have told : Told f := ⟨fun e => (C01_parsing_terminates a).1 (e ▸ hf0), hne, fun e => by
          have := C02_panics_only_at_known_sites (.inl (e ▸ hf0))
          simp at this⟩
        obtain ⟨w, x, c, P, r, h1, h2, h3, h4, h5, h6⟩ := body_bad (f := Parser.parseScriptBody) (n' := Parser.depth) inferInstance hpn hg told
        rcases h6 with ⟨-, h6⟩ | h6
        · exact absurd h6 (not_stuck h1 h2 h3 h4 h5 ha hp he)
        · obtain ⟨p', hp', hx⟩ := h6 b [] hb (by rw [List.append_nil]; exact made_plain h1 h2 h3 h4 h5 ha hp he hb')
          rcases hx with hx | ⟨f', hx, ht⟩
          · exact absurd (by rw [script_of hp', hx]) (C01_parsing_terminates b).1
          · exact ⟨f', by rw [script_of hp', hx], ht⟩
    · intro f hf hne
      obtain ⟨p, hpn⟩ := new_plain hna ha hp.1
      have hf0 := hf
      rw [module_of hpn] at hf
      split at hf
      · cases hf
      · next g hg =>
        cases hf
        have told : Told f := ⟨fun e => (C01_parsing_terminates a).2 (e ▸ hf0), hne, fun e => by
          have := C02_panics_only_at_known_sites (.inr (e ▸ hf0))
          simp at this⟩
        obtain ⟨w, x, c, P, r, h1, h2, h3, h4, h5, h6⟩ := body_bad (f := Parser.parseModuleBody) (n' := Parser.depth) inferInstance hpn hg told
        rcases h6 with ⟨-, h6⟩ | h6
        · exact absurd h6 (not_stuck h1 h2 h3 h4 h5 ha hp he)
        · obtain ⟨p', hp', hx⟩ := h6 b [] hb (by rw [List.append_nil]; exact made_plain h1 h2 h3 h4 h5 ha hp he hb')
          rcases hx with hx | ⟨f', hx, ht⟩
          · exact absurd (by rw [module_of hp', hx]) (C01_parsing_terminates b).2
          · exact ⟨f', by rw [module_of hp', hx], ht⟩
  obtain ⟨a1, a2, a3, a4⟩ := k h h' hm hm'
  obtain ⟨b1, b2, b3, b4⟩ := k h' h hm' hm
  exact ⟨answer_of a1 b1 a3 b3, answer_of a2 b2 a4 b4⟩

theorem final_word [Env] {w x r b v : Str} {c : Content} {P : List Said} (h1 : Trivia w (x ++ r)) (h2 : ¬ StartsTrivia (x ++ r))
    (h4 : Lexeme .regExp false x r c) (h5 : Goes (opens c) r P b) (hn : v ∉ [cs!"null", cs!"async", cs!"get", cs!"set"])
    (h6 : ∃ pre, shown c :: Layout.wordsOf P = pre ++ [v] ∨
      ((v = cs!"async" ∨ v = cs!"get" ∨ v = cs!"set") ∧ ∃ u, shown c :: Layout.wordsOf P = pre ++ [v, u])) :
    ∃ U, w ++ (x ++ r) = U ++ b ∧ (∃ pre y d, IsWord (w ++ (x ++ r)) pre y b d ∧ shown d = v) ∧
      ∀ z, Wall z → MadeOf c P (U ++ z) := by
  simp only [List.mem_cons, List.not_mem_nil, or_false, not_or] at hn
  obtain ⟨pre, h | ⟨h, -⟩⟩ := h6
  · obtain ⟨pre', y, d, k1, k2⟩ := made_last h1 h2 h4 h5
    have hd : shown d = v := by
      have e1 : (shown c :: Layout.wordsOf P).getLast? = some v := by rw [h]; simp
      have e2 : shown c :: Layout.wordsOf P = (c :: P.map Said.says).map shown := by simp [Layout.wordsOf]
      rw [e2, List.getLast?_map, k2] at e1
      exact Option.some.inj e1
    have hne : d ≠ .eof := by
      rintro rfl
      exact hn.1 hd.symm
    have hP : ∀ u ∈ P, u.says ≠ .eof := by
      intro u hu he
      cases hl : P.getLast? with
      | none => rw [List.getLast?_eq_none_iff.1 hl] at hu; cases hu
      | some l =>
        have := goes_eof h5 hu he hl
        apply hne
        cases P with
        | nil => cases hl
        | cons q P =>
          rw [List.map_cons, List.getLast?_cons_cons, ← List.map_cons, List.getLast?_map, hl] at k2
          cases k2
          exact this
    have hc : c ≠ .eof := by
      rintro rfl
      have hr := eof_lexeme h4
      cases P with
      | nil => cases k2; exact hne rfl
      | cons q P => exact hP q List.mem_cons_self (goes_nil h5 hr q List.mem_cons_self)
    obtain ⟨U, e, hU⟩ := made_wall h1 h2 h4 h5 hc hP
    exact ⟨U, e, ⟨pre', y, d, k1, hd⟩, hU⟩
  · rcases h with h | h | h
    · exact absurd h hn.2.1
    · exact absurd h hn.2.2.1
    · exact absurd h hn.2.2.2

/-- C51.  Nothing that follows can repair a script.  If it is rejected because of an unexpected word `v`, then there is such
a word in the source, and whatever text is put in the place of what follows it, after a blank, the script is rejected. -/
theorem C51_nothing_behind_repairs [Env] {source v : Str} {e : Error} (h : parseScript source = .error (.err e))
    (hv : e.errortype = .unexpectedToken v) (hn : v ∉ [cs!"null", cs!"async", cs!"get", cs!"set"]) :
    ∃ pre x post c, IsWord source pre x post c ∧ shown c = v ∧
      ∀ b ∈ [' ', '\t', '\n', '\r'], ∀ more, ∃ f, parseScript (pre ++ (x ++ b :: more)) = .error f := by
  obtain ⟨p, hp, hb⟩ := script_err_inv h
  obtain ⟨w, x, c, P, r, h1, h2, h3, h4, h5, h6, h7⟩ := body_dead (f := Parser.parseScriptBody) (n' := Parser.depth) inferInstance hp hb
    (by rw [hv]; simp [Pos.LexErr])
  obtain ⟨U, k1, k2, k3⟩ := final_word h1 h2 h4 h5 hn (h6 v hv)
  rw [← h3] at k1 k2
  obtain ⟨pre, y, d, hw, hd⟩ := k2
  have hU : U = pre ++ y := by
    have := hw.text
    rw [k1, ← List.append_assoc] at this
    exact List.append_cancel_right this
  refine ⟨pre, y, r, d, hw, hd, fun b hb more => ?_⟩
  obtain ⟨p', hp', f, hx⟩ := h7 (U ++ b :: more) [] (by simp) (by rw [List.append_nil]; exact k3 _ ⟨b, more, rfl, hb⟩)
  refine ⟨f, ?_⟩
  rw [← List.append_assoc, ← hU, script_of hp', hx]

/-- C51, for modules. -/
theorem C51_nothing_behind_repairs_module [Env] {source v : Str} {e : Error} (h : parseModule source = .error (.err e))
    (hv : e.errortype = .unexpectedToken v) (hn : v ∉ [cs!"null", cs!"async", cs!"get", cs!"set"]) :
    ∃ pre x post c, IsWord source pre x post c ∧ shown c = v ∧
      ∀ b ∈ [' ', '\t', '\n', '\r'], ∀ more, ∃ f, parseModule (pre ++ (x ++ b :: more)) = .error f := by
  obtain ⟨p, hp, hb⟩ := module_err_inv h
  obtain ⟨w, x, c, P, r, h1, h2, h3, h4, h5, h6, h7⟩ := body_dead (f := Parser.parseModuleBody) (n' := Parser.depth) inferInstance hp hb
    (by rw [hv]; simp [Pos.LexErr])
  obtain ⟨U, k1, k2, k3⟩ := final_word h1 h2 h4 h5 hn (h6 v hv)
  rw [← h3] at k1 k2
  obtain ⟨pre, y, d, hw, hd⟩ := k2
  have hU : U = pre ++ y := by
    have := hw.text
    rw [k1, ← List.append_assoc] at this
    exact List.append_cancel_right this
  refine ⟨pre, y, r, d, hw, hd, fun b hb more => ?_⟩
  obtain ⟨p', hp', f, hx⟩ := h7 (U ++ b :: more) [] (by simp) (by rw [List.append_nil]; exact k3 _ ⟨b, more, rfl, hb⟩)
  refine ⟨f, ?_⟩
  rw [← List.append_assoc, ← hU, module_of hp', hx]

/-! ### Witnesses -/

/-- for `C51_errors_come_from_the_words`, `C51_unexpected_words_are_final` and `C51_nothing_behind_repairs` -/
example : letI := ascii; parseScript cs!"a = b ) + 1" = .error (.err ⟨1, 2, .unexpectedToken cs!")"⟩) ∧
    parseModule cs!"a = b ) + 1" = .error (.err ⟨1, 2, .unexpectedToken cs!")"⟩) ∧
    cs!")" ∉ [cs!"null", cs!"async", cs!"get", cs!"set"] ∧ ¬ NotAWordKind (.unexpectedToken cs!")") := by
  letI := ascii
  exact ⟨failure?_eq (by decide +kernel), failure?_eq (by decide +kernel), by decide, by simp [NotAWordKind]⟩

/-- another kind of error -/
example : letI := ascii; parseScript cs!"if (a) { return 1 }" = .error (.err ⟨1, 7, .illegalReturn⟩) := by
  letI := ascii
  exact failure?_eq (by decide +kernel)

/-- Two sources with the same words, which are rejected. -/
def wrongA : Str := cs!"if (ab) b = 'c' + )\n\nget()"
/-- the other one -/
def wrongB : Str := cs!"/* 1 */ if(ab)b='\\x63'+/* 2 */) // 3\nget(/* 4 */)//5"

/-- What they say. -/
def wrongWords : List Said :=
  [⟨.punct .lParen, 0⟩, ⟨.name cs!"ab", 0⟩, ⟨.punct .rParen, 0⟩, ⟨.name cs!"b", 0⟩, ⟨.punct .assign, 0⟩, ⟨.string cs!"c" false, 0⟩,
    ⟨.punct .plus, 0⟩, ⟨.punct .rParen, 0⟩, ⟨.name cs!"get", 1⟩, ⟨.punct .lParen, 0⟩, ⟨.punct .rParen, 0⟩, ⟨.eof, 0⟩]

/-- Witness for `C51_same_words_same_answer`. -/
example : letI := ascii; MadeOf (.name cs!"if") wrongWords wrongA ∧ MadeOf (.name cs!"if") wrongWords wrongB ∧
    (∀ u ∈ wrongWords, OneWay u.says) ∧ (.name cs!"if" :: wrongWords.map Said.says).getLast? = some .eof ∧
    parseScript wrongA = .error (.err ⟨1, 2, .unexpectedToken cs!")"⟩) := by
  letI := ascii
  refine ⟨?_, ?_, ?_, by decide, failure?_eq (by decide +kernel)⟩
  · exact wordsOf_made (u := ⟨.name cs!"if", 0⟩) (g := .div) (gs := List.replicate 12 .div) (us := (wrongWords.map fun u => ⟨u.says, 2 * u.breaks⟩)) (by decide +kernel) (by decide +kernel)
  · exact wordsOf_made (u := ⟨.name cs!"if", 0⟩) (g := .div) (gs := List.replicate 12 .div) (us := wrongWords) (by decide +kernel) (by decide +kernel)
  · simp [wrongWords, OneWay]

/-- That an error of another kind may be reported is no weakness of `C51_unexpected_words_are_final`: giron goes on to the next
word before it reports an unexpected one, and if there it finds something that is not a word, it reports that. -/
theorem C51_what_is_not_a_word_is_reported_first : letI := ascii;
    (∃ e, parseScript cs!"a )" = .error (.err e) ∧ e.errortype = .unexpectedToken cs!")") ∧
      ∃ e, parseScript cs!"a ) '" = .error (.err e) ∧ NotAWordKind e.errortype := by
  letI := ascii
  exact ⟨⟨⟨1, 2, _⟩, failure?_eq (by decide +kernel), rfl⟩, ⟨1, 3, .invalidOrUnexpectedToken⟩, failure?_eq (by decide +kernel), .inl rfl⟩

end Giron

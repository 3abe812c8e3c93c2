import Verif.Proofs.Layout.Top
import Verif.Thm.Spell
import Verif.Thm.Complete
/-
C44: layout does not matter.
-/
set_option maxRecDepth 20000
namespace Giron
open Spec Layout

theorem script_inv [Env] {source : Str} {t : Node} (h : parseScript source = .ok t) :
    ∃ p p1, Parser.new source = .ok p ∧ Parser.parseScriptBody (Parser.run (Parser.depth source)) p = .ok (t, p1) ∧
      p1.scanner.rest = [] := by
  unfold parseScript at h
  cases hs : parseScriptState source with
  | error f => rw [hs] at h; cases h
  | ok x =>
    rw [hs] at h
    obtain ⟨t', p1⟩ := x
    cases h
    have hr := (C03_everything_consumed (.inl hs)).2.1
    unfold parseScriptState at hs
    split at hs
    · next p hp => exact ⟨p, p1, hp, hs, hr⟩
    · cases hs

theorem module_inv [Env] {source : Str} {t : Node} (h : parseModule source = .ok t) :
    ∃ p p1, Parser.new source = .ok p ∧ Parser.parseModuleBody (Parser.run (Parser.depth source)) p = .ok (t, p1) ∧
      p1.scanner.rest = [] := by
  unfold parseModule at h
  cases hs : parseModuleState source with
  | error f => rw [hs] at h; cases h
  | ok x =>
    rw [hs] at h
    obtain ⟨t', p1⟩ := x
    cases h
    have hr := (C03_everything_consumed (.inr hs)).2.1
    unfold parseModuleState at hs
    split at hs
    · next p hp => exact ⟨p, p1, hp, hs, hr⟩
    · cases hs

/-- how the words of a source are read, and what comes of every source that is made of them -/
theorem script_both [Env] {source : Str} {t : Node} (h : parseScript source = .ok t) :
    ∃ w x r c P, Trivia w (x ++ r) ∧ ¬ StartsTrivia (x ++ r) ∧ source = w ++ (x ++ r) ∧ Lexeme .regExp false x r c ∧
      Goes (opens c) r P [] ∧ ∀ source' Q, source' ≠ [] → MadeOf c (P ++ Q) source' →
        ∃ t', parseScript source' = .ok t' ∧ bareNode t = bareNode t' := by
  obtain ⟨p, p1, hp, hb, hr⟩ := script_inv h
  obtain ⟨w, x, c, P, h1, h2, h3, h4, h5, h6⟩ := body_both (f := Parser.parseScriptBody) (n' := Parser.depth) inferInstance hp hb
  rw [hr] at h5
  refine ⟨w, x, _, c, P, h1, h2, h3, h4, h5, fun source' Q hne hm => ?_⟩
  obtain ⟨p', hp', hx⟩ := h6 source' Q hne hm
  rcases hx with hx | ⟨t', s', hx, ht⟩
  · exact absurd (by unfold parseScript parseScriptState; rw [hp']; dsimp only; rw [hx]; rfl) (C01_parsing_terminates source').1
  · exact ⟨t', by unfold parseScript parseScriptState; rw [hp']; dsimp only; rw [hx]; rfl, ht⟩

theorem module_both [Env] {source : Str} {t : Node} (h : parseModule source = .ok t) :
    ∃ w x r c P, Trivia w (x ++ r) ∧ ¬ StartsTrivia (x ++ r) ∧ source = w ++ (x ++ r) ∧ Lexeme .regExp false x r c ∧
      Goes (opens c) r P [] ∧ ∀ source' Q, source' ≠ [] → MadeOf c (P ++ Q) source' →
        ∃ t', parseModule source' = .ok t' ∧ bareNode t = bareNode t' := by
  obtain ⟨p, p1, hp, hb, hr⟩ := module_inv h
  obtain ⟨w, x, c, P, h1, h2, h3, h4, h5, h6⟩ := body_both (f := Parser.parseModuleBody) (n' := Parser.depth) inferInstance hp hb
  rw [hr] at h5
  refine ⟨w, x, _, c, P, h1, h2, h3, h4, h5, fun source' Q hne hm => ?_⟩
  obtain ⟨p', hp', hx⟩ := h6 source' Q hne hm
  rcases hx with hx | ⟨t', s', hx, ht⟩
  · exact absurd (by unfold parseModule parseModuleState; rw [hp']; dsimp only; rw [hx]; rfl) (C01_parsing_terminates source').2
  · exact ⟨t', by unfold parseModule parseModuleState; rw [hp']; dsimp only; rw [hx]; rfl, ht⟩

/-- C44.  Layout does not matter.  If a source is accepted, there is a way to read it as words, up to the end of the text,
such that every source that is made of the same words is accepted, and with the same tree but for positions: white space and
comments, the places of line breaks where there are some, the spelling of numbers, strings and names have no influence. -/
theorem C44_layout_does_not_matter [Env] {source : Str} {t : Node} (h : parseScript source = .ok t) :
    ∃ c ws, MadeOf c (ws ++ [⟨.eof, 0⟩]) source ∧
      ∀ source', source' ≠ [] → MadeOf c (ws ++ [⟨.eof, 0⟩]) source' →
        ∃ t', parseScript source' = .ok t' ∧ bareNode t = bareNode t' := by
  obtain ⟨w, x, r, c, P, h1, h2, rfl, h4, h5, h6⟩ := script_both h
  refine ⟨c, P, .mk h1 h2 h4 (goes_end h5 _), fun source' hne hm => h6 source' _ hne hm⟩

/-- C44, for modules. -/
theorem C44_layout_does_not_matter_module [Env] {source : Str} {t : Node} (h : parseModule source = .ok t) :
    ∃ c ws, MadeOf c (ws ++ [⟨.eof, 0⟩]) source ∧
      ∀ source', source' ≠ [] → MadeOf c (ws ++ [⟨.eof, 0⟩]) source' →
        ∃ t', parseModule source' = .ok t' ∧ bareNode t = bareNode t' := by
  obtain ⟨w, x, r, c, P, h1, h2, rfl, h4, h5, h6⟩ := module_both h
  refine ⟨c, P, .mk h1 h2 h4 (goes_end h5 _), fun source' hne hm => h6 source' _ hne hm⟩

/-- C44.  If none of the words is a regular expression, a part of a template or begins with a slash, then there is but one
way to read them, and: two sources that are made of the same words, up to the end, are both accepted, with the same tree but
for positions, or both rejected. -/
theorem C44_same_words_same_tree [Env] {source source' : Str} {c : Content} {ws : List Said}
    (h : source ≠ []) (h' : source' ≠ []) (hm : MadeOf c ws source) (hm' : MadeOf c ws source')
    (hp : OneWay c ∧ ∀ u ∈ ws, OneWay u.says) (he : (c :: ws.map Said.says).getLast? = some .eof) :
    (parseScript source).toOption.map bareNode = (parseScript source').toOption.map bareNode ∧
    (parseModule source).toOption.map bareNode = (parseModule source').toOption.map bareNode := by
  have k : ∀ {a b : Str}, b ≠ [] → MadeOf c ws a → MadeOf c ws b →
      (∀ t, parseScript a = .ok t → ∃ t', parseScript b = .ok t' ∧ bareNode t = bareNode t') ∧
      (∀ t, parseModule a = .ok t → ∃ t', parseModule b = .ok t' ∧ bareNode t = bareNode t') := by
    intro a b hb ha hb'
    constructor
    · intro t ht
      obtain ⟨w, x, r, c, P, h1, h2, h3, h4, h5, h6⟩ := script_both ht
      exact h6 b [] hb (by rw [List.append_nil]; exact made_plain h1 h2 h3 h4 h5 ha hp he hb')
    · intro t ht
      obtain ⟨w, x, r, c, P, h1, h2, h3, h4, h5, h6⟩ := module_both ht
      exact h6 b [] hb (by rw [List.append_nil]; exact made_plain h1 h2 h3 h4 h5 ha hp he hb')
  have e : ∀ {x y : Except Fail Node}, (∀ t, x = .ok t → ∃ t', y = .ok t' ∧ bareNode t = bareNode t') →
      (∀ t, y = .ok t → ∃ t', x = .ok t' ∧ bareNode t = bareNode t') → x.toOption.map bareNode = y.toOption.map bareNode := by
    intro x y hx hy
    cases x with
    | ok t => obtain ⟨t', rfl, h⟩ := hx t rfl; exact congrArg some h
    | error f =>
      cases y with
      | error _ => rfl
      | ok t => obtain ⟨_, h, _⟩ := hy t rfl; cases h
  exact ⟨e (k h' hm hm').1 (k h hm' hm).1, e (k h' hm hm').2 (k h hm' hm).2⟩

/-! ### Witnesses -/

deriving instance DecidableEq for Said

/-- the text of a value -/
def Value.text : Value → Str
  | .str v => v
  | _ => []

/-- what a token says -/
def Token.says (t : Token) : Content :=
  match t.tokentype, t.value with
  | .eof, _ => .eof
  | .numericLiteral, .num n => .number n
  | .stringLiteral, v => .string v.text (t.octal == some true)
  | .template, v => .template v.text (t.cooked.getD []) (t.head == some true) (t.tail == some true)
  | .regularExpression, _ => .regexp (t.pattern.getD []) (t.flags.getD [])
  | .punctuator, .punc p => .punct p
  | .nullLiteral, _ => .name cs!"null"
  | _, v => .name v.text

theorem says_token {c : Content} {l k st e : Nat} : (c.token l k st e).says = c := by
  cases c with
  | name v =>
    simp only [Spec.Content.token, Token.says, nameToken]
    by_cases h1 : v = cs!"null"
    · simp [h1]
    · by_cases h2 : v = cs!"true" ∨ v = cs!"false"
      · simp [h1, h2, Value.text]
      · by_cases h3 : v ∈ keywords
        · simp [h1, h2, h3, Value.text]
        · simp [h1, h2, h3, Value.text]
  | string v o => cases o <;> rfl
  | template v c h t => cases h <;> cases t <;> rfl
  | _ => rfl

/-- the words of a text, as the scanner finds them -/
def wordsOf [Env] : List LexGoal → Scanner → Option (List Said)
  | [], _ => some []
  | g :: gs, s =>
    match Scanner.next g s with
    | .ok (t, s1) => (wordsOf gs s1).map (⟨t.says, s1.line - s.line⟩ :: ·)
    | .error _ => none

/-- line breaks where there were line breaks -/
def alikeAll : Nat → List Said → List Said → Prop
  | _, [], [] => True
  | n, u :: us, v :: vs => u.says = v.says ∧ alike (decide (0 < n)) v.breaks u.breaks ∧ alikeAll (toCount n u.says) us vs
  | _, _, _ => False

instance {q : Bool} {a b : Nat} : Decidable (alike q a b) := by unfold alike; infer_instance

instance decAlikeAll : ∀ (n : Nat) (us vs : List Said), Decidable (alikeAll n us vs)
  | _, [], [] => isTrue trivial
  | n, u :: us, v :: vs =>
    have := decAlikeAll (toCount n u.says) us vs
    inferInstanceAs (Decidable (u.says = v.says ∧ alike (decide (0 < n)) v.breaks u.breaks ∧ alikeAll (toCount n u.says) us vs))
  | _, [], _ :: _ => isFalse (fun h => h)
  | _, _ :: _, [] => isFalse (fun h => h)

theorem wordsOf_begins [Env] {gs : List LexGoal} {s : Scanner} {us vs : List Said} {n : Nat} (hf : Scanner.Fresh s)
    (hu : s.unscanned = none) (h : wordsOf gs s = some us) (ha : alikeAll n us vs) : Begins n vs s.rest := by
  induction gs generalizing s us vs n with
  | nil =>
    cases h
    cases vs with
    | nil => exact .stop
    | cons => exact ha.elim
  | cons g gs ih =>
    unfold wordsOf at h
    split at h
    · next t s1 hn =>
      obtain ⟨c, b, k1, k2, k3, k4, k5, k6, ⟨_, _, _, k7⟩, k8, -⟩ := Scanner.next_both hf hu hn
      cases hw : wordsOf gs s1 with
      | none => rw [hw] at h; cases h
      | some us' =>
        rw [hw] at h
        cases h
        cases vs with
        | nil => exact ha.elim
        | cons v vs =>
          obtain ⟨a1, a2, a3⟩ := ha
          rw [k7, says_token] at a1 a3
          obtain ⟨c', b'⟩ := v
          dsimp only at a1 a2 a3
          subst a1
          have hg := k1 true (fun _ => rfl)
          generalize hA : s.rest = A at hg ⊢
          generalize hB : s1.rest = B at hg
          cases hg with
          | word h1 h2 h3 h4 hr =>
            cases hr
            refine .word h1 h2 h3 ?_ ?_
            · rwa [k5, Nat.add_sub_cancel_left] at a2
            · rw [← hB]; exact ih k2 k3 hw a3
    · cases h

/-- the words of a source, as the scanner finds them -/
theorem wordsOf_made [Env] {g : LexGoal} {gs : List LexGoal} {source : Str} {u : Said} {us vs : List Said}
    (h : wordsOf (g :: gs) (Scanner.new source) = some (u :: us)) (ha : alikeAll (toCount 0 u.says) us vs) :
    MadeOf u.says vs source := by
  have h0 : alikeAll 0 (u :: us) (u :: vs) := ⟨rfl, alike_refl, ha⟩
  have hb := wordsOf_begins ⟨rfl, rfl⟩ rfl h h0
  generalize hA : (Scanner.new source).rest = A at hb
  have hA' : source = A := hA
  subst hA'
  cases hb with
  | word h1 h2 h3 h4 h5 => exact .mk h1 h2 h3 h5

/-- Two sources with the same words, between which there are comments and line breaks. -/
def layoutA : Str := cs!"if (ab) b = 'c' + 10\n\nget()"
/-- the other one -/
def layoutB : Str := cs!"/* 1 */ if(ab)b='\\x63'+/* 2 */0xa // 3\nget(/* 4 */)//5"

/-- What they say. -/
def layoutWords : List Said :=
  [⟨.punct .lParen, 0⟩, ⟨.name cs!"ab", 0⟩, ⟨.punct .rParen, 0⟩, ⟨.name cs!"b", 0⟩, ⟨.punct .assign, 0⟩, ⟨.string cs!"c" false, 0⟩,
    ⟨.punct .plus, 0⟩, ⟨.number ⟨10, 0⟩, 0⟩, ⟨.name cs!"get", 1⟩, ⟨.punct .lParen, 0⟩, ⟨.punct .rParen, 0⟩, ⟨.eof, 0⟩]

/-- Witness for `C44_same_words_same_tree`. -/
example : letI := ascii; MadeOf (.name cs!"if") layoutWords layoutA ∧ MadeOf (.name cs!"if") layoutWords layoutB ∧
    (∀ u ∈ layoutWords, OneWay u.says) ∧ (.name cs!"if" :: layoutWords.map Said.says).getLast? = some .eof ∧
    ∃ t, parseScript layoutA = .ok t := by
  letI := ascii
  refine ⟨?_, ?_, ?_, by decide, ok_of (by decide +kernel)⟩
  · exact wordsOf_made (u := ⟨.name cs!"if", 0⟩) (g := .div) (gs := List.replicate 12 .div) (us := (layoutWords.map fun u => ⟨u.says, 2 * u.breaks⟩)) (by decide +kernel) (by decide +kernel)
  · exact wordsOf_made (u := ⟨.name cs!"if", 0⟩) (g := .div) (gs := List.replicate 12 .div) (us := layoutWords) (by decide +kernel) (by decide +kernel)
  · simp [layoutWords, OneWay]

/-- That line breaks are counted after `async`, `get` and `set` is no weakness of the theorem: how many there are decides
whether this source is accepted. -/
theorem C44_line_breaks_count_after_async : letI := ascii;
    (failure? (parseScript cs!"async\na\nb")).isSome = true ∧ (∃ t, parseScript cs!"async\na\n\nb" = .ok t) ∧
      ∃ t, parseScript cs!"name\na\nb" = .ok t :=
  letI := ascii; ⟨by decide +kernel, ok_of (by decide +kernel), ok_of (by decide +kernel)⟩

end Giron

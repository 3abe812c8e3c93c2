import Verif.Spec.Words
import Verif.Proofs.Lex.Scan
/-
From a run of the scanner to the words of a source.
-/
namespace Giron.Spec
open Giron

/-- What the token says. -/
def contentOf (t : Token) : Content :=
  match t.tokentype with
  | .eof => .eof
  | .nullLiteral => .name cs!"null"
  | .booleanLiteral | .keyword | .identifier => match t.value with | .str v => .name v | _ => .eof
  | .numericLiteral => match t.value with | .num n => .number n | _ => .eof
  | .stringLiteral => match t.value with | .str v => .string v (t.octal.getD false) | _ => .eof
  | .template => match t.value with
    | .str v => .template v (t.cooked.getD []) (t.head.getD false) (t.tail.getD false)
    | _ => .eof
  | .regularExpression => .regexp (t.pattern.getD []) (t.flags.getD [])
  | .punctuator => match t.value with | .punc p => .punct p | _ => .eof

theorem contentOf_token (c : Content) (l k i j : Nat) : contentOf (c.token l k i j) = c := by
  cases c with
  | name v =>
    unfold contentOf Content.token nameToken
    by_cases h1 : v = cs!"null"
    · subst h1; rfl
    · by_cases h2 : v = cs!"true" ∨ v = cs!"false"
      · simp only [h1, h2, if_true, if_false]
      · by_cases h3 : v ∈ keywords <;> simp only [h1, h2, h3, if_true, if_false]
  | _ => rfl

variable [Env]

theorem lexeme_fits {g : LexGoal} {b : Bool} {x r : Str} {c : Content} (h : Lexeme g b x r c) : c.fits g = true := by
  cases h with
  | regexp h1 => subst h1; rfl
  | @punct _ _ p h1 h2 h3 h4 =>
    have h5 := h1.2.1
    subst h5
    cases g with
    | div => cases p <;> rfl
    | regExp => cases p <;> first | rfl | exact absurd (h4 rfl) (by decide)
  | _ => cases g <;> rfl

theorem lexeme_nil {g : LexGoal} {b : Bool} {r : Str} {c : Content} (h : Lexeme g b [] r c) : c = .eof ∧ r = [] := by
  generalize hx : ([] : Str) = x at h
  cases h with
  | eof => exact ⟨rfl, rfl⟩
  | name _ _ => cases hx
  | string _ _ => cases hx
  | template _ _ => cases hx
  | regexp _ _ _ _ => cases hx
  | punct h1 => subst hx; exact absurd h1.1 (by decide)
  | number h =>
    exfalso
    cases h with
    | integer h _ _ _ _ => exact h (List.append_eq_nil_iff.1 hx.symm).1
    | fraction h _ _ _ _ => have := (List.append_eq_nil_iff.1 hx.symm).2; cases this
    | _ => cases hx

theorem lexeme_eof {g : LexGoal} {b : Bool} {x r : Str} (h : Lexeme g b x r .eof) : x = [] ∧ r = [] := by
  cases h; exact ⟨rfl, rfl⟩

/-- only the last token is the end of input -/
def closed : List (Token × Bool) → Bool
  | [] => false
  | [(t, _)] => decide (t.tokentype = .eof)
  | (t, _) :: ts => decide (t.tokentype ≠ .eof) && closed ts

theorem token_eof {c : Content} {l k i j : Nat} (h : (c.token l k i j).tokentype = .eof) : c = .eof := by
  have := contentOf_token c l k i j
  unfold contentOf at this
  rw [h] at this
  exact this.symm

theorem words_of_tokens {source : Str} {goals : List LexGoal} {pre : Str} {b : List Brace} {text : Str}
    {ts : List (Token × Bool)} (h : Tokens source goals pre b text ts) (hc : closed ts = true) :
    Words b text (ts.map fun p => ⟨contentOf p.1, p.2⟩) := by
  induction h with
  | stop => cases hc
  | @token goal goals pre w x r b c t nl ts hw hn hl htok _ hnl hts ih =>
    subst htok
    rw [List.map_cons, contentOf_token]
    cases ts with
    | nil =>
      simp only [closed, decide_eq_true_eq] at hc
      have := token_eof hc
      subst this
      obtain ⟨rfl, rfl⟩ := lexeme_eof hl
      have e : (nl : Bool) = decide (0 < lineBreaks w) := by
        rw [hnl]; simp [lineBreaks]
      simp only [List.append_nil] at hw ⊢
      rw [e]
      exact .eof hw
    | cons p ts =>
      obtain ⟨t', nl'⟩ := p
      simp only [closed, Bool.and_eq_true, decide_eq_true_eq] at hc
      have hx : x ≠ [] := by
        rintro rfl
        have := (lexeme_nil hl).1
        subst this
        exact hc.1 rfl
      rw [hnl]
      exact .word hw hn hl (lexeme_fits hl) hx (ih hc.2)

/-- the words read with the goals -/
def wordsWith (goals : List LexGoal) (source : Str) : Option (List Word) :=
  match Scanner.nextAll goals (Scanner.new source) with
  | .ok (ts, _) => if closed ts then
      match ts.map fun p => (⟨contentOf p.1, p.2⟩ : Word) with
      | w :: ws => some (⟨w.c, false⟩ :: ws)
      | [] => none
    else none
  | .error _ => none

/-- What the scanner reads, if it is told rightly how to read a `/`, are the words of the source. -/
theorem sourceWords_of {goals : List LexGoal} {source : Str} {ws : List Word} (h : wordsWith goals source = some ws) :
    SourceWords source ws := by
  unfold wordsWith at h
  split at h
  · next ts s' e =>
    split at h
    · next hc =>
      have := words_of_tokens (Scanner.nextAll_sound (Scanner.at_new source) e) hc
      split at h
      · next w ws' e' =>
        cases h
        rw [e'] at this
        exact ⟨w.c, w.nl, ws', this, rfl⟩
      · cases h
    · cases h
  · cases h

end Giron.Spec

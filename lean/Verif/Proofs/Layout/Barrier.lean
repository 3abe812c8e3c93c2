import Verif.Proofs.Layout.Top
import Verif.Spec.Positions
/-
A blank after a word: what follows has no influence on the words before.
-/
namespace Giron
open M Spec

namespace Layout
variable [Env]

/-- the text begins with an ASCII blank -/
def Wall (z : Str) : Prop := ∃ b t, z = b :: t ∧ b ∈ [' ', '\t', '\n', '\r']

omit [Env] in
theorem wall_head {p z : Str} (h : Wall z) {c : Char} (hc : (p ++ z).head? = some c) :
    (∀ r, (p ++ r).head? = some c) ∨ p = [] ∧ c ∈ [' ', '\t', '\n', '\r'] := by
  cases p with
  | nil => obtain ⟨b, t, rfl, hb⟩ := h; simp at hc; subst hc; exact .inr ⟨rfl, hb⟩
  | cons a p => exact .inl fun r => by simpa using hc

theorem blank_id {c : Char} (h : c ∈ [' ', '\t', '\n', '\r']) : isIdentifierContinue c = false := by
  simp only [List.mem_cons, List.not_mem_nil, or_false] at h
  rcases h with rfl | rfl | rfl | rfl <;> rfl

theorem idTail_wall {x p r v z : Str} (h : IdTail x (p ++ r) v) (hz : Wall z) : IdTail x (p ++ z) v := by
  generalize hR : p ++ r = R at h
  induction h with
  | done h =>
    subst hR
    refine .done fun c hc => ?_
    rcases wall_head hz hc with h1 | ⟨-, h1⟩
    · exact h c (h1 r)
    · exact blank_id h1
  | char h1 h2 _ ih => exact .char h1 h2 (ih hR)
  | escape h1 _ ih => exact .escape h1 (ih hR)

omit [Env] in
theorem run_wall {f : Char → Bool} {x p r z : Str} (h : Run f x (p ++ r)) (hz : Wall z)
    (hf : ∀ c ∈ [' ', '\t', '\n', '\r'], f c = false) : Run f x (p ++ z) := by
  refine ⟨h.1, fun c hc => ?_⟩
  rcases wall_head hz hc with h1 | ⟨-, h1⟩
  · exact h.2 c (h1 r)
  · exact hf c h1

omit [Env] in
theorem head_ne_wall {p r z : Str} {a : Char} (h : (p ++ r).head? ≠ some a) (hz : Wall z) (ha : a ∉ [' ', '\t', '\n', '\r']) :
    (p ++ z).head? ≠ some a := by
  intro hc
  rcases wall_head hz hc with h1 | ⟨-, h1⟩
  · exact h (h1 r)
  · exact ha h1

omit [Env] in
theorem exponent_wall {x p r z : Str} {k : Int} (h : Exponent x (p ++ r) k) (hz : Wall z) : Exponent x (p ++ z) k := by
  generalize hR : p ++ r = R at h
  cases h with
  | none h1 h2 => subst hR; exact .none (head_ne_wall h1 hz (by decide)) (head_ne_wall h2 hz (by decide))
  | plain h1 h2 h3 => subst hR; exact .plain h1 h2 (run_wall h3 hz (by decide))
  | plus h1 h2 h3 => subst hR; exact .plus h1 h2 (run_wall h3 hz (by decide))
  | minus h1 h2 h3 => subst hR; exact .minus h1 h2 (run_wall h3 hz (by decide))

omit [Env] in
theorem wall_ne {p z : Str} (hz : Wall z) : p ++ z ≠ [] := by
  obtain ⟨b, t, rfl, -⟩ := hz
  simp

omit [Env] in
theorem number_wall {x p r z : Str} {n : Num} (h : Number x (p ++ r) n) (hz : Wall z) : Number x (p ++ z) n := by
  generalize hR : p ++ r = R at h
  cases h with
  | radix h1 h2 h3 h4 h5 => subst hR; exact .radix h1 h2 (run_wall h3 hz (by decide)) h4 h5
  | octal h1 h2 h3 h4 h5 =>
    subst hR
    refine .octal (run_wall h1 hz (by decide)) (by rw [← List.append_assoc]; exact wall_ne hz) (fun hd c hc => ?_) h4 h5
    rcases wall_head hz hc with k | ⟨-, k⟩
    · exact h3 hd c (k r)
    · clear hc; revert c; decide
  | octalLike h1 h2 h3 => subst hR; exact .octalLike (run_wall h1 hz (by decide)) h2 h3
  | @integer ds ex _ k h1 h2 h3 h4 h5 =>
    subst hR
    by_cases h0 : ds.head? = some '0'
    · have := h2 h0
      cases ds with
      | nil => cases h0
      | cons d ds =>
        simp at h0
        subst h0
        simp at this
        obtain ⟨rfl, rfl, rfl, rfl⟩ := this
        cases h5
        refine .octal (ds := []) ⟨by simp, fun c hc => ?_⟩ (wall_ne hz) (fun _ c hc => ?_) (by simp) (by decide)
        · rcases wall_head hz hc with k | ⟨-, k⟩
          · have := k []; cases this
          · clear hc; revert c; decide
        · rcases wall_head hz hc with k | ⟨-, k⟩
          · have := k []; cases this
          · clear hc; revert c; decide
    · refine .integer h1 (fun h => absurd h h0) ?_ ?_ (exponent_wall h5 hz)
      · rw [← List.append_assoc] at h3 ⊢; exact run_wall h3 hz (by decide)
      · rw [← List.append_assoc] at h4 ⊢; exact head_ne_wall h4 hz (by decide)
  | fraction h1 h2 h3 h4 h5 =>
    subst hR
    refine .fraction h1 h2 h3 ?_ (exponent_wall h5 hz)
    rw [← List.append_assoc] at h4 ⊢; exact run_wall h4 hz (by decide)

/-! texts that are closed -/

omit [Env] in
theorem head_same {m r r' : Str} (h : m ≠ []) : (m ++ r).head? = (m ++ r').head? := by
  cases m with
  | nil => exact absurd rfl h
  | cons => rfl

omit [Env] in
theorem lineBreak_change {b m r r' : Str} (h : LineBreak b (m ++ r)) (hm : m ≠ []) : LineBreak b (m ++ r') := by
  generalize hR : m ++ r = R at h
  cases h with
  | crlf => exact .crlf
  | single h1 h2 => subst hR; exact .single h1 (fun h => by rw [head_same hm]; exact h2 h)

theorem stringItem_change {x m r r' : Str} {c : Char} {o : Bool} (h : StringItem x (m ++ r) c o) (hm : m ≠ []) :
    StringItem x (m ++ r') c o := by
  generalize hR : m ++ r = R at h
  induction h with
  | char h1 h2 => exact .char h1 h2
  | escape h => exact .escape h
  | hex h => exact .hex h
  | unicode h => exact .unicode h
  | octal h1 h2 h3 h4 => subst hR; exact .octal h1 ⟨h2.1, fun c hc => h2.2 c (by rwa [head_same hm])⟩ h3 h4
  | continuation h1 _ ih =>
    subst hR
    refine .continuation ?_ (ih rfl)
    rw [← List.append_assoc] at h1 ⊢
    exact lineBreak_change h1 (by simp [hm])
  | backslash h => subst hR; exact .backslash fun c hc => h c (by rwa [head_same hm])

theorem stringBody_change {q : Char} {x r r' v : Str} {o : Bool} (h : StringBody q x (q :: r) v o) :
    StringBody q x (q :: r') v o := by
  generalize hR : q :: r = R at h
  induction h with
  | done => exact .done
  | item h1 h2 _ ih =>
    subst hR
    refine .item h1 ?_ (ih rfl)
    rw [List.append_cons] at h2 ⊢
    exact stringItem_change h2 (by simp)

theorem templateItem_ne {x r : Str} {c : Char} (h : TemplateItem x r c) : x ≠ [] := by
  cases h with
  | hex h => cases h; simp
  | unicode h => cases h <;> simp
  | _ => simp

theorem templateItem_change {x m r r' : Str} {c : Char} (h : TemplateItem x (m ++ r) c) (hm : m ≠ []) :
    TemplateItem x (m ++ r') c := by
  generalize hR : m ++ r = R at h
  cases h with
  | char h1 h2 => exact .char h1 h2
  | newline h => exact .newline h
  | escape h1 h2 => exact .escape h1 h2
  | hex h => exact .hex h
  | unicode h => exact .unicode h
  | continuation h => subst hR; exact .continuation (lineBreak_change h hm)
  | other h1 h2 => exact .other h1 h2
  | backslash => simp [hm] at hR

omit [Env] in
theorem endsChunk_change {m r r' : Str} (h : 2 ≤ m.length) (he : EndsChunk (m ++ r')) : EndsChunk (m ++ r) := by
  match m, h with
  | a :: b :: m, _ =>
    rcases he with ⟨y, e⟩ | ⟨y, e⟩
    · simp at e; exact .inl ⟨_, by simp [e.1]; rfl⟩
    · simp at e; exact .inr ⟨m ++ r, by simp [e.1, e.2.1]⟩

theorem templateBody_change {x e r r' v : Str} (h : TemplateBody x (e ++ r) v) (he : e ≠ []) : TemplateBody x (e ++ r') v := by
  generalize hR : e ++ r = R at h
  induction h with
  | done => exact .done
  | @item x y _ _ _ h1 h2 _ ih =>
    subst hR
    refine .item (fun hx => h1 ?_) ?_ (ih rfl)
    · rw [← List.append_assoc] at hx ⊢
      refine endsChunk_change ?_ hx
      have : x.length ≠ 0 := fun h => templateItem_ne h2 (List.length_eq_zero_iff.1 h)
      have : e.length ≠ 0 := fun h => he (List.length_eq_zero_iff.1 h)
      simp only [List.length_append]
      omega
    · rw [← List.append_assoc] at h2 ⊢
      exact templateItem_change h2 (by simp [he])

omit [Env] in
theorem regExpBody_change {x r r' : Str} (h : RegExpBody x ('/' :: r)) : RegExpBody x ('/' :: r') := by
  generalize hR : '/' :: r = R at h
  induction h with
  | done => exact .done
  | char h1 h2 h3 _ ih => exact .char h1 h2 h3 (ih hR)
  | escape _ ih => exact .escape (ih hR)
  | @cls g x _ h1 _ ih =>
    subst hR
    refine .cls ⟨h1.1, fun c hc => h1.2 c ?_⟩ (ih rfl)
    rw [List.append_cons] at hc ⊢
    rwa [head_same (r' := r')] ; simp

omit [Env] in
theorem prefix_wall {y a : Str} {b : Char} {t : Str} (h : y <+: a ++ b :: t) (hb : b ∉ y) : y <+: a := by
  induction a generalizing y with
  | nil =>
    cases y with
    | nil => exact List.nil_prefix
    | cons c y =>
      simp only [List.nil_append, List.cons_prefix_cons] at h
      exact absurd (by simp [h.1]) hb
  | cons d a ih =>
    cases y with
    | nil => exact List.nil_prefix
    | cons c y =>
      simp only [List.cons_append, List.cons_prefix_cons] at h ⊢
      exact ⟨h.1, ih h.2 (fun h => hb (List.mem_cons_of_mem _ h))⟩

omit [Env] in
theorem punct_wall {x p r z : Str} {k : Punctuator} (h : Punct x (p ++ r) k) (hz : Wall z) : Punct x (p ++ z) k := by
  obtain ⟨h1, h2, h3, h4⟩ := h
  refine ⟨h1, h2, fun y hy hp => h3 y hy ?_, fun h => absurd h (wall_ne hz)⟩
  obtain ⟨b, t, rfl, hb⟩ := hz
  rw [← List.append_assoc] at hp ⊢
  have hn : b ∉ y := by
    have : ∀ y ∈ punctuators, ∀ b ∈ [' ', '\t', '\n', '\r'], b ∉ y := by decide
    exact this y hy b hb
  exact (prefix_wall hp hn).trans (List.prefix_append _ _)

theorem lexeme_wall {g : LexGoal} {q : Bool} {x p r z : Str} {c : Content} (h : Lexeme g q x (p ++ r) c) (hc : c ≠ .eof) (hz : Wall z) :
    Lexeme g q x (p ++ z) c := by
  generalize hR : p ++ r = R at h
  cases h with
  | eof => exact absurd rfl hc
  | name h1 h2 => subst hR; exact .name h1 (idTail_wall h2 hz)
  | number h => subst hR; exact .number (number_wall h hz)
  | string h1 h2 => exact .string h1 (stringBody_change h2)
  | template h1 h2 => exact .template h1 (templateBody_change h2 (by cases h1 <;> simp))
  | regexp h1 h2 h3 h4 => subst hR; exact .regexp h1 h2 (regExpBody_change h3) (idTail_wall h4 hz)
  | punct h1 h2 h3 h4 =>
    subst hR
    refine .punct (punct_wall h1 hz) (fun hx c hc => ?_) h3 h4
    rcases wall_head hz hc with k | ⟨-, k⟩
    · exact h2 hx c (k r)
    · clear hc; revert c; decide

theorem lexeme_ne {g : LexGoal} {q : Bool} {x r : Str} {c : Content} (h : Lexeme g q x r c) (hc : c ≠ .eof) : x ≠ [] := by
  intro hx
  cases h with
  | eof => exact hc rfl
  | name => cases hx
  | string => cases hx
  | template => cases hx
  | regexp => cases hx
  | number k =>
    subst hx
    obtain ⟨c, y, e, _⟩ := Scanner.number_head k
    cases e
  | punct k =>
    subst hx
    exact absurd k.1 (by decide)

omit [Env] in
theorem trivia_change {w m r r' : Str} (h : Trivia w (m ++ r)) (hm : m ≠ []) : Trivia w (m ++ r') := by
  generalize hR : m ++ r = R at h
  induction h with
  | done => exact .done
  | blank h _ ih => exact .blank h (ih hR)
  | @line body w _ h1 _ ih =>
    subst hR
    refine .line ⟨h1.1, fun c hc => h1.2 c ?_⟩ (ih rfl)
    rw [← List.append_assoc] at hc ⊢
    rwa [head_same (r' := r') (by simp [hm])]
  | block h1 _ ih => exact .block h1 (ih hR)
  | openBlock h => simp [hm] at hR

omit [Env] in
theorem starts_wall {x p r z : Str} (h : ¬ StartsTrivia (x ++ (p ++ r))) (hx : x ≠ []) (hz : Wall z) : ¬ StartsTrivia (x ++ (p ++ z)) := by
  cases x with
  | nil => exact absurd rfl hx
  | cons a x =>
    have two : ∀ d, d = '/' ∨ d = '*' → ∀ y, a = '/' → x ++ (p ++ z) = d :: y → ∃ y', x ++ (p ++ r) = d :: y' := by
      intro d hd y _ e
      rw [← List.append_assoc] at e ⊢
      have := wall_head (p := x ++ p) hz (c := d) (by rw [e]; rfl)
      rcases this with h1 | ⟨-, h1⟩
      · have := h1 r
        cases hy : x ++ p ++ r with
        | nil => rw [hy] at this; cases this
        | cons u y' => rw [hy] at this; simp at this; exact ⟨y', by rw [this]⟩
      · rcases hd with rfl | rfl <;> exact absurd h1 (by decide)
    rintro (⟨c, y, e, hb⟩ | ⟨y, e⟩ | ⟨y, e⟩)
    · simp only [List.cons_append, List.cons.injEq] at e
      exact h (.inl ⟨c, _, by rw [← e.1]; rfl, hb⟩)
    · simp only [List.cons_append, List.cons.injEq] at e
      obtain ⟨y', e'⟩ := two '/' (.inl rfl) y e.1 e.2
      exact h (.inr (.inl ⟨y', by rw [e.1, List.cons_append, e']⟩))
    · simp only [List.cons_append, List.cons.injEq] at e
      obtain ⟨y', e'⟩ := two '*' (.inr rfl) y e.1 e.2
      exact h (.inr (.inr ⟨y', by rw [e.1, List.cons_append, e']⟩))

/-! line breaks -/

/-- the last character is not a carriage return -/
def EndsWell (x : Str) : Prop := ∃ y c, x = y ++ [c] ∧ c ≠ '\r'

omit [Env] in
theorem EndsWell.append {x y : Str} (h : EndsWell y) : EndsWell (x ++ y) := by
  obtain ⟨a, c, rfl, h⟩ := h
  exact ⟨x ++ a, c, by simp, h⟩

omit [Env] in
theorem endsWell_of {x : Str} (hx : x ≠ []) (h : '\r' ∉ x) : EndsWell x := by
  refine ⟨x.dropLast, x.getLast hx, (List.dropLast_concat_getLast hx).symm, fun e => h ?_⟩
  rw [← e]; exact List.getLast_mem hx

omit [Env] in
theorem lineBreaks_append {y : Str} (r : Str) (h : EndsWell y) : lineBreaks (y ++ r) = lineBreaks y + lineBreaks r := by
  obtain ⟨a, c, rfl, hc⟩ := h
  induction a with
  | nil => simp [lineBreaks, hc]
  | cons d a ih =>
    have : ((a ++ [c] ++ r).head?) = (a ++ [c]).head? := by cases a <;> rfl
    simp only [List.cons_append, lineBreaks] at ih ⊢
    rw [this, ih]
    omega

theorem unicode_cr {x : Str} {c : Char} (h : UnicodeEscape x c) : '\r' ∉ x := by
  have : ¬ isHexDigit '\r' = true := by decide
  cases h with
  | short h1 h2 h3 =>
    simp only [List.mem_cons, not_or]
    exact ⟨by decide, by decide, fun h => this (h2 _ h)⟩
  | long h2 h3 h4 =>
    simp only [List.mem_cons, List.mem_append, not_or]
    exact ⟨by decide, by decide, by decide, fun h => this (h2 _ h), by decide, by simp⟩

theorem idTail_cr {x r v : Str} (h : IdTail x r v) : '\r' ∉ x := by
  induction h with
  | done => simp
  | char h1 h2 _ ih =>
    simp only [List.mem_cons, not_or]
    refine ⟨?_, ih⟩
    rintro rfl
    exact absurd h1 (by rw [blank_id (by decide)]; decide)
  | escape h _ ih =>
    simp only [List.mem_cons, List.mem_append, not_or]
    exact ⟨by decide, unicode_cr h, ih⟩

omit [Env] in
theorem digits_cr {x : Str} (h : ∀ c ∈ x, isDecimalDigit c = true) : '\r' ∉ x := fun hx => absurd (h _ hx) (by decide)

omit [Env] in
theorem exponent_cr {x r : Str} {k : Int} (h : Exponent x r k) : '\r' ∉ x := by
  cases h with
  | none => simp
  | plain h1 h2 h3 =>
    simp only [List.mem_cons, not_or]
    exact ⟨by rcases h1 with rfl | rfl <;> decide, digits_cr h3.1⟩
  | plus h1 h2 h3 =>
    simp only [List.mem_cons, not_or]
    exact ⟨by rcases h1 with rfl | rfl <;> decide, by decide, digits_cr h3.1⟩
  | minus h1 h2 h3 =>
    simp only [List.mem_cons, not_or]
    exact ⟨by rcases h1 with rfl | rfl <;> decide, by decide, digits_cr h3.1⟩

omit [Env] in
theorem number_cr {x r : Str} {n : Num} (h : Number x r n) : '\r' ∉ x := by
  cases h with
  | radix h1 h2 h3 h4 h5 =>
    simp only [List.mem_cons, not_or]
    refine ⟨by decide, ?_, fun hx => absurd (h3.1 _ hx) (by decide)⟩
    rintro rfl
    rcases h1 with ⟨h1 | h1, -⟩ | ⟨h1 | h1, -⟩ | ⟨h1 | h1, -⟩ <;> exact absurd h1 (by decide)
  | octal h1 => simp only [List.mem_cons, not_or]; exact ⟨by decide, digits_cr h1.1⟩
  | octalLike h1 => simp only [List.mem_cons, not_or]; exact ⟨by decide, digits_cr h1.1⟩
  | integer h1 h2 h3 h4 h5 => simp only [List.mem_append, not_or]; exact ⟨digits_cr h3.1, exponent_cr h5⟩
  | fraction h1 h2 h3 h4 h5 =>
    simp only [List.mem_cons, List.mem_append, not_or]
    exact ⟨digits_cr h3, by decide, digits_cr h4.1, exponent_cr h5⟩

theorem lexeme_endsWell {g : LexGoal} {q : Bool} {x r : Str} {c : Content} (h : Lexeme g q x r c) (hc : c ≠ .eof) : EndsWell x := by
  have hx := lexeme_ne h hc
  cases h with
  | eof => exact absurd rfl hc
  | @name c x _ _ h1 h2 =>
    refine endsWell_of hx ?_
    simp only [List.mem_cons, not_or]
    refine ⟨?_, idTail_cr h2⟩
    rintro rfl
    exact absurd h1 (by simp [isIdentifierStart, ucdIdStart, inRange])
  | number h => exact endsWell_of hx (number_cr h)
  | @string q x _ _ _ h1 h2 => exact ⟨q :: x, q, rfl, by rcases h1 with rfl | rfl <;> decide⟩
  | @template b x e _ _ _ _ h1 h2 =>
    have : EndsWell e := by cases h1 <;> exact endsWell_of (by simp) (by decide)
    exact this.append (x := b :: x)
  | @regexp x f _ _ h1 h2 h3 h4 =>
    have : EndsWell ('/' :: f) := endsWell_of (by simp) (by
      simp only [List.mem_cons, not_or]; exact ⟨by decide, idTail_cr h4⟩)
    exact this.append (x := '/' :: x)
  | punct h =>
    refine endsWell_of hx ?_
    have : ∀ y ∈ punctuators, '\r' ∉ y := by decide
    exact this _ h.1

/-- The words are still there if something else follows, as long as it begins with a blank. -/
theorem goes_wall {o : Bool} {a b : Str} {P : List Said} (h : Goes o a P b) (hP : ∀ u ∈ P, u.says ≠ .eof) :
    ∃ U, a = U ++ b ∧ ∀ z, Wall z → ∀ n, Begins n P (U ++ z) := by
  induction h with
  | stop => exact ⟨[], rfl, fun z _ n => .stop⟩
  | @word o w x r r' g q c P h1 h2 h3 h4 hg ih =>
    obtain ⟨U, rfl, hU⟩ := ih (fun u hu => hP u (List.mem_cons_of_mem _ hu))
    have hc : c ≠ .eof := hP _ List.mem_cons_self
    have hx := lexeme_ne h3 hc
    have hw : EndsWell (w ++ x) := (lexeme_endsWell h3 hc).append
    refine ⟨w ++ (x ++ U), by simp, fun z hz n => ?_⟩
    rw [show w ++ (x ++ U) ++ z = w ++ (x ++ (U ++ z)) by simp]
    refine .word (goal := g) (resume := q) (trivia_change h1 hx) (starts_wall h2 hx hz) (lexeme_wall h3 hc hz) ?_ (hU z hz _)
    rw [← List.append_assoc, lineBreaks_append _ hw, ← List.append_assoc, lineBreaks_append _ hw, Nat.add_sub_cancel, Nat.add_sub_cancel]
    exact alike_refl

theorem made_wall {w x r b : Str} {c : Content} {P : List Said} (h1 : Trivia w (x ++ r)) (h2 : ¬ StartsTrivia (x ++ r))
    (h3 : Lexeme .regExp false x r c) (hg : Goes (opens c) r P b) (hc : c ≠ .eof) (hP : ∀ u ∈ P, u.says ≠ .eof) :
    ∃ U, w ++ (x ++ r) = U ++ b ∧ ∀ z, Wall z → MadeOf c P (U ++ z) := by
  obtain ⟨U, rfl, hU⟩ := goes_wall hg hP
  have hx := lexeme_ne h3 hc
  refine ⟨w ++ (x ++ U), by simp, fun z hz => ?_⟩
  rw [show w ++ (x ++ U) ++ z = w ++ (x ++ (U ++ z)) by simp]
  exact .mk (trivia_change h1 hx) (starts_wall h2 hx hz) (lexeme_wall h3 hc hz) (hU z hz _)

/-- the last word read is a word of the source -/
theorem goes_last {source A : Str} {o : Bool} {a b : Str} {P : List Said} {u : Said} (h : Goes o a P b) (hs : source = A ++ a)
    (hl : Left source a) (hu : P.getLast? = some u) : ∃ pre x, IsWord source pre x b u.says := by
  induction h generalizing A with
  | stop => cases hu
  | @word o w x r r' g q c P h1 h2 h3 h4 hg ih =>
    cases P with
    | nil =>
      cases hg
      cases hu
      exact ⟨A ++ w, x, by rw [hs]; simp, ⟨w, List.suffix_append _ _, hl, h1, h2⟩, g, q, h3⟩
    | cons v P => exact ih (A := A ++ (w ++ x)) (by rw [hs]; simp) (.word hl h1 h2 h3) (by simpa using hu)

theorem made_last {w x r b : Str} {c : Content} {P : List Said} (h1 : Trivia w (x ++ r)) (h2 : ¬ StartsTrivia (x ++ r))
    (h3 : Lexeme .regExp false x r c) (hg : Goes (opens c) r P b) :
    ∃ pre y d, IsWord (w ++ (x ++ r)) pre y b d ∧ (c :: P.map Said.says).getLast? = some d := by
  cases hP : P.getLast? with
  | none =>
    have := List.getLast?_eq_none_iff.1 hP
    subst this
    cases hg
    exact ⟨w, x, c, ⟨rfl, ⟨w, List.suffix_refl _, .all, h1, h2⟩, _, _, h3⟩, rfl⟩
  | some u =>
    obtain ⟨pre, y, h⟩ := goes_last (A := w ++ x) hg (by simp) (.word .all h1 h2 h3) hP
    refine ⟨pre, y, u.says, h, ?_⟩
    cases P with
    | nil => cases hP
    | cons v P => rw [List.map_cons, List.getLast?_cons_cons, ← List.map_cons, List.getLast?_map, hP]; rfl

theorem goes_nil {o : Bool} {a b : Str} {P : List Said} (h : Goes o a P b) (ha : a = []) : ∀ u ∈ P, u.says = .eof := by
  induction h with
  | stop => simp
  | @word o w x r r' g q c P h1 h2 h3 h4 hg ih =>
    simp only [List.append_eq_nil_iff] at ha
    obtain ⟨rfl, rfl, rfl⟩ := ha
    have hc : c = .eof := Classical.byContradiction fun h => lexeme_ne h3 h rfl
    intro u hu
    rcases List.mem_cons.1 hu with rfl | hu
    · exact hc
    · exact ih rfl u hu

/-- after the end there are no other words -/
theorem goes_eof {o : Bool} {a b : Str} {P : List Said} {u v : Said} (h : Goes o a P b) (hu : u ∈ P) (he : u.says = .eof)
    (hv : P.getLast? = some v) : v.says = .eof := by
  induction h with
  | stop => cases hu
  | @word o w x r r' g q c P h1 h2 h3 h4 hg ih =>
    cases P with
    | nil =>
      cases hv
      rcases List.mem_cons.1 hu with rfl | hu
      · exact he
      · cases hu
    | cons p P =>
      have hv' : (p :: P).getLast? = some v := by simpa using hv
      rcases List.mem_cons.1 hu with rfl | hu
      · dsimp only at he
        subst he
        exact goes_nil hg (eof_lexeme h3) v (List.mem_of_getLast? hv')
      · exact ih hu hv'

end Layout
end Giron

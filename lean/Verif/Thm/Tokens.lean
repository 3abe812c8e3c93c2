import Verif.Thm.Lexical
/-
C22 (spelled numbers), C23 (trivia before a source), C37 (braces).
-/
namespace Giron
open Spec Scanner

/-! ### C37: braces -/

namespace Spec

/-- What a token does to the nesting of braces: `{` opens, `}` closes; a template chunk that ends in `${` opens a
substitution, one that begins with `}` closes a substitution. -/
inductive Bracket
  | opens (b : Brace)
  | closes (b : Brace)
deriving DecidableEq, Repr

/-- The brackets in a token, in order. -/
def brackets (t : Token) : List Bracket :=
  if t.tokentype = .punctuator then
    if t.value = .punc .lBrace then [.opens .lBrace]
    else if t.value = .punc .rBrace then [.closes .lBrace]
    else []
  else if t.tokentype = .template then
    (if t.head = some false then [.closes .template] else []) ++ (if t.tail = some false then [.opens .template] else [])
  else []

/-- Every bracket that is opened is closed, and the other way round; *by what* does not matter. -/
inductive Balanced : List Bracket → Prop
  | nil : Balanced []
  | wrap {a b : Brace} {x y : List Bracket} : Balanced x → Balanced y → Balanced (.opens a :: (x ++ .closes b :: y))

/-- Nothing is left open: only closing brackets are unmatched. -/
inductive NothingOpen : List Bracket → Prop
  | nil : NothingOpen []
  | balanced {x y : List Bracket} : Balanced x → NothingOpen y → NothingOpen (x ++ y)
  | unmatched {b : Brace} {y : List Bracket} : NothingOpen y → NothingOpen (.closes b :: y)

end Spec

/-- the braces left open -/
def leftOpen : List Brace → List Bracket → List Brace
  | b, [] => b
  | b, .opens k :: es => leftOpen (k :: b) es
  | b, .closes _ :: es => leftOpen b.tail es

/-- every closing bracket is what the innermost open one asks for -/
def Fits : List Brace → List Bracket → Prop
  | _, [] => True
  | b, .opens k :: es => Fits (k :: b) es
  | b, .closes k :: es => k = b.head?.getD .lBrace ∧ Fits b.tail es

theorem leftOpen_append {b : List Brace} {x y : List Bracket} : leftOpen b (x ++ y) = leftOpen (leftOpen b x) y := by
  induction x generalizing b with
  | nil => rfl
  | cons e x ih => cases e <;> simp only [List.cons_append, leftOpen, ih]

theorem fits_append {b : List Brace} {x y : List Bracket} : Fits b (x ++ y) ↔ Fits b x ∧ Fits (leftOpen b x) y := by
  induction x generalizing b with
  | nil => simp [Fits, leftOpen]
  | cons e x ih => cases e <;> simp only [List.cons_append, leftOpen, Fits, ih, and_assoc]

theorem Spec.Balanced.leftOpen {x : List Bracket} (h : Balanced x) (b : List Brace) : leftOpen b x = b := by
  induction h generalizing b with
  | nil => rfl
  | wrap _ _ ih1 ih2 => simp only [Giron.leftOpen, leftOpen_append, ih1, ih2, List.tail_cons]

theorem Spec.NothingOpen.leftOpen {x : List Bracket} (h : NothingOpen x) : leftOpen [] x = [] := by
  induction h with
  | nil => rfl
  | balanced h _ ih => rw [leftOpen_append, h.leftOpen, ih]
  | unmatched _ ih => simpa [Giron.leftOpen] using ih

section
variable [Env] {source : Str} {goals : List LexGoal}

theorem lexeme_fits {goal : LexGoal} {b : List Brace} {x r : Str} {c : Content} {l k i j : Nat}
    (h : Lexeme goal (decide (b.head? = some .template)) x r c) :
    Fits b (brackets (c.token l k i j)) ∧ c.braces b = leftOpen b (brackets (c.token l k i j)) := by
  have notTemplate : ∀ b : List Brace, b.head? ≠ some .template → b.head?.getD .lBrace = .lBrace := by
    intro b
    cases b with
    | nil => intro; rfl
    | cons a b => cases a <;> simp
  cases h with
  | name h1 h2 =>
    have : ∀ v, brackets (Content.token l k i j (.name v)) = [] := by
      intro v
      unfold Content.token nameToken
      dsimp only
      split
      · rfl
      · split
        · rfl
        · split <;> rfl
    rw [this]
    exact ⟨trivial, rfl⟩
  | template he hb =>
    cases he with
    | whole => exact ⟨trivial, rfl⟩
    | first => exact ⟨trivial, rfl⟩
    | middle hc =>
      have : b.head? = some .template := by simpa using hc
      exact ⟨⟨by rw [this]; rfl, trivial⟩, rfl⟩
    | last hc =>
      have : b.head? = some .template := by simpa using hc
      exact ⟨⟨by rw [this]; rfl, trivial⟩, rfl⟩
  | @punct x r p hp h1 h2 h3 =>
    by_cases hl : p = .lBrace
    · subst hl; exact ⟨trivial, rfl⟩
    · by_cases hr : p = .rBrace
      · subst hr
        have := h2 hp.2.1.symm
        exact ⟨⟨(notTemplate b (by simpa using this)).symm, trivial⟩, rfl⟩
      · have : brackets (Content.token l k i j (.punct p)) = [] := by
          unfold brackets Content.token
          simp [hl, hr]
        rw [this]
        refine ⟨trivial, ?_⟩
        cases p <;> first | rfl | exact absurd rfl hl | exact absurd rfl hr
  | _ => exact ⟨trivial, rfl⟩

theorem tokens_fit {pre text : Str} {b : List Brace} {ts : List (Token × Bool)} (h : Tokens source goals pre b text ts) :
    Fits b (ts.flatMap fun t => brackets t.1) := by
  induction h with
  | stop => trivial
  | token h1 h2 h3 h4 h5 h6 h7 ih =>
    rw [List.flatMap_cons, fits_append]
    subst h4
    obtain ⟨ha, hb⟩ := lexeme_fits (l := _) (k := _) (i := _) (j := _) h3
    exact ⟨ha, hb ▸ ih⟩

/-- C37: in every sequence of tokens returned by calls of `next`, a closing bracket that is matched closes what the
matching bracket opened: a `}` resumes a template if and only if its match is a `${`. -/
theorem C37_matching {ts : List (Token × Bool)} {s : Scanner} (h : nextAll goals (Scanner.new source) = .ok (ts, s))
    {before inside after : List Bracket} {a b : Brace} (hi : Balanced inside)
    (he : (ts.flatMap fun t => brackets t.1) = before ++ .opens a :: (inside ++ .closes b :: after)) : b = a := by
  have := tokens_fit (nextAll_sound (at_new source) h)
  rw [he, fits_append] at this
  have := this.2
  simp only [Fits, fits_append, hi.leftOpen, List.head?_cons, Option.getD_some] at this
  exact this.2.1

/-- C37: a closing bracket that is not matched is an ordinary `}`. -/
theorem C37_unmatched {ts : List (Token × Bool)} {s : Scanner} (h : nextAll goals (Scanner.new source) = .ok (ts, s))
    {before after : List Bracket} {b : Brace} (hi : NothingOpen before)
    (he : (ts.flatMap fun t => brackets t.1) = before ++ .closes b :: after) : b = .lBrace := by
  have := tokens_fit (nextAll_sound (at_new source) h)
  rw [he, fits_append] at this
  have h2 := this.2
  have e : (new source).curly = [] := rfl
  rw [e, hi.leftOpen] at h2
  exact h2.1

/-! ### C23: trivia before a source -/

omit [Env] in
theorem Spec.Trivia.append {w w' r : Str} (h : Trivia w (w' ++ r)) (h' : Trivia w' r) : Trivia (w ++ w') r := by
  generalize he : w' ++ r = r' at h
  induction h with
  | done => exact h'
  | blank hc _ ih => exact .blank hc (ih he)
  | @line body w r0 hb _ ih =>
    subst he
    rw [List.cons_append, List.cons_append, List.append_assoc]
    exact .line (by rw [List.append_assoc]; exact hb) (ih rfl)
  | block hb _ ih =>
    rw [List.cons_append, List.cons_append, List.append_assoc, List.cons_append, List.cons_append]
    exact .block hb (ih he)
  | openBlock hb =>
    simp only [List.append_eq_nil_iff] at he
    obtain ⟨rfl, rfl⟩ := he
    rw [List.append_nil]
    exact .openBlock hb

/-- A token moved by some characters and lines. -/
def Spec.moved (chars lines : Nat) (t : Token) : Token :=
  { t with start := t.start + chars, «end» := t.end + chars, lineNum := t.lineNum + lines }

theorem tokens_move {source' pre pre' text : Str} {b : List Brace} {ts : List (Token × Bool)} {k d : Nat}
    (h : Tokens source goals pre b text ts) (hl : lineBreaks text ≤ lines source) (hne : pre ++ text ≠ [])
    (hd : lines source' = lines source + d) (hp : pre'.length = pre.length + k) :
    Tokens source' goals pre' b text (ts.map fun t => (moved k d t.1, t.2)) := by
  induction h generalizing pre' with
  | stop => exact .stop
  | @token goal goals pre w x r b c t nl ts h1 h2 h3 h4 h5 h6 h7 ih =>
    have hpos : pre ++ w ++ x ≠ [] := by
      intro h0
      simp only [List.append_eq_nil_iff] at h0
      obtain ⟨⟨rfl, rfl⟩, rfl⟩ := h0
      cases h3 with
      | eof => exact hne rfl
      | number hn => exact hn.ne_nil rfl
      | punct hp => have := hp.1; revert this; decide
    have hpos' : pre' ++ w ++ x ≠ [] := by
      intro h0
      apply hpos
      simp only [List.append_eq_nil_iff] at h0 ⊢
      obtain ⟨⟨rfl, rfl⟩, rfl⟩ := h0
      have : pre.length = 0 := by simp at hp; omega
      exact ⟨⟨List.length_eq_zero_iff.mp this, rfl⟩, rfl⟩
    have hr : lineBreaks r ≤ lines source := by
      have h1 := lineBreaks_drop_le x r
      have h2 := lineBreaks_drop_le w (x ++ r)
      omega
    refine .token h1 h2 h3 ?_ (fun h => absurd h hpos') h6 (ih hr ?_ ?_)
    · dsimp only
      have hlen : (pre ++ w ++ x).length ≠ 0 := fun h => hpos (List.length_eq_zero_iff.mp h)
      rw [h4, if_neg hpos, if_neg hpos', hd]
      have e1 : lines source + d - lineBreaks r = lines source - lineBreaks r + d := by omega
      have e2 : (pre' ++ w ++ x).length - 1 = (pre ++ w ++ x).length - 1 + k := by
        simp only [List.length_append] at *; omega
      have e3 : (pre' ++ w).length = (pre ++ w).length + k := by simp only [List.length_append] at *; omega
      rw [e1, e2, e3]
      cases c <;> rfl
    · exact fun h => hpos (List.append_eq_nil_iff.mp h).1
    · simp only [List.length_append] at *; omega

/-- The sequence of tokens moved; there is a line break before the first token if there was one or `b` says so. -/
def Spec.movedAll (chars lines : Nat) (b : Bool) : List (Token × Bool) → List (Token × Bool)
  | [] => []
  | t :: ts => (moved chars lines t.1, t.2 || b) :: ts.map fun t => (moved chars lines t.1, t.2)

theorem tokens_after_trivia {w : Str} {ts : List (Token × Bool)} (hw : Trivia w source) (hne : source ≠ [])
    (h : Tokens source goals [] [] source ts) :
    Tokens (w ++ source) goals [] [] (w ++ source) (movedAll w.length (lineBreaks (w ++ source) - lineBreaks source)
      (decide (lineBreaks source < lineBreaks (w ++ source))) ts) := by
  have hle := lineBreaks_drop_le w source
  cases h with
  | stop => exact .stop
  | @token goal goals pre w1 x r b c t nl ts h1 h2 h3 h4 h5 h6 h7 =>
    have e : w ++ (w1 ++ (x ++ r)) = (w ++ w1) ++ (x ++ r) := by simp
    have hle1 := lineBreaks_drop_le w1 (x ++ r)
    have hle2 := lineBreaks_drop_le x r
    have hpos : w1 ++ x ≠ [] := by
      intro h0
      simp only [List.append_eq_nil_iff] at h0
      obtain ⟨rfl, rfl⟩ := h0
      cases h3 with
      | eof => exact hne rfl
      | number hn => exact hn.ne_nil rfl
      | punct hp => have := hp.1; revert this; decide
    have hpos' : w ++ (w1 ++ x) ≠ [] := fun h => hpos (List.append_eq_nil_iff.mp h).2
    have e0 : w ++ w1 ++ x = w ++ (w1 ++ x) := List.append_assoc ..
    rw [movedAll]
    conv => arg 5; rw [e]
    have hd : lines (w ++ (w1 ++ (x ++ r))) = lines (w1 ++ (x ++ r)) + (lineBreaks (w ++ (w1 ++ (x ++ r))) -
        lineBreaks (w1 ++ (x ++ r))) := by
      unfold lines; omega
    refine .token (hw.append h1) h2 h3 ?_ ?_ ?_ (tokens_move (d := _) (k := w.length) h7 ?_ ?_ hd ?_)
    · have hlen : (w1 ++ x).length ≠ 0 := fun h => hpos (List.length_eq_zero_iff.mp h)
      dsimp only
      rw [h4]
      simp only [List.nil_append]
      rw [if_neg hpos, e0, if_neg hpos', hd]
      have e1 : lines (w1 ++ (x ++ r)) + (lineBreaks (w ++ (w1 ++ (x ++ r))) - lineBreaks (w1 ++ (x ++ r))) - lineBreaks r =
          lines (w1 ++ (x ++ r)) - lineBreaks r + (lineBreaks (w ++ (w1 ++ (x ++ r))) - lineBreaks (w1 ++ (x ++ r))) := by
        unfold lines; omega
      have e2 : (w ++ (w1 ++ x)).length - 1 = (w1 ++ x).length - 1 + w.length := by
        rw [List.length_append (as := w)]; omega
      have e3 : (w ++ w1).length = w1.length + w.length := by rw [List.length_append]; omega
      rw [e1, e2, e3]
      cases c <;> rfl
    · intro h
      simp only [List.nil_append] at h
      exact absurd (e0 ▸ h) hpos'
    · dsimp only
      rw [h6, ← e, Bool.eq_iff_iff]
      simp only [Bool.or_eq_true, decide_eq_true_eq]
      omega
    · unfold lines; omega
    · simp only [List.nil_append]
      exact fun h => hpos (List.append_eq_nil_iff.mp h).1
    · simp only [List.nil_append, List.length_append]; omega

/-- whether there are tokens does not depend on what was before -/
theorem tokens_exist {source' pre pre' text : Str} {b : List Brace} {ts : List (Token × Bool)}
    (h : Tokens source goals pre b text ts) (hne : pre' ++ text ≠ []) : ∃ ts', Tokens source' goals pre' b text ts' := by
  induction h generalizing pre' with
  | stop => exact ⟨[], .stop⟩
  | @token goal goals pre w x r b c t nl ts h1 h2 h3 h4 h5 h6 h7 ih =>
    have hpos : pre' ++ w ++ x ≠ [] := by
      intro h0
      simp only [List.append_eq_nil_iff] at h0
      obtain ⟨⟨rfl, rfl⟩, rfl⟩ := h0
      cases h3 with
      | eof => exact hne rfl
      | number hn => exact hn.ne_nil rfl
      | punct hp => have := hp.1; revert this; decide
    obtain ⟨ts', h⟩ := ih (pre' := pre' ++ w ++ x) (fun h => hpos (List.append_eq_nil_iff.mp h).1)
    exact ⟨_, .token h1 h2 h3 rfl (fun h => absurd h hpos) rfl h⟩

theorem tokens_before_trivia {w : Str} {ts : List (Token × Bool)} (hw : Trivia w source) (hne : source ≠ [])
    (h : Tokens (w ++ source) goals [] [] (w ++ source) ts) : ∃ ts', Tokens source goals [] [] source ts' := by
  obtain ⟨w0, r0, hs, hw0, hn0⟩ := exists_trivia source
  generalize ht : w ++ source = text at h
  have key : ∀ orig pre b, Tokens orig goals pre b text ts → ∃ ts', Tokens source goals [] b source ts' := by
    intro orig pre b h
    cases h with
    | stop => exact ⟨[], .stop⟩
    | @token goal goals _ w1 x r _ c t nl ts h1 h2 h3 h4 h5 h6 h7 =>
      rw [hs, ← List.append_assoc] at ht
      obtain ⟨-, rfl⟩ := trivia_unique ((hs ▸ hw).append hw0) hn0 h1 h2 ht
      have hpos : w0 ++ x ≠ [] := by
        intro h0
        simp only [List.append_eq_nil_iff] at h0
        obtain ⟨rfl, rfl⟩ := h0
        cases h3 with
        | eof => exact hne hs
        | number hn => exact hn.ne_nil rfl
        | punct hp => have := hp.1; revert this; decide
      obtain ⟨ts', h⟩ := tokens_exist (source' := source) (pre' := [] ++ w0 ++ x) h7
        (fun h => hpos (List.append_eq_nil_iff.mp h).1)
      have h' := Tokens.token hw0 hn0 h3 rfl (fun h => absurd h hpos) rfl h
      exact ⟨_, by rw [← hs] at h'; exact h'⟩
  exact key _ _ _ h

/-- C23: putting white space, line terminators and complete comments before a source moves every token that is scanned
and changes nothing else, except that there may now be a line break before the first token. -/
theorem C23_leading_trivia {w : Str} (hw : Trivia w source) (hne : source ≠ []) (goals : List LexGoal)
    (ts' : List (Token × Bool)) :
    (∃ s, nextAll goals (Scanner.new (w ++ source)) = .ok (ts', s)) ↔
      ∃ ts s, nextAll goals (Scanner.new source) = .ok (ts, s) ∧
        ts' = movedAll w.length (lineBreaks (w ++ source) - lineBreaks source)
          (decide (lineBreaks source < lineBreaks (w ++ source))) ts := by
  constructor
  · rintro ⟨s, h⟩
    obtain ⟨ts, h'⟩ := tokens_before_trivia hw hne (nextAll_sound (at_new _) h)
    obtain ⟨s1, h1⟩ := nextAll_complete h' (at_new _) rfl rfl
    obtain ⟨s2, h2⟩ := nextAll_complete (tokens_after_trivia hw hne h') (at_new _) rfl rfl
    rw [h] at h2
    cases h2
    exact ⟨ts, s1, h1, rfl⟩
  · rintro ⟨ts, s, h, rfl⟩
    exact nextAll_complete (tokens_after_trivia hw hne (nextAll_sound (at_new _) h)) (at_new _) rfl rfl

/-! ### C22: spelled numbers -/

/-- The character of a digit below 16. -/
def Spec.digitChar (d : Nat) : Char := cs!"0123456789abcdef".getD d '0'

/-- The spelling of a number in a radix, most significant digit first. -/
def Spec.spellNat (radix n : Nat) : Str :=
  if _h : n < radix ∨ radix < 2 then [digitChar n]
  else spellNat radix (n / radix) ++ [digitChar (n % radix)]
termination_by n
decreasing_by exact Nat.div_lt_self (by omega) (by omega)

omit [Env] in
theorem digit_digitChar : ∀ d < 16, digit (digitChar d) = d ∧ isHexDigit (digitChar d) = true ∧
    (d < 10 → isDecimalDigit (digitChar d) = true) ∧ (0 < d → digitChar d ≠ '0') := by decide

omit [Env] in
theorem spellNat_spec {radix : Nat} (h2 : 2 ≤ radix) (h16 : radix ≤ 16) (n : Nat) :
    numeral radix (spellNat radix n) = n ∧ (∀ c ∈ spellNat radix n, ∃ d < radix, c = digitChar d) ∧
      (0 < n → ∃ d c, 0 < d ∧ d < radix ∧ spellNat radix n = digitChar d :: c) := by
  induction n using Nat.strongRecOn with
  | _ n ih =>
    rw [spellNat]
    split
    · next h =>
      have hn : n < radix := by omega
      refine ⟨?_, ?_, fun h => ⟨n, [], h, hn, rfl⟩⟩
      · simp [numeral, (digit_digitChar n (by omega)).1]
      · intro c hc
        rw [List.mem_singleton] at hc
        exact ⟨n, hn, hc⟩
    · next h =>
      have hlt : n / radix < n := Nat.div_lt_self (by omega) (by omega)
      have hm : n % radix < radix := Nat.mod_lt _ (by omega)
      obtain ⟨i1, i2, i3⟩ := ih _ hlt
      refine ⟨?_, ?_, fun _ => ?_⟩
      · rw [numeral_append, i1]
        simp only [List.length_singleton, Nat.pow_one, numeral, List.length_nil, Nat.pow_zero, Nat.mul_one, Nat.add_zero,
          (digit_digitChar (n % radix) (by omega)).1]
        exact Nat.div_add_mod' n radix
      · intro c hc
        rcases List.mem_append.mp hc with hc | hc
        · exact i2 c hc
        · rw [List.mem_singleton] at hc
          exact ⟨_, hm, hc⟩
      · obtain ⟨d, c, h1, h2, h3⟩ := i3 (Nat.div_pos (by omega) (by omega))
        exact ⟨d, c ++ [digitChar (n % radix)], h1, h2, by rw [h3]; rfl⟩

omit [Env] in
/-- The decimal spelling is a number literal. -/
theorem decimal_number {r : Str} (n : Nat)
    (hend : ∀ c, r.head? = some c → isDecimalDigit c = false ∧ c ∉ cs!".eEbBoOxX") :
    Number (spellNat 10 n) r ⟨n, 0⟩ := by
  obtain ⟨h1, h2, h3⟩ := spellNat_spec (radix := 10) (by decide) (by decide) n
  have hdig : ∀ c ∈ spellNat 10 n, isDecimalDigit c = true := by
    intro c hc
    obtain ⟨d, hd, rfl⟩ := h2 c hc
    exact (digit_digitChar d (by omega)).2.2.1 hd
  have hno : ∀ c, c ∈ cs!".eEbBoOxX" → r.head? ≠ some c := fun c hc h => (hend c h).2 hc
  by_cases hn : n = 0
  · subst hn
    have e : spellNat 10 0 = ['0'] := by rw [spellNat]; rfl
    rw [e]
    cases r with
    | nil =>
      have := Number.integer (ds := ['0']) (ex := []) (r := []) (k := 0) (by simp) (fun _ => rfl) ⟨by decide, by simp⟩
        (by simp) (.none (by simp) (by simp))
      exact this
    | cons c r =>
      have hc := hend c rfl
      refine Number.octal (ds := []) (r := c :: r) ⟨by simp, fun d hd => (hend d hd).1⟩ (by simp) ?_ (by simp) (by decide)
      rintro - d hd
      have := (hend d hd).2
      simp only [List.mem_cons, not_or] at this
      exact ⟨this.1, this.2.2.2.1, this.2.2.2.2.1, this.2.2.2.2.2.1, this.2.2.2.2.2.2.1, this.2.2.2.2.2.2.2.1,
        this.2.2.2.2.2.2.2.2.1⟩
  · obtain ⟨d, c, hd, hd', he⟩ := h3 (by omega)
    have := Number.integer (ds := spellNat 10 n) (ex := []) (r := r) (k := 0) (by rw [he]; simp) ?_
      ⟨hdig, fun c hc => (hend c hc).1⟩ (hno _ (by decide)) (.none (hno _ (by decide)) (hno _ (by decide)))
    · rw [List.append_nil, h1] at this
      exact this
    · rw [he]
      intro h
      have := (digit_digitChar d (by omega)).2.2.2 hd
      simp at h
      exact absurd h this

/-- C22: the decimal spelling of a number scans to the number, whatever follows that cannot belong to it. -/
theorem C22_decimal_round_trip {s : Scanner} {goal : LexGoal} (hs : Reached source s) {w r : Str} (n : Nat)
    (hr : s.rest = w ++ (spellNat 10 n ++ r)) (hw : Trivia w (spellNat 10 n ++ r))
    (hend : ∀ c, r.head? = some c → isDecimalDigit c = false ∧ c ∉ cs!".eEbBoOxX") :
    ∃ t s', Scanner.next goal s = .ok (t, s') ∧ s'.rest = r ∧ t.tokentype = .numericLiteral ∧ t.value = .num ⟨n, 0⟩ :=
  C22_scans_number hs hr hw (decimal_number n hend)

/-- C22: so do the binary, octal and hexadecimal spellings of a number below 2^63. -/
theorem C22_radix_round_trip {s : Scanner} {goal : LexGoal} (hs : Reached source s) {w r : Str} (n radix : Nat) (p : Char)
    (hp : (p = 'b' ∨ p = 'B') ∧ radix = 2 ∨ (p = 'o' ∨ p = 'O') ∧ radix = 8 ∨ (p = 'x' ∨ p = 'X') ∧ radix = 16)
    (hr : s.rest = w ++ ('0' :: p :: spellNat radix n ++ r)) (hw : Trivia w ('0' :: p :: spellNat radix n ++ r))
    (hn : n < 2 ^ 63) (hend : ∀ c, r.head? = some c → isHexDigit c = false) :
    ∃ t s', Scanner.next goal s = .ok (t, s') ∧ s'.rest = r ∧ t.tokentype = .numericLiteral ∧ t.value = .num ⟨n, 0⟩ := by
  have hrad : 2 ≤ radix ∧ radix ≤ 16 := by omega
  obtain ⟨h1, h2, h3⟩ := spellNat_spec hrad.1 hrad.2 n
  refine C22_scans_number hs hr hw ?_
  have := Number.radix (ds := spellNat radix n) (r := r) hp ?_ ⟨?_, hend⟩ ?_ (by rw [h1]; exact hn)
  · rw [h1] at this; exact this
  · rw [spellNat]; split <;> simp
  · intro c hc
    obtain ⟨d, hd, rfl⟩ := h2 c hc
    exact (digit_digitChar d (by omega)).2.1
  · intro c hc
    obtain ⟨d, hd, rfl⟩ := h2 c hc
    rw [(digit_digitChar d (by omega)).1]; exact hd

end
end Giron

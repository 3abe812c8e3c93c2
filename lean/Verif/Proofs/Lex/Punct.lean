import Verif.Proofs.Lex.Templates
/-
Punctuators: the scanner takes the longest.
-/
namespace Giron
open M Spec
namespace Scanner
variable {s : Scanner}

/-- the state with another stack of braces -/
def withCurly (l : List Brace) (s : Scanner) : Scanner := { s with curly := l }

theorem afterConsume_withCurly (l : List Brace) : afterConsume (withCurly l s) = withCurly l (afterConsume s) := by
  unfold afterConsume withCurly
  dsimp only
  split
  · rfl
  · split
    · rfl
    · split <;> rfl

theorem afterN_withCurly (l : List Brace) (k : Nat) : afterN k (withCurly l s) = withCurly l (afterN k s) := by
  induction k generalizing s with
  | zero => rfl
  | succ k ih => rw [afterN_succ, afterConsume_withCurly, ih, afterN_succ]

theorem withCurly_self : withCurly s.curly s = s := rfl

theorem ofStr_toStr (p : Punctuator) : Punctuator.ofStr p.toStr = some p := by cases p <;> decide

theorem toStr_inj {p q : Punctuator} (h : p.toStr = q.toStr) : p = q := by
  have := ofStr_toStr p
  rw [h, ofStr_toStr] at this
  exact (Option.some.inj this).symm

theorem of_ite_some {α : Type} {c : Prop} [Decidable c] {a p : α} {b : Option α}
    (h : (if c then some a else b) = some p) : c ∧ a = p ∨ b = some p := by
  by_cases hc : c
  · rw [if_pos hc] at h; exact .inl ⟨hc, Option.some.inj h⟩
  · rw [if_neg hc] at h; exact .inr h

theorem ofStr_some {x : Str} {p : Punctuator} (h : Punctuator.ofStr x = some p) : p.toStr = x := by
  unfold Punctuator.ofStr at h
  repeat (rcases of_ite_some h with ⟨rfl, rfl⟩ | h; · rfl)
  cases h

/-- At most one punctuator is the longest. -/
theorem punct_unique {x r x' r' : Str} {p p' : Punctuator} (h : Punct x r p) (h' : Punct x' r' p')
    (e : x ++ r = x' ++ r') : x = x' ∧ r = r' ∧ p = p' := by
  have h1 := h.2.2.1 x' h'.1 (by rw [e]; exact List.prefix_append _ _)
  have h2 := h'.2.2.1 x h.1 (by rw [← e]; exact List.prefix_append _ _)
  have hx : x = x' ∧ r = r' := List.append_inj e (by omega)
  refine ⟨hx.1, hx.2, toStr_inj ?_⟩
  rw [h.2.1, h'.2.1, hx.1]

variable [Env]

/-- what `scanPunctuator` does when it succeeds -/
def PunctAt (s : Scanner) (m : Except Fail (Token × Scanner)) : Prop :=
  ∃ x r p, s.rest = x ++ r ∧ Punct x r p ∧
    m = tokenSimple .punctuator (.punc p) (withCurly ((Content.punct p).braces s.curly) (afterN x.length s))

theorem punc0_eq (p : Punctuator) : punc0 p.toStr s = tokenSimple .punctuator (.punc p) s := by
  unfold punc0
  rw [ofStr_toStr]; rfl

theorem punc1_eq (p : Punctuator) : punc1 p.toStr s = tokenSimple .punctuator (.punc p) (afterN 1 s) := by
  unfold punc1
  rw [M.bind_ok (consume_eq s), punc0_eq]; rfl

theorem punc2_eq (p : Punctuator) : punc2 p.toStr s = tokenSimple .punctuator (.punc p) (afterN 2 s) := by
  unfold punc2
  rw [M.bind_ok (consume_eq s), M.bind_ok (consume_eq _), punc0_eq]; rfl

omit [Env] in
/-- only the punctuators with the same first character compete -/
theorem longest_of {c : Char} {x z : Str} {n : Nat} (l : List Str)
    (hl : punctuators.filter (fun y => y.head? == some c) = l) (hx : x = c :: z)
    (h : ∀ y ∈ l, y.tail <+: z → y.length ≤ n) : ∀ y ∈ punctuators, y <+: x → y.length ≤ n := by
  subst hx
  intro y hy hp
  cases y with
  | nil => exact absurd hy (by decide)
  | cons d y =>
    rw [List.cons_prefix_cons] at hp
    obtain ⟨rfl, hp⟩ := hp
    exact h (d :: y) (by rw [← hl]; exact List.mem_filter.2 ⟨hy, by simp⟩) hp

theorem PunctAt.intro (x r : Str) (p : Punctuator) {m : Except Fail (Token × Scanner)} (h : s.rest = x ++ r)
    (h1 : x ∈ punctuators) (h2 : p.toStr = x) (h3 : ∀ y ∈ punctuators, y <+: x ++ r → y.length ≤ x.length)
    (h4 : r = [] → x ∉ [cs!"+", cs!"-", cs!"&", cs!"|", cs!"%", cs!"^"])
    (h5 : m = tokenSimple .punctuator (.punc p) (withCurly ((Content.punct p).braces s.curly) (afterN x.length s))) :
    PunctAt s m := ⟨x, r, p, h, ⟨h1, h2, h3, h4⟩, h5⟩

/-- a punctuator that begins no other -/
theorem single_at {c : Char} {r : Str} {p : Punctuator} {m : Except Fail (Token × Scanner)} (h : s.rest = c :: r)
    (h1 : [c] ∈ punctuators)
    (h2 : p.toStr = [c]) (h3 : punctuators.filter (fun y => y.head? == some c) = [[c]])
    (h4 : [c] ∉ [cs!"+", cs!"-", cs!"&", cs!"|", cs!"%", cs!"^"])
    (hm : m = tokenSimple .punctuator (.punc p) (withCurly ((Content.punct p).braces s.curly) (afterConsume s))) :
    PunctAt s m :=
  .intro [c] r p h h1 h2 (longest_of _ h3 rfl (by simp)) (fun _ => h4) hm

/-- one that is no brace -/
theorem plain_at (x r : Str) (p : Punctuator) {m : Except Fail (Token × Scanner)} (c : Char) (z : Str) (l : List Str)
    (h : s.rest = c :: z) (hz : c :: z = x ++ r)
    (h1 : x ∈ punctuators) (h2 : p.toStr = x) (hl : punctuators.filter (fun y => y.head? == some c) = l)
    (hb : (Content.punct p).braces s.curly = s.curly)
    (h3 : ∀ y ∈ l, y.tail <+: z → y.length ≤ x.length)
    (h4 : r = [] → x ∉ [cs!"+", cs!"-", cs!"&", cs!"|", cs!"%", cs!"^"])
    (h5 : m = tokenSimple .punctuator (.punc p) (afterN x.length s)) : PunctAt s m := by
  refine .intro x r p (h.trans hz) h1 h2 (longest_of l hl hz.symm h3) h4 ?_
  rw [h5, hb, show s.curly = (afterN x.length s).curly by simp, withCurly_self]

/-- The text begins with a character that can begin a punctuator (other than `/`), not the last one if it is one of
`+-&|%^`. -/
def Starts (text : Str) : Prop :=
  ∃ c r, text = c :: r ∧ c ∈ cs!"{}([;,]:?~).<!*=>+-&|%^" ∧ (c ∈ cs!"+-&|%^" → r ≠ [])

theorem single_punc1 {c : Char} {p : Punctuator} (h2 : p.toStr = [c]) (hc : (Content.punct p).braces s.curly = s.curly) :
    punc1 [c] s = tokenSimple .punctuator (.punc p) (withCurly ((Content.punct p).braces s.curly) (afterConsume s)) := by
  rw [← h2, punc1_eq, hc, show s.curly = (afterConsume s).curly by simp, withCurly_self]; rfl

/-- an operator character that may be doubled or followed by `=` -/
theorem double_at {c : Char} {d : Char} {r : Str} {p p1 p2 : Punctuator} (h : s.rest = c :: d :: r)
    (h1 : p.toStr = [c]) (h2 : p1.toStr = [c, '=']) (h3 : p2.toStr = [c, c])
    (hl : punctuators.filter (fun y => y.head? == some c) = [[c], [c, c], [c, '=']])
    (hb : ∀ q ∈ [p, p1, p2], (Content.punct q).braces s.curly = s.curly) (hc : c ≠ '=') :
    PunctAt s ((if some d = some '=' then punc2 [c, '='] else if some d = some c then punc2 [c, c] else punc1 [c]) s) := by
  have hmem : ∀ x ∈ [[c], [c, c], [c, '=']], x ∈ punctuators := fun x hx => by
    rw [← hl] at hx; exact (List.mem_filter.1 hx).1
  by_cases hd : d = '='
  · subst hd
    rw [if_pos rfl]
    refine plain_at [c, '='] r p1 c _ _ h rfl (hmem _ (by simp)) h2 hl (hb _ (by simp)) ?_ (by simp) ?_
    · simp
    · rw [← h2, punc2_eq, h2]; rfl
  · by_cases hd2 : d = c
    · subst hd2
      rw [if_neg (by simpa using hd), if_pos rfl]
      refine plain_at [d, d] r p2 d _ _ h rfl (hmem _ (by simp)) h3 hl (hb _ (by simp)) ?_ (by simp) ?_
      · simp
      · rw [← h3, punc2_eq, h3]; rfl
    · rw [if_neg (by simpa using hd), if_neg (by simpa using hd2)]
      refine plain_at [c] (d :: r) p c _ _ h rfl (hmem _ (by simp)) h1 hl (hb _ (by simp)) ?_ (by simp) ?_
      · simp [Ne.symm hd, Ne.symm hd2]
      · rw [← h1, punc1_eq, h1]; rfl

/-- an operator character that may be followed by `=` -/
theorem assign_at {c : Char} {d : Char} {r : Str} {p p1 : Punctuator} (h : s.rest = c :: d :: r)
    (h1 : p.toStr = [c]) (h2 : p1.toStr = [c, '='])
    (hl : punctuators.filter (fun y => y.head? == some c) = [[c], [c, '=']])
    (hb : ∀ q ∈ [p, p1], (Content.punct q).braces s.curly = s.curly) :
    PunctAt s ((if some d = some '=' then punc2 [c, '='] else punc1 [c]) s) := by
  have hmem : ∀ x ∈ [[c], [c, '=']], x ∈ punctuators := fun x hx => by
    rw [← hl] at hx; exact (List.mem_filter.1 hx).1
  by_cases hd : d = '='
  · subst hd
    rw [if_pos rfl]
    refine plain_at [c, '='] r p1 c _ _ h rfl (hmem _ (by simp)) h2 hl (hb _ (by simp)) ?_ (by simp) ?_
    · simp
    · rw [← h2, punc2_eq, h2]; rfl
  · rw [if_neg (by simpa using hd)]
    refine plain_at [c] (d :: r) p c _ _ h rfl (hmem _ (by simp)) h1 hl (hb _ (by simp)) ?_ (by simp) ?_
    · simp [Ne.symm hd]
    · rw [← h1, punc1_eq, h1]; rfl

theorem scanPunctuator_total (h : Starts s.rest) : PunctAt s (scanPunctuator s) := by
  obtain ⟨c, r, hr, hc, hlast⟩ := h
  unfold scanPunctuator
  rw [bind_peek2, hr]
  simp only [List.mem_cons, List.not_mem_nil, or_false] at hc
  rcases hc with rfl | rfl | rfl | rfl | rfl | rfl | rfl | rfl | rfl | rfl | rfl | rfl | rfl | rfl | rfl | rfl | rfl |
    rfl | rfl | rfl | rfl | rfl | rfl
  · refine single_at (p := .lBrace) hr (by decide) rfl (by decide) (by decide) ?_
    show punc1 (Punctuator.lBrace.toStr) (withCurly _ s) = _
    rw [punc1_eq, afterN_withCurly]; rfl
  · refine single_at (p := .rBrace) hr (by decide) rfl (by decide) (by decide) ?_
    show punc1 (Punctuator.rBrace.toStr) (withCurly _ s) = _
    rw [punc1_eq, afterN_withCurly]; rfl
  · exact single_at (p := .lParen) hr (by decide) rfl (by decide) (by decide) (single_punc1 rfl rfl)
  · exact single_at (p := .lBracket) hr (by decide) rfl (by decide) (by decide) (single_punc1 rfl rfl)
  · exact single_at (p := .semicolon) hr (by decide) rfl (by decide) (by decide) (single_punc1 rfl rfl)
  · exact single_at (p := .comma) hr (by decide) rfl (by decide) (by decide) (single_punc1 rfl rfl)
  · exact single_at (p := .rBracket) hr (by decide) rfl (by decide) (by decide) (single_punc1 rfl rfl)
  · exact single_at (p := .colon) hr (by decide) rfl (by decide) (by decide) (single_punc1 rfl rfl)
  · exact single_at (p := .question) hr (by decide) rfl (by decide) (by decide) (single_punc1 rfl rfl)
  · exact single_at (p := .tilde) hr (by decide) rfl (by decide) (by decide) (single_punc1 rfl rfl)
  · exact single_at (p := .rParen) hr (by decide) rfl (by decide) (by decide) (single_punc1 rfl rfl)
  · -- `.`
    have h1 := rest_afterConsume hr
    show PunctAt s ((consume >>= _) s)
    rw [bind_consume hr, bind_peek2, h1]
    dsimp only
    by_cases hd : r[0]? = some '.' ∧ r[1]? = some '.'
    · rw [if_pos hd]
      obtain ⟨r, rfl⟩ : ∃ r', r = '.' :: '.' :: r' := by
        rcases r with _ | ⟨d, _ | ⟨e, r⟩⟩ <;> simp at hd
        exact ⟨r, by rw [hd.1, hd.2]⟩
      refine plain_at cs!"..." r .ellipsis '.' _ [cs!".", cs!"..."] hr rfl (by decide) rfl (by decide) rfl ?_ (fun _ => by decide) ?_
      · simp
      · exact punc2_eq .ellipsis
    · rw [if_neg hd]
      refine plain_at cs!"." r .dot '.' _ [cs!".", cs!"..."] hr rfl (by decide) rfl (by decide) rfl ?_ (fun _ => by decide) ?_
      · rcases r with _ | ⟨d, _ | ⟨e, r⟩⟩ <;> simp at hd ⊢
        exact fun h h' => hd h.symm h'.symm
      · exact punc0_eq .dot
  · -- `<`
    have h1 := rest_afterConsume hr
    show PunctAt s ((consume >>= _) s)
    rw [bind_consume hr, bind_peek2, h1]
    dsimp only
    have hl : punctuators.filter (fun y => y.head? == some '<') = [cs!"<", cs!"<=", cs!"<<", cs!"<<="] := by decide
    by_cases hd : r[0]? = some '<' ∧ r[1]? = some '='
    · rw [if_pos hd]
      obtain ⟨r, rfl⟩ : ∃ r', r = '<' :: '=' :: r' := by
        rcases r with _ | ⟨d, _ | ⟨e, r⟩⟩ <;> simp at hd
        exact ⟨r, by rw [hd.1, hd.2]⟩
      refine plain_at cs!"<<=" r .lShiftAssign '<' _ _ hr rfl (by decide) rfl hl rfl ?_ (fun _ => by decide) ?_
      · simp
      · exact punc2_eq .lShiftAssign
    · rw [if_neg hd]
      by_cases hd1 : r[0]? = some '<'
      · rw [if_pos hd1]
        obtain ⟨r, rfl⟩ : ∃ r', r = '<' :: r' := by
          rcases r with _ | ⟨d, r⟩ <;> simp at hd1
          exact ⟨r, by rw [hd1]⟩
        refine plain_at cs!"<<" r .lShift '<' _ _ hr rfl (by decide) rfl hl rfl ?_ (fun _ => by decide) ?_
        · rcases r with _ | ⟨d, r⟩ <;> simp at hd ⊢
          exact Ne.symm hd
        · exact punc1_eq .lShift
      · rw [if_neg hd1]
        by_cases hd2 : r[0]? = some '='
        · rw [if_pos hd2]
          obtain ⟨r, rfl⟩ : ∃ r', r = '=' :: r' := by
            rcases r with _ | ⟨d, r⟩ <;> simp at hd2
            exact ⟨r, by rw [hd2]⟩
          refine plain_at cs!"<=" r .lEqual '<' _ _ hr rfl (by decide) rfl hl rfl ?_ (fun _ => by decide) ?_
          · simp
          · exact punc1_eq .lEqual
        · rw [if_neg hd2]
          refine plain_at cs!"<" r .lAngle '<' _ _ hr rfl (by decide) rfl hl rfl ?_ (fun _ => by decide) ?_
          · rcases r with _ | ⟨d, r⟩ <;> simp at hd1 hd2 ⊢
            simp [Ne.symm hd1, Ne.symm hd2]
          · exact punc0_eq .lAngle
  · -- `!`
    have h1 := rest_afterConsume hr
    show PunctAt s ((consume >>= _) s)
    rw [bind_consume hr, bind_peek2, h1]
    dsimp only
    have hl : punctuators.filter (fun y => y.head? == some '!') = [cs!"!=", cs!"!==", cs!"!"] := by decide
    by_cases hd : r[0]? = some '=' ∧ r[1]? = some '='
    · rw [if_pos hd]
      obtain ⟨r, rfl⟩ : ∃ r', r = '=' :: '=' :: r' := by
        rcases r with _ | ⟨d, _ | ⟨e, r⟩⟩ <;> simp at hd
        exact ⟨r, by rw [hd.1, hd.2]⟩
      refine plain_at cs!"!==" r .strictNEqual '!' _ _ hr rfl (by decide) rfl hl rfl ?_ (fun _ => by decide) ?_
      · simp
      · exact punc2_eq .strictNEqual
    · rw [if_neg hd]
      by_cases hd1 : r[0]? = some '='
      · rw [if_pos hd1]
        obtain ⟨r, rfl⟩ : ∃ r', r = '=' :: r' := by
          rcases r with _ | ⟨d, r⟩ <;> simp at hd1
          exact ⟨r, by rw [hd1]⟩
        refine plain_at cs!"!=" r .nEqual '!' _ _ hr rfl (by decide) rfl hl rfl ?_ (fun _ => by decide) ?_
        · rcases r with _ | ⟨d, r⟩ <;> simp at hd ⊢
          exact Ne.symm hd
        · exact punc1_eq .nEqual
      · rw [if_neg hd1]
        refine plain_at cs!"!" r .bang '!' _ _ hr rfl (by decide) rfl hl rfl ?_ (fun _ => by decide) ?_
        · rcases r with _ | ⟨d, r⟩ <;> simp at hd1 ⊢
          simp [Ne.symm hd1]
        · exact punc0_eq .bang
  · -- `*`
    have h1 := rest_afterConsume hr
    show PunctAt s ((consume >>= _) s)
    rw [bind_consume hr, bind_peek2, h1]
    dsimp only
    have hl : punctuators.filter (fun y => y.head? == some '*') = [cs!"*", cs!"**", cs!"*=", cs!"**="] := by decide
    by_cases hd : r[0]? = some '*' ∧ r[1]? = some '='
    · rw [if_pos hd]
      obtain ⟨r, rfl⟩ : ∃ r', r = '*' :: '=' :: r' := by
        rcases r with _ | ⟨d, _ | ⟨e, r⟩⟩ <;> simp at hd
        exact ⟨r, by rw [hd.1, hd.2]⟩
      refine plain_at cs!"**=" r .powAssign '*' _ _ hr rfl (by decide) rfl hl rfl ?_ (fun _ => by decide) ?_
      · simp
      · exact punc2_eq .powAssign
    · rw [if_neg hd]
      by_cases hd1 : r[0]? = some '*'
      · rw [if_pos hd1]
        obtain ⟨r, rfl⟩ : ∃ r', r = '*' :: r' := by
          rcases r with _ | ⟨d, r⟩ <;> simp at hd1
          exact ⟨r, by rw [hd1]⟩
        refine plain_at cs!"**" r .pow '*' _ _ hr rfl (by decide) rfl hl rfl ?_ (fun _ => by decide) ?_
        · rcases r with _ | ⟨d, r⟩ <;> simp at hd ⊢
          exact Ne.symm hd
        · exact punc1_eq .pow
      · rw [if_neg hd1]
        by_cases hd2 : r[0]? = some '='
        · rw [if_pos hd2]
          obtain ⟨r, rfl⟩ : ∃ r', r = '=' :: r' := by
            rcases r with _ | ⟨d, r⟩ <;> simp at hd2
            exact ⟨r, by rw [hd2]⟩
          refine plain_at cs!"*=" r .starAssign '*' _ _ hr rfl (by decide) rfl hl rfl ?_ (fun _ => by decide) ?_
          · simp
          · exact punc1_eq .starAssign
        · rw [if_neg hd2]
          refine plain_at cs!"*" r .star '*' _ _ hr rfl (by decide) rfl hl rfl ?_ (fun _ => by decide) ?_
          · rcases r with _ | ⟨d, r⟩ <;> simp at hd1 hd2 ⊢
            simp [Ne.symm hd1, Ne.symm hd2]
          · exact punc0_eq .star
  · -- `=`
    have h1 := rest_afterConsume hr
    show PunctAt s ((consume >>= _) s)
    rw [bind_consume hr, bind_peek2, h1]
    dsimp only
    have hl : punctuators.filter (fun y => y.head? == some '=') = [cs!"==", cs!"===", cs!"=", cs!"=>"] := by decide
    by_cases hd : r[0]? = some '=' ∧ r[1]? = some '='
    · rw [if_pos hd]
      obtain ⟨r, rfl⟩ : ∃ r', r = '=' :: '=' :: r' := by
        rcases r with _ | ⟨d, _ | ⟨e, r⟩⟩ <;> simp at hd
        exact ⟨r, by rw [hd.1, hd.2]⟩
      refine plain_at cs!"===" r .strictEqual '=' _ _ hr rfl (by decide) rfl hl rfl ?_ (fun _ => by decide) ?_
      · simp
      · exact punc2_eq .strictEqual
    · rw [if_neg hd]
      by_cases hd1 : r[0]? = some '='
      · rw [if_pos hd1]
        obtain ⟨r, rfl⟩ : ∃ r', r = '=' :: r' := by
          rcases r with _ | ⟨d, r⟩ <;> simp at hd1
          exact ⟨r, by rw [hd1]⟩
        refine plain_at cs!"==" r .equal '=' _ _ hr rfl (by decide) rfl hl rfl ?_ (fun _ => by decide) ?_
        · rcases r with _ | ⟨d, r⟩ <;> simp at hd ⊢
          exact Ne.symm hd
        · exact punc1_eq .equal
      · rw [if_neg hd1]
        by_cases hd2 : r[0]? = some '>'
        · rw [if_pos hd2]
          obtain ⟨r, rfl⟩ : ∃ r', r = '>' :: r' := by
            rcases r with _ | ⟨d, r⟩ <;> simp at hd2
            exact ⟨r, by rw [hd2]⟩
          refine plain_at cs!"=>" r .fatArrow '=' _ _ hr rfl (by decide) rfl hl rfl ?_ (fun _ => by decide) ?_
          · simp
          · exact punc1_eq .fatArrow
        · rw [if_neg hd2]
          refine plain_at cs!"=" r .assign '=' _ _ hr rfl (by decide) rfl hl rfl ?_ (fun _ => by decide) ?_
          · rcases r with _ | ⟨d, r⟩ <;> simp at hd1 hd2 ⊢
            simp [Ne.symm hd1, Ne.symm hd2]
          · exact punc0_eq .assign
  · -- `>`
    have h1 := rest_afterConsume hr
    show PunctAt s ((consume >>= _) s)
    rw [bind_consume hr, bind_peek2, h1]
    dsimp only
    have hl : punctuators.filter (fun y => y.head? == some '>') = [cs!">", cs!">=", cs!">>", cs!">>>", cs!">>>="] := by
      decide
    by_cases hd : r[0]? = some '='
    · rw [if_pos hd]
      obtain ⟨r, rfl⟩ : ∃ r', r = '=' :: r' := by
        rcases r with _ | ⟨d, r⟩ <;> simp at hd
        exact ⟨r, by rw [hd]⟩
      refine plain_at cs!">=" r .gEqual '>' _ _ hr rfl (by decide) rfl hl rfl ?_ (fun _ => by decide) ?_
      · simp
      · exact punc1_eq .gEqual
    · rw [if_neg hd]
      by_cases hd1 : r[0]? = some '>' ∧ r[1]? = some '>'
      · rw [if_pos hd1]
        obtain ⟨r, rfl⟩ : ∃ r', r = '>' :: '>' :: r' := by
          rcases r with _ | ⟨d, _ | ⟨e, r⟩⟩ <;> simp at hd1
          exact ⟨r, by rw [hd1.1, hd1.2]⟩
        have h2 := rest_afterConsume h1
        rw [bind_consume h1, bind_peek2, h2]
        dsimp only
        by_cases hd3 : r.head? = some '='
        · obtain ⟨r, rfl⟩ := head?_cases _ hd3
          rw [if_pos ⟨rfl, rfl⟩]
          refine plain_at cs!">>>=" r .zRShiftAssign '>' _ _ hr rfl (by decide) rfl hl rfl ?_ (fun _ => by decide) ?_
          · simp
          · exact punc2_eq .zRShiftAssign
        · rw [if_neg (by
            rintro ⟨_, h'⟩
            apply hd3
            cases r with
            | nil => simp at h'
            | cons d r => simpa using h')]
          refine plain_at cs!">>>" r .zRShift '>' _ _ hr rfl (by decide) rfl hl rfl ?_ (fun _ => by decide) ?_
          · rcases r with _ | ⟨d, r⟩ <;> simp at hd3 ⊢
            exact Ne.symm hd3
          · exact punc1_eq .zRShift
      · rw [if_neg hd1]
        by_cases hd2 : r[0]? = some '>'
        · rw [if_pos hd2]
          obtain ⟨r, rfl⟩ : ∃ r', r = '>' :: r' := by
            rcases r with _ | ⟨d, r⟩ <;> simp at hd2
            exact ⟨r, by rw [hd2]⟩
          refine plain_at cs!">>" r .rShift '>' _ _ hr rfl (by decide) rfl hl rfl ?_ (fun _ => by decide) ?_
          · rcases r with _ | ⟨d, r⟩ <;> simp at hd1 ⊢
            simp [Ne.symm hd1]
          · exact punc1_eq .rShift
        · rw [if_neg hd2]
          refine plain_at cs!">" r .rAngle '>' _ _ hr rfl (by decide) rfl hl rfl ?_ (fun _ => by decide) ?_
          · rcases r with _ | ⟨d, r⟩ <;> simp at hd hd2 ⊢
            simp [Ne.symm hd, Ne.symm hd2]
          · exact punc0_eq .rAngle
  all_goals
    obtain ⟨d, r, rfl⟩ : ∃ d r', r = d :: r' := by
      cases r with
      | nil => exact absurd rfl (hlast (by decide))
      | cons d r => exact ⟨d, r, rfl⟩
  · exact double_at (p := .plus) (p1 := .plusAssign) (p2 := .inc) hr rfl rfl rfl (by decide) (by simp [Content.braces]) (by decide)
  · exact double_at (p := .minus) (p1 := .minusAssign) (p2 := .dec) hr rfl rfl rfl (by decide) (by simp [Content.braces]) (by decide)
  · exact double_at (p := .bitAnd) (p1 := .bitAndAssign) (p2 := .logicalAnd) hr rfl rfl rfl (by decide) (by simp [Content.braces]) (by decide)
  · exact double_at (p := .bitOr) (p1 := .bitOrAssign) (p2 := .logicalOr) hr rfl rfl rfl (by decide) (by simp [Content.braces]) (by decide)
  · exact assign_at (p := .mod) (p1 := .modAssign) hr rfl rfl (by decide) (by simp [Content.braces])
  · exact assign_at (p := .bitXor) (p1 := .bitXorAssign) hr rfl rfl (by decide) (by simp [Content.braces])

/-- where no punctuator can begin -/
theorem scanPunctuator_none (h : ¬ Starts s.rest) : ∃ e, scanPunctuator s = .error e := by
  unfold scanPunctuator
  rw [bind_peek2]
  cases hr : s.rest with
  | nil => exact ⟨_, rfl⟩
  | cons c r =>
    rw [hr] at h
    have hno : ∀ d ∈ cs!"{}([;,]:?~).<!*=>", c ≠ d := by
      rintro d hd rfl
      refine h ⟨c, r, rfl, ?_, ?_⟩
      · simp only [List.mem_cons, List.not_mem_nil, or_false] at hd ⊢
        rcases hd with rfl | rfl | rfl | rfl | rfl | rfl | rfl | rfl | rfl | rfl | rfl | rfl | rfl | rfl | rfl | rfl | rfl <;> decide
      · intro h'
        exfalso
        simp only [List.mem_cons, List.not_mem_nil, or_false] at hd
        rcases hd with rfl | rfl | rfl | rfl | rfl | rfl | rfl | rfl | rfl | rfl | rfl | rfl | rfl | rfl | rfl | rfl | rfl <;> revert h' <;> decide
    have hop : ∀ d ∈ cs!"+-&|%^", ¬ (c = d ∧ r[0]? ≠ none) := by
      rintro d hd ⟨rfl, hr'⟩
      refine h ⟨c, r, rfl, ?_, ?_⟩
      · simp only [List.mem_cons, List.not_mem_nil, or_false] at hd
        rcases hd with rfl | rfl | rfl | rfl | rfl | rfl <;> decide
      · rintro - rfl
        simp at hr'
    simp only [List.forall_mem_cons, List.not_mem_nil, false_implies, implies_true, and_true] at hno hop
    obtain ⟨n1, n2, n3, n4, n5, n6, n7, n8, n9, n10, n11, n12, n13, n14, n15, n16, n17⟩ := hno
    obtain ⟨o1, o2, o3, o4, o5, o6⟩ := hop
    have hs : ¬ isSingleCharPunctuator c = true := by
      unfold isSingleCharPunctuator; simp [*]
    dsimp only [List.getElem?_cons_zero, List.getElem?_cons_succ]
    rw [if_neg n1, if_neg n2, if_neg hs, if_neg n9, if_neg o1, if_neg o2, if_neg o3, if_neg o4, if_neg o5, if_neg o6,
      if_neg n12, if_neg n13, if_neg n14, if_neg n15, if_neg n16, if_neg n17]
    exact ⟨_, rfl⟩

omit [Env] in
theorem starts_of_punct {x r : Str} {p : Punctuator} (h : Punct x r p) (hx : x.head? ≠ some '/') : Starts (x ++ r) := by
  obtain ⟨h1, _, _, h4⟩ := h
  have key : ∀ y ∈ punctuators, y.head? ≠ some '/' → ∃ c z, y = c :: z ∧ c ∈ cs!"{}([;,]:?~).<!*=>+-&|%^" ∧
      (c ∈ cs!"+-&|%^" → z = [] → y ∈ [cs!"+", cs!"-", cs!"&", cs!"|", cs!"%", cs!"^"]) := by
    have : ∀ y ∈ punctuators, y.head? ≠ some '/' → y ≠ [] ∧ (∀ c ∈ y.head?, c ∈ cs!"{}([;,]:?~).<!*=>+-&|%^" ∧
      (c ∈ cs!"+-&|%^" → y.tail = [] → y ∈ [cs!"+", cs!"-", cs!"&", cs!"|", cs!"%", cs!"^"])) := by decide
    intro y hy hh
    cases y with
    | nil => exact absurd rfl (this _ hy hh).1
    | cons c z => exact ⟨c, z, rfl, (this _ hy hh).2 c rfl⟩
  obtain ⟨c, z, rfl, h5, h6⟩ := key x h1 hx
  refine ⟨c, z ++ r, rfl, h5, fun h7 h8 => ?_⟩
  rw [List.append_eq_nil_iff] at h8
  exact h4 h8.2 (h6 h7 h8.1)

theorem punct_sound {t : Token} {s' : Scanner} (h : scanPunctuator s = .ok (t, s')) :
    ∃ x r p, s.rest = x ++ r ∧ Punct x r p ∧ x.head? ≠ some '/' ∧
      tokenSimple .punctuator (.punc p) (withCurly ((Content.punct p).braces s.curly) (afterN x.length s)) = .ok (t, s') := by
  by_cases hs : Starts s.rest
  · obtain ⟨x, r, p, h1, h2, h3⟩ := scanPunctuator_total hs
    refine ⟨x, r, p, h1, h2, ?_, by rw [← h3, h]⟩
    obtain ⟨c, z, h4, h5, _⟩ := hs
    intro hx
    obtain ⟨y, rfl⟩ := head?_cases _ hx
    rw [h1] at h4
    simp only [List.cons_append, List.cons.injEq] at h4
    rw [← h4.1] at h5
    exact absurd h5 (by decide)
  · obtain ⟨e, he⟩ := scanPunctuator_none hs
    rw [he] at h; cases h

theorem punct_complete {x r : Str} {p : Punctuator} (h : s.rest = x ++ r) (hx : Punct x r p) (hd : x.head? ≠ some '/') :
    scanPunctuator s =
      tokenSimple .punctuator (.punc p) (withCurly ((Content.punct p).braces s.curly) (afterN x.length s)) := by
  obtain ⟨x', r', p', h1, h2, h3⟩ := scanPunctuator_total (s := s) (by rw [h]; exact starts_of_punct hx hd)
  obtain ⟨rfl, rfl, rfl⟩ := punct_unique hx h2 (h.symm.trans h1)
  exact h3

/-- a slash that does not begin a regular expression -/
theorem div_total {r : Str} (h : s.rest = '/' :: r) :
    ∃ x r' p, s.rest = x ++ r' ∧ Punct x r' p ∧ x.head? = some '/' ∧
      scanDivPunctuator s =
        tokenSimple .punctuator (.punc p) (withCurly ((Content.punct p).braces s.curly) (afterN x.length s)) := by
  have hl : punctuators.filter (fun y => y.head? == some '/') = [cs!"/", cs!"/="] := by decide
  have key : PunctAt s (scanDivPunctuator s) := by
    unfold scanDivPunctuator
    rw [bind_peek2, h]
    dsimp only
    by_cases hd : r.head? = some '='
    · obtain ⟨r, rfl⟩ := head?_cases _ hd
      rw [if_pos ⟨rfl, rfl⟩]
      refine plain_at cs!"/=" r .slashAssign '/' _ _ h rfl (by decide) rfl hl rfl ?_ (fun _ => by decide) ?_
      · simp
      · exact punc2_eq .slashAssign
    · rw [if_neg (by
        rintro ⟨_, h'⟩
        apply hd
        cases r with
        | nil => simp at h'
        | cons d r => simpa using h'), if_pos (by simp)]
      refine plain_at cs!"/" r .slash '/' _ _ h rfl (by decide) rfl hl rfl ?_ (fun _ => by decide) ?_
      · rcases r with _ | ⟨d, r⟩ <;> simp at hd ⊢
        exact Ne.symm hd
      · exact punc1_eq .slash
  obtain ⟨x, r', p, h1, h2, h3⟩ := key
  refine ⟨x, r', p, h1, h2, ?_, h3⟩
  have hne : ∀ y ∈ punctuators, y ≠ [] := by decide
  cases x with
  | nil => exact absurd rfl (hne _ h2.1)
  | cons c x => rw [h] at h1; cases h1; rfl

theorem div_complete {x r : Str} {p : Punctuator} (h : s.rest = x ++ r) (hx : Punct x r p) (hd : x.head? = some '/') :
    scanDivPunctuator s =
      tokenSimple .punctuator (.punc p) (withCurly ((Content.punct p).braces s.curly) (afterN x.length s)) := by
  obtain ⟨y, rfl⟩ := head?_cases _ hd
  obtain ⟨x', r', p', h1, h2, _, h3⟩ := div_total (s := s) h
  obtain ⟨rfl, rfl, rfl⟩ := punct_unique hx h2 (h.symm.trans h1)
  exact h3

end Scanner
end Giron

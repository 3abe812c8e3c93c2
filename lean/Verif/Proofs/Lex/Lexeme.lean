import Verif.Proofs.Lex.Punct
/-
One token: the scanner returns what the lexical grammar says.
-/
namespace Giron
open M Spec
namespace Scanner
variable {s : Scanner}

/-- the scanner is not in the middle of a template -/
def Fresh (s : Scanner) : Prop := s.recordRaw = false ∧ s.rawString = []

/-- the state without what has been recorded -/
def erase (s : Scanner) : Scanner := { s with recordRaw := false, rawString := [] }

theorem erase_fresh (h : Fresh s) : erase s = s := by
  unfold erase; cases s; simp only [Fresh] at h; rw [h.1, h.2]

theorem erase_afterConsume : erase (afterConsume s) = afterConsume (erase s) := by
  unfold afterConsume erase
  dsimp only
  split
  · rfl
  · split
    · rfl
    · split <;> rfl

theorem erase_afterN (k : Nat) : erase (afterN k s) = afterN k (erase s) := by
  induction k generalizing s with
  | zero => rfl
  | succ k ih => rw [afterN_succ, ih, erase_afterConsume, afterN_succ]

theorem Fresh.afterN (h : Fresh s) (k : Nat) : Fresh (afterN k s) := by
  refine ⟨by simp [h.1], ?_⟩
  rw [afterN_rawString, h.1]; simp [h.2]

theorem Fresh.withCurly (h : Fresh s) (l : List Brace) : Fresh (withCurly l s) := h

variable [Env]

/-- the token that says `c`, ending where the scanner is -/
def emit (c : Content) : SM Token := fun s =>
  if s.current = 0 ∧ Env.checked = true then .error (.panic .tokenEndUnderflow)
  else .ok (c.token s.line s.col s.start (if s.current = 0 then Env.usizeMax else s.current - 1), s)

theorem identifierToken_eq (v : Str) : identifierToken v s = emit (.name v) s := by
  have : identifierToken v = tokenSimple (nameToken v).1 (nameToken v).2 := by
    unfold identifierToken nameToken
    by_cases h1 : v = cs!"null"
    · rw [if_pos h1, if_pos h1]
    · by_cases h2 : v = cs!"true" ∨ v = cs!"false"
      · rw [if_neg h1, if_pos h2, if_neg h1, if_pos h2]
      · rw [if_neg h1, if_neg h2, if_neg h1, if_neg h2]
        by_cases h3 : isKeyword v = true
        · rw [if_pos h3, if_pos ((isKeyword_iff v).1 h3)]
        · rw [if_neg h3, if_neg (fun h => h3 ((isKeyword_iff v).2 h))]
  rw [this]
  rfl

theorem idStart_ascii {c : Char} (h : c.toNat < 128) :
    isIdentifierStart c = (c == '$' || c == '_' || inRange 'A' 'Z' c || inRange 'a' 'z' c) := by
  unfold isIdentifierStart ucdIdStart
  rw [if_pos h]
  cases c == '$' <;> cases c == '_' <;> cases inRange 'A' 'Z' c <;> cases inRange 'a' 'z' c <;> rfl

theorem idStart_digit {c : Char} (h : isDecimalDigit c = true) : isIdentifierStart c = false := by
  have := decimal_cases h
  rw [idStart_ascii (by omega)]
  have h1 : c ≠ '$' := by rintro rfl; revert h; decide
  have h2 : c ≠ '_' := by rintro rfl; revert h; decide
  simp only [inRange, Bool.or_eq_false_iff, Bool.and_eq_false_iff, decide_eq_false_iff_not,
    show 'A'.toNat = 65 from rfl, show 'a'.toNat = 97 from rfl]
  refine ⟨⟨⟨by simp [h1], by simp [h2]⟩, .inl (by omega)⟩, .inl (by omega)⟩

/-! ### Template chunks -/

theorem templateChunk_eq {b : Char} {head : Bool} {x e r v : Str} {tail : Bool} (hf : Fresh s)
    (h : s.rest = b :: (x ++ (e ++ r))) (he : e = cs!"`" ∧ tail = true ∨ e = cs!"${" ∧ tail = false)
    (hx : TemplateBody x (e ++ r) v) :
    scanTemplateChunk b head s = emit (.template x v head tail)
      (withCurly (if tail = true then s.curly else .template :: s.curly) (afterN (b :: (x ++ e)).length s)) := by
  unfold scanTemplateChunk
  rw [bind_expect h]
  have h1 := rest_afterConsume h
  have hends : EndsChunk (e ++ r) := by
    rcases he with ⟨rfl, _⟩ | ⟨rfl, _⟩
    · exact .inl ⟨r, rfl⟩
    · exact .inr ⟨r, rfl⟩
  let s1 : Scanner := { afterConsume s with recordRaw := true }
  have hs1 : startRecording (afterConsume s) = .ok ((), s1) := rfl
  rw [M.bind_ok hs1]
  have h2 : s1.rest = x ++ (e ++ r) := h1
  have hb : scan2Until templateStop scanTemplateChar s1 = .ok (v, afterN x.length s1) :=
    templateBodyF_eq hx hends h2 (by rw [h2]; simp; omega)
  rw [M.bind_ok hb]
  have hf1 : Fresh (afterConsume s) := hf.afterN 1
  have hraw : (afterN x.length s1).rawString = x := by
    rw [afterN_rawString, h2]
    show (if true = true then (afterConsume s).rawString ++ _ else _) = x
    rw [if_pos rfl, hf1.2]
    simp
  have hs2 : stopRecording (afterN x.length s1) = .ok (x, afterN x.length (afterConsume s)) := by
    show Except.ok ((afterN x.length s1).rawString, erase (afterN x.length s1)) = _
    rw [hraw, erase_afterN]
    show Except.ok (x, afterN x.length (erase (afterConsume s))) = _
    rw [erase_fresh hf1]
  rw [M.bind_ok hs2, bind_peek2, rest_afterN_append h1]
  rcases he with ⟨rfl, rfl⟩ | ⟨rfl, rfl⟩
  · have h3 : (afterN x.length (afterConsume s)).rest = '`' :: r := rest_afterN_append h1
    simp only [List.cons_append, List.nil_append]
    have : ∀ k : Bool → SM Token, ((if ('`' :: r)[0]? = some '$' ∧ ('`' :: r)[1]? = some '{' then do
      let _ ← consume
      let _ ← consume
      modify fun s => { s with curly := .template :: s.curly }
      pure false
    else if ('`' :: r)[0]? = some '`' then do
      let _ ← consume
      pure true
    else panic .unterminatedTemplate : SM Bool) >>= k) (afterN x.length (afterConsume s)) =
      k true (afterConsume (afterN x.length (afterConsume s))) := by
      intro k
      rw [if_neg (by simp), if_pos (by simp)]
      rw [bind_assoc, bind_consume h3, pure_bind]
    refine (this _).trans ?_
    have e2 : afterN (b :: (x ++ ['`'])).length s = afterConsume (afterN x.length (afterConsume s)) := by
      simp only [List.length_cons, List.length_append, List.length_nil]
      rw [afterN_succ, afterN_add]; rfl
    rw [e2, if_pos trivial]
    rw [show s.curly = (afterConsume (afterN x.length (afterConsume s))).curly by simp, withCurly_self]
    rfl
  · have h3 : (afterN x.length (afterConsume s)).rest = '$' :: '{' :: r := rest_afterN_append h1
    simp only [List.cons_append, List.nil_append]
    have : ∀ k : Bool → SM Token, ((if ('$' :: '{' :: r)[0]? = some '$' ∧ ('$' :: '{' :: r)[1]? = some '{' then do
      let _ ← consume
      let _ ← consume
      modify fun s => { s with curly := .template :: s.curly }
      pure false
    else if ('$' :: '{' :: r)[0]? = some '`' then do
      let _ ← consume
      pure true
    else panic .unterminatedTemplate : SM Bool) >>= k) (afterN x.length (afterConsume s)) =
      k false (withCurly (.template :: s.curly) (afterN 2 (afterN x.length (afterConsume s)))) := by
      intro k
      rw [if_pos (by simp), bind_assoc, bind_consume h3]
      rw [show s.curly = (afterN 2 (afterN x.length (afterConsume s))).curly by simp]
      rfl
    refine (this _).trans ?_
    have e2 : afterN (b :: (x ++ ['$', '{'])).length s = afterN 2 (afterN x.length (afterConsume s)) := by
      simp only [List.length_cons, List.length_append, List.length_nil]
      rw [afterN_succ, afterN_add]
    rw [e2, if_neg (by decide)]
    rfl

theorem templateChunk_sound {b : Char} {head : Bool} {t : Token} {s' : Scanner}
    (h : scanTemplateChunk b head s = .ok (t, s')) :
    ∃ x e r v tail, s.rest = b :: (x ++ (e ++ r)) ∧ (e = cs!"`" ∧ tail = true ∨ e = cs!"${" ∧ tail = false) ∧
      TemplateBody x (e ++ r) v := by
  unfold scanTemplateChunk at h
  obtain ⟨_, sa, ha, h⟩ := M.bind_inv h
  obtain ⟨r0, hr0⟩ : ∃ r0, s.rest = b :: r0 := by
    unfold expect at ha
    rw [M.bind_ok (consume_eq s)] at ha
    by_cases hb : s.rest.head? = some b
    · exact head?_cases _ hb
    · rw [if_neg hb] at ha; cases ha
  rw [expect_cons hr0] at ha
  cases ha
  let s1 : Scanner := { afterConsume s with recordRaw := true }
  have hs1 : startRecording (afterConsume s) = .ok ((), s1) := rfl
  rw [M.bind_ok hs1] at h
  obtain ⟨v, s2, h2, h⟩ := M.bind_inv h
  obtain ⟨x, r1, hx, rfl, hb, hends⟩ := templateBodyF_eats (s := s1) _ _ _ h2
  obtain ⟨raw, s3, h3, h⟩ := M.bind_inv h
  have hrest : s3.rest = r1 := by
    cases h3
    show (afterN x.length s1).rest = r1
    rw [rest_afterN_append hx]
  have hx' : r0 = x ++ r1 := by
    rw [← hx]
    show _ = (afterConsume s).rest
    rw [rest_afterConsume hr0]
  rw [bind_peek2, hrest] at h
  by_cases hne : r1 = []
  · subst hne
    obtain ⟨tl, s4, h4, _⟩ := M.bind_inv h
    rw [if_neg (by simp), if_neg (by simp)] at h4
    cases h4
  · rcases hends hne with ⟨y, rfl⟩ | ⟨y, rfl⟩
    · exact ⟨x, cs!"`", y, v, true, by rw [hr0, hx']; simp, .inl ⟨rfl, rfl⟩, hb⟩
    · exact ⟨x, cs!"${", y, v, false, by rw [hr0, hx']; simp, .inr ⟨rfl, rfl⟩, hb⟩

/-! ### The dispatch -/

omit [Env] in
theorem number_head {x r : Str} {n : Num} (h : Number x r n) :
    ∃ c y, x = c :: y ∧ (isDecimalDigit c = true ∨ c = '.' ∧ (y ++ r).head?.any isDecimalDigit = true) := by
  cases h with
  | radix => exact ⟨_, _, rfl, .inl (by decide)⟩
  | octal => exact ⟨_, _, rfl, .inl (by decide)⟩
  | octalLike => exact ⟨_, _, rfl, .inl (by decide)⟩
  | @integer ds ex r k hne _ hrun =>
    cases ds with
    | nil => exact absurd rfl hne
    | cons c ds => exact ⟨_, _, rfl, .inl (hrun.1 c (by simp))⟩
  | @fraction ip fp ex r k hne _ hi hrun =>
    cases ip with
    | cons c ip => exact ⟨_, _, rfl, .inl (hi c (by simp))⟩
    | nil =>
      refine ⟨_, _, rfl, .inr ⟨rfl, ?_⟩⟩
      cases fp with
      | nil => exact absurd rfl hne
      | cons d fp => simpa using hrun.1 d (by simp)

theorem scanIdentifier_eq {c : Char} {x r v : Str} (h : s.rest = c :: (x ++ r)) (hc : isIdentifierStart c = true)
    (hx : IdTail x r v) : scanIdentifier s = emit (.name (c :: v)) (afterN (c :: x).length s) := by
  have hne : c ≠ '\\' := by
    rintro rfl
    rw [idStart_ascii (by decide)] at hc
    exact absurd hc (by decide)
  have h1 : scanIdentifierStart s = .ok (c, afterConsume s) := by
    unfold scanIdentifierStart
    have : (do
      match ← peek with
      | some '\\' => scanUnicodeEscSeq
      | some _ => consumeUnwrap
      | none => error .unexpectedEOS : SM Char) s = .ok (c, afterConsume s) := by
      rw [bind_peek, h]
      dsimp only [List.head?_cons]
      change Gives _ s _ _
      split
      · next h' => cases h'; exact absurd rfl hne
      · exact consumeUnwrap_cons h
      · next h' => cases h'
    refine (M.bind_ok this).trans ?_
    rw [if_pos hc]; rfl
  unfold scanIdentifier
  rw [M.bind_ok h1, M.bind_ok (idTail_eq hx (rest_afterConsume h)), identifierToken_eq]
  rfl

theorem scanStringLiteral_eq {q : Char} {x r v : Str} {o : Bool} (hq : q = '\'' ∨ q = '"')
    (h : s.rest = q :: (x ++ q :: r)) (hx : StringBody q x (q :: r) v o) :
    scanStringLiteral s = emit (.string v o) (afterN (q :: (x ++ [q])).length s) := by
  have h1 := rest_afterConsume h
  obtain ⟨items, hv, ho, hi⟩ := stringBodyF_eq (s := afterConsume s) hx (n := (afterConsume s).rest.length + 1) rfl h1
    (by rw [h1]; simp; omega)
  unfold scanStringLiteral
  rw [bind_peek, h]
  rw [if_pos (by rcases hq with rfl | rfl <;> simp), M.bind_ok (consumeUnwrap_cons h)]
  have hi' : scanUntil (fun cp => cp == q) scanStringCp (afterConsume s) = _ := hi
  have h2 : (afterN x.length (afterConsume s)).rest = q :: r := rest_afterN_append h1
  rw [M.bind_ok hi', bind_expect h2, hv, ho]
  have e2 : afterN (q :: (x ++ [q])).length s = afterConsume (afterN x.length (afterConsume s)) := by
    simp only [List.length_cons, List.length_append, List.length_nil]
    rw [afterN_succ, afterN_add]; rfl
  rw [e2]
  rfl

theorem scanStringLiteral_sound {t : Token} {s' : Scanner} (h : scanStringLiteral s = .ok (t, s')) :
    ∃ q x r v o, (q = '\'' ∨ q = '"') ∧ s.rest = q :: (x ++ q :: r) ∧ StringBody q x (q :: r) v o := by
  unfold scanStringLiteral at h
  rw [bind_peek] at h
  by_cases hq : s.rest.head? = some '\'' ∨ s.rest.head? = some '"'
  · rw [if_pos hq] at h
    obtain ⟨q, r0, hr0, hq'⟩ : ∃ q r0, s.rest = q :: r0 ∧ (q = '\'' ∨ q = '"') := by
      rcases hq with hq | hq
      · obtain ⟨y, hy⟩ := head?_cases _ hq; exact ⟨_, y, hy, .inl rfl⟩
      · obtain ⟨y, hy⟩ := head?_cases _ hq; exact ⟨_, y, hy, .inr rfl⟩
    rw [M.bind_ok (consumeUnwrap_cons hr0)] at h
    obtain ⟨items, s1, h1, h⟩ := M.bind_inv h
    obtain ⟨x, r1, hx, rfl, hb⟩ := stringBodyF_eats (s := afterConsume s) _ _ _ h1
    obtain ⟨_, s2, h2, _⟩ := M.bind_inv h
    rw [rest_afterConsume hr0] at hx
    have hr1 : r1.head? = some q := by
      unfold expect at h2
      rw [M.bind_ok (consume_eq _)] at h2
      by_cases hb : (afterN x.length (afterConsume s)).rest.head? = some q
      · rwa [rest_afterN_append (by rw [rest_afterConsume hr0, hx])] at hb
      · rw [if_neg hb] at h2; cases h2
    obtain ⟨r, rfl⟩ := head?_cases _ hr1
    exact ⟨q, x, r, _, _, hq', by rw [hr0, hx], hb⟩
  · rw [if_neg hq] at h; cases h

theorem scanRegexp_eq {x f r v : Str} (h : s.rest = '/' :: (x ++ '/' :: (f ++ r))) (hs : x.head? ≠ some '*')
    (hx : RegExpBody x ('/' :: (f ++ r))) (hf : IdTail f r v) :
    scanRegexpLiteral s = emit (.regexp x v) (afterN ('/' :: (x ++ '/' :: f)).length s) := by
  have h1 := rest_afterConsume h
  have h2 : (afterN x.length (afterConsume s)).rest = '/' :: (f ++ r) := rest_afterN_append h1
  have h3 := rest_afterConsume h2
  have hb : scanRegexpBody s = .ok (x, afterConsume (afterN x.length (afterConsume s))) := by
    unfold scanRegexpBody
    rw [bind_expect h, bind_peek, h1, if_neg (by
      cases x with
      | nil => simp
      | cons d x => simpa using hs)]
    have : regexpBodyF ((afterConsume s).rest.length + 1) (afterConsume s) = .ok (x, afterN x.length (afterConsume s)) :=
      regexpBodyF_eq hx rfl h1 (by rw [h1]; simp; omega)
    refine (M.bind_ok (m := fun s => regexpBodyF (s.rest.length + 1) s) this).trans ?_
    rw [bind_expect h2]; rfl
  unfold scanRegexpLiteral
  rw [M.bind_ok hb]
  have hfl : scanRegexpFlags (afterConsume (afterN x.length (afterConsume s))) = _ := idTail_eq hf h3
  rw [M.bind_ok hfl]
  have e2 : afterN ('/' :: (x ++ '/' :: f)).length s = afterN f.length (afterConsume (afterN x.length (afterConsume s))) := by
    simp only [List.length_cons, List.length_append]
    rw [afterN_succ, afterN_add, afterN_succ]
  rw [e2]
  rfl

theorem scanRegexp_sound {t : Token} {s' : Scanner} (h : scanRegexpLiteral s = .ok (t, s')) :
    ∃ x f r v, s.rest = '/' :: (x ++ '/' :: (f ++ r)) ∧ x.head? ≠ some '*' ∧ RegExpBody x ('/' :: (f ++ r)) ∧
      IdTail f r v := by
  unfold scanRegexpLiteral at h
  obtain ⟨body, s1, h1, h⟩ := M.bind_inv h
  obtain ⟨flags, s2, h2, _⟩ := M.bind_inv h
  have hb : Eats scanRegexpBody s (fun a x r => x = '/' :: (a ++ ['/']) ∧ a.head? ≠ some '*' ∧ RegExpBody a ('/' :: r)) := by
    unfold scanRegexpBody
    refine Eats.expect fun r1 hr1 => ?_
    refine Eats.look (peek_eq _) ?_
    refine Eats.ite (fun _ => Eats.error _) (fun hn => ?_)
    refine Eats.bind (P := fun v x r => v = x ∧ RegExpBody x r) (fun a s' h => regexpBodyF_eats _ a s' h) ?_
    rintro v x r hx ⟨rfl, hb⟩
    refine Eats.expect fun r2 hr2 => Eats.pure ?_
    rw [rest_afterN_append hx] at hr2
    subst hr2
    refine ⟨rfl, ?_, ?_⟩
    · intro hv
      apply hn
      obtain ⟨y, rfl⟩ := head?_cases _ hv
      rw [hx]; rfl
    · rw [rest_afterConsume (rest_afterN_append hx)]; exact hb
  obtain ⟨x, r, hx, rfl, rfl, hs, hb⟩ := hb _ _ h1
  obtain ⟨f, r', hf, _, hv⟩ := idTail_eats _ _ h2
  rw [rest_afterN_append hx] at hf
  subst hf
  exact ⟨body, f, r', flags, by rw [hx]; simp, hs, hb, hv⟩

theorem emit_ok {c : Content} {t : Token} {s' : Scanner} (h : emit c s = .ok (t, s')) :
    t = c.token s.line s.col s.start (if s.current = 0 then Env.usizeMax else s.current - 1) ∧ s' = s := by
  unfold emit at h
  split at h <;> cases h
  exact ⟨rfl, rfl⟩

theorem scanToken_nil {goal : LexGoal} (h : s.rest = []) : scanToken goal s = emit .eof s := by
  unfold scanToken
  split
  · rfl
  · next h' => rw [h] at h'; cases h'

theorem scanToken_cons {goal : LexGoal} {c : Char} {rest : Str} (h : s.rest = c :: rest) : scanToken goal s =
    if isIdentifierStart c then scanIdentifier s
    else if c = '"' ∨ c = '\'' then scanStringLiteral s
    else if c = '.' ∧ rest.head?.any isDecimalDigit then scanNumericLiteral s
    else if isDecimalDigit c then scanNumericLiteral s
    else if c = '`' then scanTemplateChunk '`' true s
    else if c = '}' ∧ s.curly.head? = some .template then scanTemplateChunk '}' false (withCurly s.curly.tail s)
    else if c = '/' ∧ goal = .div then scanDivPunctuator s
    else if c = '/' ∧ goal = .regExp then scanRegexpLiteral s
    else scanPunctuator s := by
  unfold scanToken
  split
  · next h' => rw [h] at h'; cases h'
  · next h' => rw [h] at h'; cases h'; rfl

/-- C19-C24: whatever the lexical grammar says is a token is scanned as that token. -/
theorem scanToken_complete {goal : LexGoal} {x r : Str} {c : Content} (hf : Fresh s) (h : s.rest = x ++ r)
    (hx : Lexeme goal (decide (s.curly.head? = some .template)) x r c) :
    scanToken goal s = emit c (withCurly (c.braces s.curly) (afterN x.length s)) := by
  have plain : ∀ (c : Content) (x : Str), c.braces s.curly = s.curly →
      withCurly (c.braces s.curly) (afterN x.length s) = afterN x.length s := by
    intro c x hc
    rw [hc, show s.curly = (afterN x.length s).curly by simp, withCurly_self]
  have ascii : ∀ c : Char, c.toNat < 128 →
      (c == '$' || c == '_' || inRange 'A' 'Z' c || inRange 'a' 'z' c) = false → ¬ isIdentifierStart c = true := by
    intro c h1 h2
    rw [idStart_ascii h1, h2]; simp
  cases hx with
  | eof => rw [scanToken_nil h, plain _ _ rfl]; rfl
  | @name c x r v hc hx =>
    rw [plain _ _ rfl]
    simp only [List.cons_append] at h
    have := scanIdentifier_eq h hc hx
    rw [scanToken_cons h]
    rw [if_pos hc, this]
  | @number x r n hn =>
    rw [plain _ _ rfl]
    obtain ⟨c, y, rfl, hc⟩ := number_head hn
    have hnum : scanNumericLiteral s = emit (.number n) (afterN (c :: y).length s) := by
      unfold scanNumericLiteral
      rw [M.bind_ok (numeric_complete h hn)]; rfl
    simp only [List.cons_append] at h
    rw [scanToken_cons h]
    rcases hc with hc | ⟨rfl, hc⟩
    · rw [if_neg (by simp [idStart_digit hc]), if_neg (by
        have := decimal_cases hc
        rintro (rfl | rfl) <;> revert this <;> decide)]
      by_cases hd : c = '.' ∧ (y ++ r).head?.any isDecimalDigit = true
      · rw [if_pos hd, hnum]
      · rw [if_neg hd, if_pos hc, hnum]
    · rw [if_neg (ascii _ (by decide) (by decide)), if_neg (by decide), if_pos ⟨rfl, hc⟩, hnum]
  | @string q x r v o hq hx =>
    rw [plain _ _ rfl]
    simp only [List.cons_append, List.append_assoc, List.nil_append] at h
    have := scanStringLiteral_eq hq h hx
    rw [scanToken_cons h]
    rw [if_neg (by rcases hq with rfl | rfl <;> exact ascii _ (by decide) (by decide)), if_pos hq.symm, this]
  | @template b x e r v head tail he hx =>
    simp only [List.cons_append, List.append_assoc] at h
    rw [scanToken_cons h]
    cases he with
    | whole =>
      rw [if_neg (ascii _ (by decide) (by decide)), if_neg (by decide), if_neg (by simp), if_neg (by decide),
        if_pos rfl]
      exact templateChunk_eq hf h (.inl ⟨rfl, rfl⟩) hx
    | first =>
      rw [if_neg (ascii _ (by decide) (by decide)), if_neg (by decide), if_neg (by simp), if_neg (by decide),
        if_pos rfl]
      exact templateChunk_eq hf h (.inr ⟨rfl, rfl⟩) hx
    | middle hr =>
      rw [if_neg (ascii _ (by decide) (by decide)), if_neg (by decide), if_neg (by simp), if_neg (by decide),
        if_neg (by decide), if_pos ⟨rfl, by simpa using hr⟩]
      have := templateChunk_eq (s := withCurly s.curly.tail s) (head := false) hf h (.inr ⟨rfl, rfl⟩) hx
      rw [afterN_withCurly] at this
      exact this
    | last hr =>
      rw [if_neg (ascii _ (by decide) (by decide)), if_neg (by decide), if_neg (by simp), if_neg (by decide),
        if_neg (by decide), if_pos ⟨rfl, by simpa using hr⟩]
      have := templateChunk_eq (s := withCurly s.curly.tail s) (head := false) hf h (.inl ⟨rfl, rfl⟩) hx
      rw [afterN_withCurly] at this
      exact this
  | @regexp x f r v hg hs hx hfl =>
    rw [plain _ _ rfl]
    simp only [List.cons_append, List.append_assoc] at h
    have := scanRegexp_eq h hs hx hfl
    rw [scanToken_cons h]
    rw [if_neg (ascii _ (by decide) (by decide)), if_neg (by decide), if_neg (by simp), if_neg (by decide),
      if_neg (by decide), if_neg (by simp), if_neg (by rw [hg]; decide), if_pos ⟨rfl, hg⟩, this]
  | @punct x r p hp hdot hres hdiv =>
    have hne : ∃ c y, x = c :: y := by
      have h0 : ∀ y ∈ punctuators, y ≠ [] := by decide
      cases x with
      | nil => exact absurd rfl (h0 _ hp.1)
      | cons c y => exact ⟨c, y, rfl⟩
    obtain ⟨c, y, rfl⟩ := hne
    have key : ∀ z ∈ punctuators, ∀ d ∈ z.head?, d.toNat < 128 ∧
        (d == '$' || d == '_' || inRange 'A' 'Z' d || inRange 'a' 'z' d) = false ∧ ¬ (d = '"' ∨ d = '\'') ∧
        ¬ isDecimalDigit d = true ∧ d ≠ '`' ∧ (d = '.' → z = cs!"." ∨ z = cs!"...") ∧ (d = '}' → z = cs!"}") := by decide
    obtain ⟨k1, k2, k3, k4, k5, k6, k7⟩ := key _ hp.1 c rfl
    have hcomp := punct_complete h hp
    have hdivc := div_complete h hp
    simp only [List.cons_append] at h
    rw [scanToken_cons h]
    rw [if_neg (ascii _ k1 k2), if_neg k3, if_neg, if_neg k4, if_neg k5, if_neg]
    · by_cases hs : c = '/'
      · subst hs
        rw [if_pos ⟨rfl, hdiv rfl⟩]
        exact hdivc rfl
      · rw [if_neg (fun h => hs h.1), if_neg (fun h => hs h.1)]
        exact hcomp (by simpa using hs)
    · rintro ⟨rfl, hc⟩
      have := hres (k7 rfl)
      simp [hc] at this
    · rintro ⟨rfl, hd⟩
      rcases k6 rfl with hz | hz
      · cases hz
        obtain ⟨d, hd1, hd2⟩ := (Option.any_eq_true _ _).1 hd
        rw [hdot rfl d (by simpa using hd1)] at hd2; cases hd2
      · cases hz
        simp at hd
        exact absurd hd (by decide)

/-- C19-C24: what the scanner returns is a token of the lexical grammar. -/
theorem scanToken_sound {goal : LexGoal} {t : Token} {s' : Scanner} (h : scanToken goal s = .ok (t, s')) :
    ∃ x r c, s.rest = x ++ r ∧ Lexeme goal (decide (s.curly.head? = some .template)) x r c := by
  cases hr : s.rest with
  | nil => exact ⟨[], [], .eof, rfl, .eof⟩
  | cons c rest =>
    rw [scanToken_cons hr] at h
    split at h
    · next hc =>
      unfold scanIdentifier at h
      obtain ⟨a, s1, h1, h⟩ := M.bind_inv h
      obtain ⟨v, s2, h2, _⟩ := M.bind_inv h
      have hne : c ≠ '\\' := by
        rintro rfl
        rw [idStart_ascii (by decide)] at hc
        exact absurd hc (by decide)
      have h3 : scanIdentifierStart s = .ok (c, afterConsume s) := by
        unfold scanIdentifierStart
        have : (do
          match ← peek with
          | some '\\' => scanUnicodeEscSeq
          | some _ => consumeUnwrap
          | none => error .unexpectedEOS : SM Char) s = .ok (c, afterConsume s) := by
          rw [bind_peek, hr]
          dsimp only [List.head?_cons]
          change Gives _ s _ _
          split
          · next h' => cases h'; exact absurd rfl hne
          · exact consumeUnwrap_cons hr
          · next h' => cases h'
        refine (M.bind_ok this).trans ?_
        rw [if_pos hc]; rfl
      rw [h3] at h1
      cases h1
      obtain ⟨x, r, hx, _, hv⟩ := idTail_eats _ _ h2
      rw [rest_afterConsume hr] at hx
      exact ⟨c :: x, r, _, by rw [hx]; rfl, .name hc hv⟩
    split at h
    · obtain ⟨q, x, r, v, o, hq, hx, hb⟩ := scanStringLiteral_sound h
      exact ⟨_, r, _, by rw [← hr, hx]; simp, .string hq hb⟩
    split at h
    · unfold scanNumericLiteral at h
      obtain ⟨n, s1, h1, _⟩ := M.bind_inv h
      obtain ⟨x, r, hx, _, hn⟩ := numeric_sound _ _ h1
      exact ⟨x, r, _, by rw [← hr, hx], .number hn⟩
    split at h
    · unfold scanNumericLiteral at h
      obtain ⟨n, s1, h1, _⟩ := M.bind_inv h
      obtain ⟨x, r, hx, _, hn⟩ := numeric_sound _ _ h1
      exact ⟨x, r, _, by rw [← hr, hx], .number hn⟩
    split at h
    · obtain ⟨x, e, r, v, tail, hx, he, hb⟩ := templateChunk_sound h
      rcases he with ⟨rfl, rfl⟩ | ⟨rfl, rfl⟩
      · exact ⟨_, r, _, by rw [← hr, hx]; simp, .template .whole hb⟩
      · exact ⟨_, r, _, by rw [← hr, hx]; simp, .template .first hb⟩
    split at h
    · next hres =>
      obtain ⟨x, e, r, v, tail, hx, he, hb⟩ := templateChunk_sound h
      have hx : s.rest = _ := hx
      rcases he with ⟨rfl, rfl⟩ | ⟨rfl, rfl⟩
      · exact ⟨_, r, _, by rw [← hr, hx]; simp, .template (.last (by simp [hres.2])) hb⟩
      · exact ⟨_, r, _, by rw [← hr, hx]; simp, .template (.middle (by simp [hres.2])) hb⟩
    split at h
    · next hg =>
      obtain ⟨rfl, rfl⟩ := hg
      obtain ⟨x, r', p, h1, h2, h3, _⟩ := div_total hr
      refine ⟨x, r', _, by rw [← hr, h1], .punct h2 ?_ ?_ (fun _ => rfl)⟩
      · rintro rfl; simp at h3
      · rintro rfl; simp at h3
    split at h
    · next hg =>
      obtain ⟨rfl, rfl⟩ := hg
      obtain ⟨x, f, r, v, hx, hs, hb, hf⟩ := scanRegexp_sound h
      exact ⟨_, r, _, by rw [← hr, hx]; simp, .regexp rfl hs hb hf⟩
    · next hdot _ _ hres _ _ =>
      obtain ⟨x, r, p, h1, h2, h3, _⟩ := punct_sound h
      refine ⟨x, r, _, by rw [← hr, h1], .punct h2 ?_ ?_ (fun h' => absurd h' h3)⟩
      · rintro rfl d hd
        rw [hr] at h1
        cases h1
        cases hdd : isDecimalDigit d with
        | false => rfl
        | true => exact absurd ⟨rfl, by show r.head?.any _ = true; rw [hd]; simpa using hdd⟩ hdot
      · rintro rfl
        rw [hr] at h1
        cases h1
        simpa using hres

end Scanner
end Giron

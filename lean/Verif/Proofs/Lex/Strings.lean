import Verif.Proofs.Lex.Numbers
/-
String literals.
-/
namespace Giron
open M Spec
namespace Scanner
variable {s : Scanner}

theorem singleEscape_iff (c : Char) : isSingleEscapeChar c = true ↔ (c, unescape c) ∈ singleEscapes := by
  constructor
  · intro h
    unfold isSingleEscapeChar at h
    simp only [Bool.or_eq_true, beq_iff_eq, or_assoc] at h
    rcases h with rfl | rfl | rfl | rfl | rfl | rfl | rfl | rfl | rfl <;> decide
  · intro h
    simp only [singleEscapes, List.mem_cons, Prod.mk.injEq, List.not_mem_nil, or_false] at h
    rcases h with ⟨rfl, _⟩ | ⟨rfl, _⟩ | ⟨rfl, _⟩ | ⟨rfl, _⟩ | ⟨rfl, _⟩ | ⟨rfl, _⟩ | ⟨rfl, _⟩ | ⟨rfl, _⟩ | ⟨rfl, _⟩ <;> decide

theorem singleEscape_value {c v : Char} (h : (c, v) ∈ singleEscapes) : isSingleEscapeChar c = true ∧ unescape c = v := by
  simp only [singleEscapes, List.mem_cons, Prod.mk.injEq, List.not_mem_nil, or_false] at h
  rcases h with ⟨rfl, rfl⟩ | ⟨rfl, rfl⟩ | ⟨rfl, rfl⟩ | ⟨rfl, rfl⟩ | ⟨rfl, rfl⟩ | ⟨rfl, rfl⟩ | ⟨rfl, rfl⟩ | ⟨rfl, rfl⟩ |
    ⟨rfl, rfl⟩ <;> decide

theorem lineTerminator_ne {c d : Char} (h : isLineTerminator c = true) (hd : isLineTerminator d = false) : c ≠ d := by
  rintro rfl; rw [h] at hd; cases hd

/-- every text that begins with a line terminator begins with a line break -/
theorem exists_lineBreak {c : Char} {r : Str} (h : isLineTerminator c = true) :
    ∃ b r', c :: r = b ++ r' ∧ LineBreak b r' := by
  by_cases hc : c = '\r' ∧ r.head? = some '\n'
  · obtain ⟨rfl, h2⟩ := hc
    obtain ⟨x, rfl⟩ := head?_cases _ h2
    exact ⟨['\r', '\n'], x, rfl, .crlf⟩
  · exact ⟨[c], r, rfl, .single h (fun h1 h2 => hc ⟨h1, h2⟩)⟩

variable [Env]

theorem scanOctalEscSeq_eats {r0 : Str} (h : s.rest = '\\' :: r0) :
    Eats scanOctalEscSeq s (fun c x r => StringItem x r c true) := by
  unfold scanOctalEscSeq
  refine Eats.consume h ?_
  refine Eats.scanUntil fun ds r h1 hrun => ?_
  have hrun' : Run isOctalDigit ds r := by simpa [Run] using hrun
  have hh : ∀ d ∈ ds, isHexDigit d = true := fun d hd =>
    isHexDigit_of_decimal (isDecimalDigit_of_octal (hrun'.1 d hd))
  rw [parseI64_eq hh]
  split
  · next i hi =>
    split at hi
    · next hd =>
      cases hi
      refine Eats.charOr fun c hc => ?_
      rw [rest_afterN_append h1, List.append_nil]
      exact .octal hd.1 hrun' hd.2.2 hc
    · cases hi
  · exact Eats.error _

omit [Env] in
theorem scanOctalEscSeq_eq {ds r : Str} {c : Char} (h : s.rest = '\\' :: (ds ++ r)) (hne : ds ≠ [])
    (hrun : Run isOctalDigit ds r) (hlt : numeral 8 ds < 2 ^ 63) (hc : c.toNat = numeral 8 ds % 2 ^ 32) :
    scanOctalEscSeq s = .ok (c, afterN ('\\' :: ds).length s) := by
  unfold scanOctalEscSeq
  have hh : ∀ d ∈ ds, isHexDigit d = true := fun d hd =>
    isHexDigit_of_decimal (isDecimalDigit_of_octal (hrun.1 d hd))
  rw [bind_consume h, M.bind_ok (scanUntil_run (rest_afterConsume h) (by simpa [Run] using hrun)), parseI64_eq hh,
    if_pos ⟨hne, fun d hd => digit_octal (hrun.1 d hd), hlt⟩]
  dsimp only
  rw [show (4294967296 : Nat) = 2 ^ 32 from rfl, ← hc, charOr_eq]
  rfl

omit [Env] in
/-- the state after a line continuation -/
theorem continuation_eq {β : Type} {b r : Str} {k : SM β} (h : s.rest = b ++ r) (hb : LineBreak b r) :
    (do
      let (q1, q2) ← peek2
      when (q1 = some '\r' ∧ q2 = some '\n') (do let _ ← consume; pure ())
      let _ ← consume
      k : SM β) s = k (afterN b.length s) := by
  rw [bind_peek2]
  cases hb with
  | crlf =>
    simp only [List.cons_append, List.nil_append] at h
    rw [h]
    have h1 := rest_afterConsume h
    rfl
  | @single c r hc hr =>
    simp only [List.cons_append, List.nil_append] at h
    rw [h]
    have : ¬ ((c :: r)[0]? = some '\r' ∧ (c :: r)[1]? = some '\n') := by
      rintro ⟨h1, h2⟩
      simp at h1
      apply hr h1
      cases r with
      | nil => simp at h2
      | cons d r => simpa using h2
    dsimp only
    rw [show (when ((c :: r)[0]? = some '\r' ∧ (c :: r)[1]? = some '\n') (do let _ ← consume; pure ()) : SM Unit) = pure ()
      from if_neg this]
    rw [pure_bind, bind_consume h]
    rfl

theorem stringItem_ne_nil {x r : Str} {c : Char} {o : Bool} (h : StringItem x r c o) : x ≠ [] := by
  cases h with
  | hex h => cases h; simp
  | unicode h => cases h <;> simp
  | _ => simp

theorem scanStringCpF_eats (n : Nat) : Eats (scanStringCpF n) s (fun a x r => StringItem x r a.1 a.2) := by
  induction n generalizing s with
  | zero => exact Eats.fuel
  | succ n ih =>
    unfold scanStringCpF
    refine Eats.look (peek2_eq s) ?_
    rcases hr : s.rest with _ | ⟨c, _ | ⟨d, r⟩⟩
    · exact Eats.error _
    · dsimp only [List.getElem?_cons_zero, List.getElem?_cons_succ, List.getElem?_nil]
      split
      · next h => simp at h
      · next h =>
        simp at h
        obtain ⟨rfl, -⟩ := h
        refine Eats.ite (fun _ => Eats.error _) (fun hl => ?_)
        refine Eats.consumeOr fun c' r' h' => ?_
        rw [hr] at h'; cases h'
        refine Eats.pure ?_
        rw [rest_afterConsume hr]
        by_cases hb : c = '\\'
        · subst hb; exact .backslash (by simp)
        · exact .char hb (by simpa using hl)
      · next h => simp at h
    · by_cases hb : c = '\\'
      · subst hb
        dsimp only [List.getElem?_cons_zero, List.getElem?_cons_succ]
        refine Eats.ite (fun he => ?_) (fun he => ?_)
        · refine Eats.consume hr ?_
          refine Eats.consumeOr fun c' r' h' => ?_
          rw [rest_afterConsume hr] at h'; cases h'
          exact Eats.pure (.escape ((singleEscape_iff d).1 he))
        refine Eats.ite (fun hl => ?_) (fun hl => ?_)
        · refine Eats.consume hr ?_
          have h1 := rest_afterConsume hr
          obtain ⟨b, r', hbr, hb⟩ := exists_lineBreak (r := r) hl
          rw [hbr] at h1
          intro a s' h
          rw [continuation_eq h1 hb] at h
          obtain ⟨x, r'', hx, rfl, hq⟩ := ih a s' h
          rw [rest_afterN_append h1] at hx
          subst hx
          refine ⟨b ++ x, r'', by rw [h1, List.append_assoc], by rw [List.length_append, afterN_add], ?_⟩
          exact .continuation hb hq
        refine Eats.ite (fun hx => ?_) (fun hx => ?_)
        · refine Eats.bind scanHexEscSeq_eats ?_
          intro c x r' h1 hc
          exact Eats.pure (by simpa using .hex hc)
        refine Eats.ite (fun hu => ?_) (fun hu => ?_)
        · refine Eats.bind scanUnicodeEscSeq_eats ?_
          intro c x r' h1 hc
          exact Eats.pure (by simpa using .unicode hc)
        refine Eats.ite (fun ho => ?_) (fun ho => ?_)
        · refine Eats.bind (scanOctalEscSeq_eats hr) ?_
          intro c x r' h1 hc
          exact Eats.pure (by rw [rest_afterN_append h1, List.append_nil]; exact hc)
        refine Eats.consumeOr fun c' r' h' => ?_
        rw [hr] at h'; cases h'
        refine Eats.pure ?_
        rw [rest_afterConsume hr]
        refine .backslash ?_
        intro c hc
        cases hc
        refine ⟨fun v hv => he (singleEscape_value hv).1, by simpa using hl, hx, hu, by simpa using ho⟩
      · dsimp only [List.getElem?_cons_zero, List.getElem?_cons_succ]
        split
        · next h => simp at h; exact absurd h.1 hb
        · next h =>
          simp at h
          obtain ⟨rfl, -⟩ := h
          refine Eats.ite (fun _ => Eats.error _) (fun hl => ?_)
          refine Eats.consumeOr fun c' r' h' => ?_
          rw [hr] at h'; cases h'
          exact Eats.pure (.char hb (by simpa using hl))
        · next h => simp at h

theorem scanStringCpF_bs {n : Nat} {d : Char} {r : Str} (h : s.rest = '\\' :: d :: r) :
    scanStringCpF (n + 1) s = (
      if isSingleEscapeChar d then do
        let _ ← consume
        let esc ← consumeOr .unexpectedEOS
        pure (unescape esc, false)
      else if isLineTerminator d then do
        let _ ← consume
        let (q1, q2) ← peek2
        when (q1 = some '\r' ∧ q2 = some '\n') (do let _ ← consume; pure ())
        let _ ← consume
        scanStringCpF n
      else if d = 'x' then do
        let c ← scanHexEscSeq
        pure (c, false)
      else if d = 'u' then do
        let c ← scanUnicodeEscSeq
        pure (c, false)
      else if isOctalDigit d then do
        let c ← scanOctalEscSeq
        pure (c, true)
      else do
        let c ← consumeOr .unexpectedEOS
        pure (c, false) : SM (Char × Bool)) s := by
  rw [scanStringCpF, bind_peek2, h]
  rfl

theorem scanStringCpF_plain {n : Nat} {c : Char} {r : Str} (h : s.rest = c :: r) (hc : c ≠ '\\' ∨ r = [])
    (hl : isLineTerminator c = false) : scanStringCpF (n + 1) s = .ok ((c, false), afterConsume s) := by
  rw [scanStringCpF, bind_peek2, h]
  dsimp only [List.getElem?_cons_zero, List.getElem?_cons_succ]
  change Gives _ s _ _
  split
  · next h1 =>
    simp only [Prod.mk.injEq, Option.some.injEq] at h1
    rcases hc with hc | hc
    · exact absurd h1.1 hc
    · rw [hc] at h1; simp at h1
  · next h1 =>
    simp only [Prod.mk.injEq, Option.some.injEq] at h1
    obtain ⟨rfl, -⟩ := h1
    rw [if_neg (by simp [hl])]
    exact M.bind_ok (consumeOr_cons _ h)
  · next h1 => simp at h1

theorem scanStringCpF_eq {x r : Str} {c : Char} {o : Bool} (hx : StringItem x r c o) {n : Nat} (h : s.rest = x ++ r)
    (hn : x.length < n + 1) : scanStringCpF n s = .ok ((c, o), afterN x.length s) := by
  have hlt : isLineTerminator '\\' = false := by decide
  induction hx generalizing s n with
  | @char c r hc hl =>
    cases n with
    | zero => simp at hn
    | succ n =>
      exact scanStringCpF_plain h (.inl hc) hl
  | @escape c v r hcv =>
    cases n with
    | zero => simp at hn
    | succ n =>
      obtain ⟨h1, h2⟩ := singleEscape_value hcv
      simp only [List.cons_append, List.nil_append] at h
      rw [scanStringCpF_bs h, if_pos h1, bind_consume h, M.bind_ok (consumeOr_cons _ (rest_afterConsume h)), h2]; rfl
  | @hex x r c hx =>
    cases n with
    | zero => cases hx; simp at hn
    | succ n =>
      have := scanHexEscSeq_eq h hx
      cases hx
      simp only [List.cons_append, List.nil_append] at h
      rw [scanStringCpF_bs h, if_neg (by decide), if_neg (by decide), if_pos rfl, M.bind_ok this]; rfl
  | @unicode x r c hx =>
    cases n with
    | zero => cases hx <;> simp at hn
    | succ n =>
      have hq := scanUnicodeEscSeq_eq h hx
      have : ∃ y, x ++ r = '\\' :: 'u' :: y := by cases hx <;> exact ⟨_, rfl⟩
      obtain ⟨y, hy⟩ := this
      rw [hy] at h
      rw [scanStringCpF_bs h, if_neg (by decide), if_neg (by decide), if_neg (by decide), if_pos rfl, M.bind_ok hq]; rfl
  | @octal ds r c hne hrun hlt hc =>
    cases n with
    | zero => simp at hn
    | succ n =>
      have := scanOctalEscSeq_eq (s := s) h hne hrun hlt hc
      obtain ⟨d, ds, rfl⟩ : ∃ d ds', ds = d :: ds' := by
        cases ds with
        | nil => exact absurd rfl hne
        | cons d ds => exact ⟨d, ds, rfl⟩
      simp only [List.cons_append] at h
      rw [scanStringCpF_bs h]
      have hd := isOctalDigit_iff.1 (hrun.1 d (by simp))
      have hne : ∀ e : Char, 55 < e.toNat ∨ e.toNat < 48 → d ≠ e := by
        rintro e he rfl; omega
      rw [if_neg, if_neg, if_neg (hne _ (by decide)), if_neg (hne _ (by decide)), if_pos (hrun.1 d (by simp)), M.bind_ok this]
      · rfl
      · unfold isLineTerminator
        simp [hne _ (by decide : 55 < '\u2028'.toNat ∨ _), hne _ (by decide : 55 < '\u2029'.toNat ∨ _),
          hne _ (by decide : 55 < '\n'.toNat ∨ _), hne _ (by decide : 55 < '\r'.toNat ∨ _)]
      · intro he
        have he := (singleEscape_iff d).1 he
        simp only [singleEscapes, List.mem_cons, Prod.mk.injEq, List.not_mem_nil, or_false] at he
        rcases he with ⟨rfl, _⟩ | ⟨rfl, _⟩ | ⟨rfl, _⟩ | ⟨rfl, _⟩ | ⟨rfl, _⟩ | ⟨rfl, _⟩ | ⟨rfl, _⟩ | ⟨rfl, _⟩ |
          ⟨rfl, _⟩ <;> revert hd <;> decide
  | @continuation b x r c o hb hx ih =>
    cases n with
    | zero => simp at hn
    | succ n =>
      obtain ⟨d, y, hy, hd⟩ : ∃ d y, b = d :: y ∧ isLineTerminator d = true := by
        cases hb with
        | crlf => exact ⟨_, _, rfl, by decide⟩
        | single h9 => exact ⟨_, _, rfl, h9⟩
      simp only [List.cons_append, List.append_assoc] at h
      have h1 := rest_afterConsume h
      subst hy
      rw [scanStringCpF_bs h, if_neg, if_pos hd, bind_consume h, continuation_eq h1 hb,
        ih (rest_afterN_append h1) (by simp at hn ⊢; omega)]
      · rw [← afterN_succ, ← afterN_add]
        congr 3
        simp; omega
      · intro he
        have he := (singleEscape_iff d).1 he
        simp only [singleEscapes, List.mem_cons, Prod.mk.injEq, List.not_mem_nil, or_false] at he
        rcases he with ⟨rfl, _⟩ | ⟨rfl, _⟩ | ⟨rfl, _⟩ | ⟨rfl, _⟩ | ⟨rfl, _⟩ | ⟨rfl, _⟩ | ⟨rfl, _⟩ | ⟨rfl, _⟩ |
          ⟨rfl, _⟩ <;> revert hd <;> decide
  | @backslash r hr =>
    cases n with
    | zero => simp at hn
    | succ n =>
      cases r with
      | nil => exact scanStringCpF_plain h (.inr rfl) (by decide)
      | cons d r =>
        obtain ⟨h1, h2, h3, h4, h5⟩ := hr d rfl
        simp only [List.cons_append, List.nil_append] at h
        rw [scanStringCpF_bs h, if_neg (fun he => h1 _ ((singleEscape_iff d).1 he)), if_neg (by simp [h2]), if_neg h3,
          if_neg h4, if_neg (by simp [h5]), M.bind_ok (consumeOr_cons _ h)]; rfl

theorem scanStringCp_eats : Eats scanStringCp s (fun a x r => StringItem x r a.1 a.2) :=
  fun a s' h => scanStringCpF_eats _ a s' h

theorem scanStringCp_eq {x r : Str} {c : Char} {o : Bool} (hx : StringItem x r c o) (h : s.rest = x ++ r) :
    scanStringCp s = .ok ((c, o), afterN x.length s) :=
  scanStringCpF_eq hx h (by simp [h]; omega)

theorem stringBodyF_eats {q : Char} (n : Nat) :
    Eats (scanUntilF (fun cp => cp == q) scanStringCp n) s
      (fun v x r => StringBody q x r (v.map Prod.fst) (v.any Prod.snd)) := by
  induction n generalizing s with
  | zero => exact Eats.fuel
  | succ n ih =>
    unfold scanUntilF
    refine Eats.look (peek_eq s) ?_
    cases hr : s.rest with
    | nil => exact Eats.pure .done
    | cons c r =>
      dsimp only [List.head?_cons]
      refine Eats.ite (fun hp => Eats.pure .done) (fun hp => ?_)
      refine Eats.bind scanStringCp_eats ?_
      intro a x r' hx hi
      refine Eats.bind ih ?_
      intro v y r'' hy hv
      refine Eats.pure ?_
      rw [rest_afterN_append hy, List.append_nil]
      rw [rest_afterN_append hx] at hy
      subst hy
      refine .item ?_ hi hv
      intro hq
      have hne := stringItem_ne_nil hi
      cases x with
      | nil => exact hne rfl
      | cons d x =>
        rw [hr] at hx
        cases hx
        simp at hq hp
        exact hp hq

theorem stringBodyF_eq {q : Char} {x r v : Str} {o : Bool} (hx : StringBody q x r v o) {n : Nat}
    (hr : r.head? = some q) (h : s.rest = x ++ r) (hn : x.length < n) :
    ∃ items : List (Char × Bool), items.map Prod.fst = v ∧ items.any Prod.snd = o ∧
      scanUntilF (fun cp => cp == q) scanStringCp n s = .ok (items, afterN x.length s) := by
  induction hx generalizing s n with
  | done =>
    cases n with
    | zero => simp at hn
    | succ n =>
      refine ⟨[], rfl, rfl, ?_⟩
      unfold scanUntilF
      rw [bind_peek, h]
      simp only [List.nil_append] at h ⊢
      rw [hr]
      dsimp only
      rw [if_pos (by simp)]; rfl
  | @item x y r v c o p hq hi _ ih =>
    cases n with
    | zero => simp at hn
    | succ n =>
      rw [List.append_assoc] at h
      have hne := stringItem_ne_nil hi
      obtain ⟨items, h1, h2, h3⟩ := ih (s := afterN x.length s) (n := n) hr (rest_afterN_append h) (by
        have : 0 < x.length := List.length_pos_iff.2 hne
        simp at hn; omega)
      refine ⟨(c, o) :: items, by simp [h1], by simp [h2], ?_⟩
      unfold scanUntilF
      rw [bind_peek]
      obtain ⟨d, x, rfl⟩ : ∃ d x', x = d :: x' := by
        cases x with
        | nil => exact absurd rfl hne
        | cons d x => exact ⟨d, x, rfl⟩
      rw [show s.rest.head? = some d by rw [h]; rfl]
      dsimp only
      rw [if_neg (by simpa using hq), M.bind_ok (scanStringCp_eq hi h), M.bind_ok h3, M.pure_apply, ← afterN_add]
      simp [Nat.add_right_comm]

/-- What a string literal reads: a quote, a body, the same quote. -/
theorem stringValue_eats {β : Type} {q : Char} {f : List (Char × Bool) → SM β} {Q : β → Str → Str → Prop}
    (hf : ∀ items x r, s.rest = x ++ r → StringBody q x r (items.map Prod.fst) (items.any Prod.snd) →
      Eats (f items) (afterN x.length s) (fun b y r' => Q b (x ++ y) r')) :
    Eats (scanUntil (fun cp => cp == q) scanStringCp >>= f) s Q :=
  Eats.bind (P := fun items x r => StringBody q x r (items.map Prod.fst) (items.any Prod.snd))
    (fun a s' h => stringBodyF_eats _ a s' h) hf

end Scanner
end Giron

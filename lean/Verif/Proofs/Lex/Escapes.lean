import Verif.Proofs.Lex.Trivia
/-
Escapes and names.
-/
namespace Giron
open M Spec
namespace Scanner
variable {s : Scanner}

theorem bind_expect {β : Type} {c : Char} {r : Str} {f : Unit → SM β} (h : s.rest = c :: r) :
    (expect c >>= f) s = f () (afterConsume s) := M.bind_ok (expect_cons h)

theorem hexDigits_eq {t : ErrorType} {x r : Str} {v : Nat} (h : s.rest = x ++ r)
    (hx : ∀ d ∈ x, isHexDigit d = true) :
    hexDigits t x.length v s = .ok (v * 16 ^ x.length + numeral 16 x, afterN x.length s) := by
  induction x generalizing s v with
  | nil => simp [hexDigits, numeral, M.pure_apply]
  | cons c x ih =>
    have hc := hx c (by simp)
    rw [List.length_cons, hexDigits]
    rw [bind_consume (r := x ++ r) h]
    simp only [hc, if_true, toDigit16_eq hc]
    show hexDigits t x.length (v * 16 + digit c) (afterConsume s) = _
    rw [ih (rest_afterConsume h) (fun d hd => hx d (by simp [hd]))]
    rw [numeral, Nat.pow_succ, afterN_succ]
    congr 2
    rw [Nat.add_mul, Nat.mul_assoc, Nat.mul_comm 16, Nat.add_assoc]

theorem hexDigits_eats {t : ErrorType} (n v : Nat) :
    Eats (hexDigits t n v) s (fun a x _ => x.length = n ∧ (∀ d ∈ x, isHexDigit d = true) ∧
      a = v * 16 ^ n + numeral 16 x) := by
  induction n generalizing s v with
  | zero => exact Eats.pure ⟨rfl, by simp, by simp [numeral]⟩
  | succ n ih =>
    unfold hexDigits
    cases hr : s.rest with
    | nil =>
      intro a s' h
      rw [M.bind_ok (consume_eq s), hr] at h
      cases h
    | cons c r =>
      refine Eats.consume hr ?_
      dsimp only
      refine Eats.ite (fun hc => ?_) (fun _ => Eats.error _)
      rw [toDigit16_eq hc]
      refine Eats.look (a := digit c) rfl ?_
      refine (ih _).mono ?_
      rintro a x r' _ ⟨h1, h2, rfl⟩
      refine ⟨by simp [h1], ?_, ?_⟩
      · intro d hd
        rcases List.mem_cons.1 hd with rfl | hd
        · exact hc
        · exact h2 d hd
      · rw [numeral, Nat.pow_succ, h1]
        rw [Nat.add_mul, Nat.mul_assoc, Nat.mul_comm 16, Nat.add_assoc]

theorem scanHexEscSeq_eats : Eats scanHexEscSeq s (fun c x _ => HexEscape x c) := by
  unfold scanHexEscSeq
  refine Eats.expect fun r1 h1 => Eats.expect fun r2 h2 => ?_
  refine Eats.bind (hexDigits_eats 2 0) ?_
  rintro v x r h3 ⟨hl, hx, rfl⟩
  refine Eats.charOr fun c hc => ?_
  match x, hl with
  | [a, b], _ =>
    simp only [List.append_nil]
    exact .mk (hx a (by simp)) (hx b (by simp)) (by simpa using hc)

theorem scanHexEscSeq_eq {x r : Str} {c : Char} (h : s.rest = x ++ r) (hx : HexEscape x c) :
    scanHexEscSeq s = .ok (c, afterN x.length s) := by
  cases hx with
  | @mk a b c ha hb hc =>
    unfold scanHexEscSeq
    have h1 : (afterConsume s).rest = 'x' :: a :: b :: r := rest_afterConsume h
    have h2 : (afterConsume (afterConsume s)).rest = [a, b] ++ r := rest_afterConsume h1
    rw [bind_expect (r := 'x' :: a :: b :: r) h, bind_expect h1]
    have := hexDigits_eq (t := .invalidOrUnexpectedToken) (v := 0) h2 (by simp [ha, hb])
    rw [show [a, b].length = 2 from rfl] at this
    rw [M.bind_ok this]
    rw [show 0 * 16 ^ 2 + numeral 16 [a, b] = c.toNat by rw [hc]; simp, charOr_eq]
    rfl

variable [Env]

theorem foldHex_eq {ds : Str} {v : Nat} (hd : ∀ d ∈ ds, isHexDigit d = true) (hv : v < 2 ^ 32) :
    foldHex v ds s = if Env.checked = true ∧ 2 ^ 32 ≤ v * 16 ^ ds.length + numeral 16 ds
      then .error (.panic .escOverflow) else .ok ((v * 16 ^ ds.length + numeral 16 ds) % 2 ^ 32, s) := by
  induction ds generalizing v with
  | nil =>
    simp only [foldHex, numeral, List.length_nil, Nat.pow_zero, Nat.mul_one, Nat.add_zero]
    rw [if_neg (by omega), Nat.mod_eq_of_lt hv]; rfl
  | cons c ds ih =>
    have hc := hd c (by simp)
    have hd' : ∀ d ∈ ds, isHexDigit d = true := fun d h => hd d (by simp [h])
    have e : v * 16 ^ (c :: ds).length + numeral 16 (c :: ds) = (v * 16 + digit c) * 16 ^ ds.length + numeral 16 ds := by
      rw [numeral, List.length_cons, Nat.pow_succ, Nat.add_mul, Nat.mul_assoc, Nat.mul_comm 16, Nat.add_assoc]
    rw [e]
    have hp : 1 ≤ 16 ^ ds.length := Nat.one_le_pow _ _ (by decide)
    unfold foldHex foldHexStep
    rw [toDigit16_eq hc]
    show ((if v * 16 + digit c < 4294967296 then pure (v * 16 + digit c)
      else if Env.checked = true then M.panic .escOverflow else pure ((v * 16 + digit c) % 4294967296) : SM Nat) >>=
        fun v => foldHex v ds) s = _
    by_cases h1 : v * 16 + digit c < 4294967296
    · rw [if_pos h1, pure_bind, ih hd' h1]
    · have hle : v * 16 + digit c ≤ (v * 16 + digit c) * 16 ^ ds.length := Nat.le_mul_of_pos_right _ hp
      rw [if_neg h1]
      by_cases h2 : Env.checked = true
      · rw [if_pos h2, if_pos ⟨h2, by omega⟩]; rfl
      · rw [if_neg h2, if_neg (fun h => h2 h.1), pure_bind, ih hd' (Nat.mod_lt _ (by decide)),
          if_neg (fun h => h2 h.1)]
        congr 2
        rw [Nat.add_mod, Nat.mul_mod, Nat.mod_mod, ← Nat.mul_mod, ← Nat.add_mod]

theorem scanUnicodeEscSeq_eats : Eats scanUnicodeEscSeq s (fun c x _ => UnicodeEscape x c) := by
  unfold scanUnicodeEscSeq
  refine Eats.expect fun r1 h1 => Eats.expect fun r2 h2 => ?_
  refine Eats.look (matches_eq _ _) ?_
  refine Eats.ite (fun hb => ?_) (fun _ => ?_)
  · simp only [decide_eq_true_eq] at hb
    obtain ⟨r3, h3⟩ : ∃ r3, (afterConsume (afterConsume s)).rest = '{' :: r3 := by
      cases hr : (afterConsume (afterConsume s)).rest with
      | nil => rw [hr] at hb; cases hb
      | cons d r => rw [hr] at hb; simp at hb; exact ⟨r, by rw [hb]⟩
    refine Eats.consume h3 ?_
    refine Eats.scanUntil fun ds r h4 hrun => ?_
    have hd : ∀ d ∈ ds, isHexDigit d = true := by
      intro d hd; have := hrun.1 d hd; simpa using this
    have hf := fun s' => foldHex_eq (s := s') (v := 0) hd (by decide)
    by_cases hov : Env.checked = true ∧ 2 ^ 32 ≤ 0 * 16 ^ ds.length + numeral 16 ds
    · intro a s' h
      rw [M.bind_err (by rw [hf, if_pos hov])] at h
      cases h
    · refine Eats.look (by rw [hf, if_neg hov]) ?_
      refine Eats.expect fun r5 h5 => Eats.charOr fun c hc => ?_
      simp only [Nat.zero_mul, Nat.zero_add] at hov hc
      have : ('\\' :: 'u' :: '{' :: (ds ++ ['}']) : Str) = '\\' :: 'u' :: '{' :: (ds ++ '}' :: []) := rfl
      rw [← this]
      exact .long hd (fun h => by exact Nat.lt_of_not_le fun h' => hov ⟨h, h'⟩) hc
  · refine Eats.bind (hexDigits_eats 4 0) ?_
    rintro v x r h3 ⟨hl, hx, rfl⟩
    refine Eats.charOr fun c hc => ?_
    simp only [List.append_nil]
    exact .short hl hx (by simpa using hc)

theorem scanUnicodeEscSeq_eq {x r : Str} {c : Char} (h : s.rest = x ++ r) (hx : UnicodeEscape x c) :
    scanUnicodeEscSeq s = .ok (c, afterN x.length s) := by
  cases hx with
  | @short ds c hl hd hc =>
    unfold scanUnicodeEscSeq
    simp only [List.cons_append] at h
    have h1 := rest_afterConsume h
    have h2 := rest_afterConsume h1
    rw [bind_expect h, bind_expect h1, M.bind_ok (matches_eq _ _), h2]
    have hne : (ds ++ r).head? ≠ some '{' := by
      cases ds with
      | nil => simp at hl
      | cons d ds =>
        intro h'
        simp at h'
        have := hd d (by simp)
        rw [h'] at this
        revert this; decide
    rw [if_neg (by simpa using hne)]
    have h3 := hexDigits_eq (t := .invalidUnicodeEscapeSequence) (v := 0) h2 hd
    rw [hl] at h3
    rw [M.bind_ok h3]
    rw [show 0 * 16 ^ 4 + numeral 16 ds = c.toNat by rw [hc]; simp, charOr_eq]
    simp only [List.length_cons, hl]
    rfl
  | @long ds c hd hov hc =>
    unfold scanUnicodeEscSeq
    have e : ('\\' :: 'u' :: '{' :: (ds ++ ['}'])) ++ r = '\\' :: 'u' :: '{' :: (ds ++ '}' :: r) := by simp
    rw [e] at h
    have h1 := rest_afterConsume h
    have h2 := rest_afterConsume h1
    have h3 := rest_afterConsume h2
    rw [bind_expect h, bind_expect h1, M.bind_ok (matches_eq _ _), h2]
    rw [if_pos (by simp), bind_consume h2]
    have hrun : Run (fun c => !!isHexDigit c) ds ('}' :: r) := by
      refine ⟨fun d h => by simpa using hd d h, fun d h => ?_⟩
      simp at h; subst h; decide
    rw [M.bind_ok (scanUntil_run (x := ds) (r := '}' :: r) h3 hrun)]
    have hf := fun s' => foldHex_eq (s := s') (v := 0) hd (by decide)
    rw [M.bind_ok (by rw [hf, if_neg (by rintro ⟨h, h'⟩; have := hov h; omega)])]
    have h4 : (afterN ds.length (afterConsume (afterConsume (afterConsume s)))).rest = '}' :: r := by
      rw [rest_afterN_append h3]
    rw [bind_expect h4]
    rw [show (0 * 16 ^ ds.length + numeral 16 ds) % 2 ^ 32 = c.toNat by rw [hc]; simp, charOr_eq]
    congr 2
    have : ('\\' :: 'u' :: '{' :: (ds ++ ['}']) : Str).length = 3 + ds.length + 1 := by simp; omega
    rw [this, afterN_succ', afterN_add]
    rfl

/-! ### Names -/

/-- the closure that reads a character of a name -/
theorem readIdPart_char {c : Char} {r : Str} (h : s.rest = c :: r) (hc : c ≠ '\\') :
    readIdPart s = .ok (c, afterConsume s) := by
  unfold readIdPart
  rw [M.bind_ok (consumeUnwrap_cons h), if_neg hc]; rfl

theorem idTailF_eats (n : Nat) :
    Eats (scanUntilF (fun cp => cp != '\\' && !isIdentifierContinue cp) readIdPart n) s
      (fun v x r => IdTail x r v) := by
  induction n generalizing s with
  | zero => exact Eats.fuel
  | succ n ih =>
    unfold scanUntilF
    refine Eats.look (peek_eq s) ?_
    cases hr : s.rest with
    | nil => exact Eats.pure (.done (by simp [hr]))
    | cons c r =>
      dsimp only [List.head?_cons]
      refine Eats.ite (fun hp => ?_) (fun hp => ?_)
      · refine Eats.pure (.done ?_)
        simp [hr] at hp ⊢
        exact hp.2
      · by_cases hc : c = '\\'
        · subst hc
          have : readIdPart s = scanUnicodeEscSeq (afterConsume s) := by
            unfold readIdPart
            rw [M.bind_ok (consumeUnwrap_cons hr), if_pos rfl]
          refine Eats.bind (P := fun a x r' => ∃ e, x = '\\' :: e ∧ UnicodeEscape e a) ?_ ?_
          · intro a s' h
            rw [this] at h
            obtain ⟨x, r', hx, rfl, hu⟩ := scanUnicodeEscSeq_eats a s' h
            refine ⟨'\\' :: x, r', ?_, by rw [List.length_cons, afterN_succ], x, rfl, hu⟩
            rw [rest_afterConsume hr] at hx
            rw [hr, hx]; rfl
          · rintro a _ r' hx ⟨e, rfl, hu⟩
            refine Eats.bind ih ?_
            intro v y r'' _ hv
            refine Eats.pure ?_
            simp only [List.append_nil, List.cons_append]
            rename_i hy
            rw [rest_afterN_append hy]
            exact .escape hu hv
        · refine Eats.bind (P := fun a x r' => a = c ∧ x = [c])
            (Eats.of_eq (x := [c]) (r := r) hr (readIdPart_char hr hc) ⟨rfl, rfl⟩) ?_
          rintro a _ r' hx ⟨rfl, rfl⟩
          refine Eats.bind ih ?_
          intro v y r'' hy hv
          refine Eats.pure ?_
          simp only [List.append_nil, List.cons_append, List.nil_append]
          rw [rest_afterN_append hy]
          exact .char (by simpa [hc] using hp) hc hv

theorem idTailF_eq {x r v : Str} (hx : IdTail x r v) {n : Nat} (h : s.rest = x ++ r) (hn : x.length < n) :
    scanUntilF (fun cp => cp != '\\' && !isIdentifierContinue cp) readIdPart n s = .ok (v, afterN x.length s) := by
  induction hx generalizing s n with
  | @done r hr =>
    cases n with
    | zero => simp at hn
    | succ n =>
      unfold scanUntilF
      rw [bind_peek]
      simp only [List.nil_append] at h
      cases hc : s.rest.head? with
      | none => rfl
      | some c =>
        have h1 := hr c (by rw [← h, hc])
        have h2 : c ≠ '\\' := by rintro rfl; simp [isIdentifierContinue] at h1
        dsimp only
        rw [if_pos (by simp [h1, h2])]; rfl
  | @char c x r v hc hne _ ih =>
    cases n with
    | zero => simp at hn
    | succ n =>
      unfold scanUntilF
      simp only [List.cons_append] at h
      rw [bind_peek, h]
      dsimp only [List.head?_cons]
      rw [if_neg (by simp [hc]), M.bind_ok (readIdPart_char h hne),
        M.bind_ok (ih (rest_afterConsume h) (by simpa using hn))]
      rfl
  | @escape e x r v c he _ ih =>
    cases n with
    | zero => simp at hn
    | succ n =>
      unfold scanUntilF
      simp only [List.cons_append, List.append_assoc] at h
      rw [bind_peek, h]
      dsimp only [List.head?_cons]
      rw [if_neg (by simp)]
      have h1 : readIdPart s = .ok (c, afterN e.length (afterConsume s)) := by
        unfold readIdPart
        rw [M.bind_ok (consumeUnwrap_cons h), if_pos rfl, scanUnicodeEscSeq_eq (rest_afterConsume h) he]
      rw [M.bind_ok h1]
      rw [M.bind_ok (ih (rest_afterN_append (rest_afterConsume h)) (by simp at hn; omega))]
      rw [← afterN_succ, ← afterN_add, M.pure_apply]
      congr 3
      simp; omega

theorem idTail_eq {x r v : Str} (hx : IdTail x r v) (h : s.rest = x ++ r) :
    scanUntil (fun cp => cp != '\\' && !isIdentifierContinue cp) readIdPart s = .ok (v, afterN x.length s) :=
  idTailF_eq hx h (by simp [h]; omega)

theorem idTail_eats :
    Eats (scanUntil (fun cp => cp != '\\' && !isIdentifierContinue cp) readIdPart) s (fun v x r => IdTail x r v) :=
  fun a s' h => idTailF_eats _ a s' h

omit [Env] in
/-- C38 in one line: the table by length is the list of keywords. -/
theorem isKeyword_iff (v : Str) : isKeyword v = true ↔ v ∈ keywords := by
  constructor
  · intro h
    unfold isKeyword at h
    split at h <;> simp only [Bool.or_eq_true, beq_iff_eq, Bool.false_eq_true] at h <;>
      simp only [keywords] <;>
      (repeat' rcases h with h | h) <;> decide
  · intro h
    simp only [keywords, List.mem_cons, List.not_mem_nil, or_false] at h
    rcases h with rfl | rfl | rfl | rfl | rfl | rfl | rfl | rfl | rfl | rfl | rfl | rfl | rfl | rfl | rfl | rfl |
      rfl | rfl | rfl | rfl | rfl | rfl | rfl | rfl | rfl | rfl | rfl | rfl | rfl | rfl | rfl | rfl | rfl | rfl |
      rfl <;> rfl

end Scanner
end Giron

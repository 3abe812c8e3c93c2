import Verif.Proofs.Lex.Escapes
/-
Numeric literals.
-/
namespace Giron
open M Spec
namespace Scanner
variable {s : Scanner}

theorem decimal_cases {c : Char} (h : isDecimalDigit c = true) : 48 ≤ c.toNat ∧ c.toNat ≤ 57 := by
  unfold isDecimalDigit inRange at h
  simpa using h

theorem isDecimalDigit_iff {c : Char} : isDecimalDigit c = true ↔ 48 ≤ c.toNat ∧ c.toNat ≤ 57 := by
  unfold isDecimalDigit inRange
  simp

theorem isOctalDigit_iff {c : Char} : isOctalDigit c = true ↔ 48 ≤ c.toNat ∧ c.toNat ≤ 55 := by
  unfold isOctalDigit inRange
  simp

theorem digit_decimal {c : Char} (h : isDecimalDigit c = true) : digit c = c.toNat - 48 := by
  have := decimal_cases h
  rw [digit_eq, if_neg (by omega), if_neg (by omega)]

theorem isHexDigit_of_decimal {c : Char} (h : isDecimalDigit c = true) : isHexDigit c = true := by
  unfold isDecimalDigit at h
  unfold isHexDigit
  simp [h]

theorem isDecimalDigit_of_octal {c : Char} (h : isOctalDigit c = true) : isDecimalDigit c = true := by
  have := isOctalDigit_iff.1 h
  exact isDecimalDigit_iff.2 (by omega)

theorem digit_octal {c : Char} (h : isOctalDigit c = true) : digit c < 8 := by
  have := isOctalDigit_iff.1 h
  rw [digit_decimal (isDecimalDigit_of_octal h)]; omega

theorem decVal_eq {ds : Str} (h : ∀ d ∈ ds, isDecimalDigit d = true) : decVal ds = numeral 10 ds := by
  have key : ∀ (ds : Str), (∀ d ∈ ds, isDecimalDigit d = true) → ∀ v,
      ds.foldl (fun acc c => acc * 10 + (c.toNat - 48)) v = ds.foldl (fun v d => v * 10 + digit d) v := by
    intro ds
    induction ds with
    | nil => intros; rfl
    | cons c ds ih =>
      intro h v
      rw [List.foldl_cons, List.foldl_cons, ih (fun d hd => h d (by simp [hd])), digit_decimal (h c (by simp))]
  unfold decVal
  rw [key ds h, numeral_foldl]; simp

theorem digitsVal_eq {radix : Nat} {ds : Str} (h : ∀ d ∈ ds, isHexDigit d = true) (v : Nat) :
    digitsVal radix v ds = if ∀ d ∈ ds, digit d < radix then some (v * radix ^ ds.length + numeral radix ds) else none := by
  induction ds generalizing v with
  | nil => simp [digitsVal, numeral]
  | cons c ds ih =>
    rw [digitsVal, toDigit16_eq (h c (by simp))]
    dsimp only
    by_cases hc : digit c < radix
    · rw [if_pos hc, ih (fun d hd => h d (by simp [hd]))]
      simp only [List.forall_mem_cons, hc, true_and]
      congr 2
      rw [numeral, List.length_cons, Nat.pow_succ, Nat.add_mul, Nat.mul_assoc, Nat.mul_comm radix, Nat.add_assoc]
    · rw [if_neg hc, if_neg (fun h' => hc (h' c (by simp)))]

theorem parseI64_eq {radix : Nat} {ds : Str} (h : ∀ d ∈ ds, isHexDigit d = true) :
    parseI64 radix ds = if ds ≠ [] ∧ (∀ d ∈ ds, digit d < radix) ∧ numeral radix ds < 2 ^ 63 then some (numeral radix ds)
      else none := by
  unfold parseI64
  rw [digitsVal_eq h]
  by_cases h1 : ds = []
  · simp [h1]
  by_cases h2 : ∀ d ∈ ds, digit d < radix
  · rw [if_neg h1, if_pos h2]
    simp only [Nat.zero_mul, Nat.zero_add]
    by_cases h3 : numeral radix ds < 2 ^ 63
    · rw [if_pos h3, if_pos ⟨h1, h2, h3⟩]
    · rw [if_neg h3, if_neg (fun h => h3 h.2.2)]
  · rw [if_neg h1, if_neg h2, if_neg (fun h => h2 h.2.1)]

/-- reading more digits in a larger radix gives no smaller a number -/
theorem numeral_mono {a b : Nat} (h : a ≤ b) (ds : Str) : numeral a ds ≤ numeral b ds := by
  induction ds with
  | nil => simp [numeral]
  | cons c ds ih =>
    rw [numeral, numeral]
    exact Nat.add_le_add (Nat.mul_le_mul_left _ (Nat.pow_le_pow_left h _)) ih

theorem numeral_zero_cons (radix : Nat) (ds : Str) : numeral radix ('0' :: ds) = numeral radix ds := by
  rw [numeral, show digit '0' = 0 from rfl]; simp

/-! ### `parseF64` -/

/-- the last part of `parseF64` -/
def expTail (m : Nat) (l : Int) (ex : Str) : Option Num :=
  match ex with
  | [] => some ⟨m, -l⟩
  | c :: r3 =>
    if c = 'e' ∨ c = 'E' then
      let (neg, ds) := splitSign r3
      if ds ≠ [] ∧ ds.all isDecimalDigit then
        some ⟨m, (if neg then -(decVal ds : Int) else (decVal ds : Int)) - l⟩
      else none
    else none

theorem takeWhile_run {p : Char → Bool} {x r : Str} (h : Run p x r) : (x ++ r).takeWhile p = x := by
  rw [List.takeWhile_append_of_pos h.1]
  cases r with
  | nil => simp
  | cons c r => rw [List.takeWhile_cons, if_neg (by rw [h.2 c rfl]; decide), List.append_nil]

theorem dropWhile_run {p : Char → Bool} {x r : Str} (h : Run p x r) : (x ++ r).dropWhile p = r := by
  rw [List.dropWhile_append_of_pos h.1]
  cases r with
  | nil => simp
  | cons c r => rw [List.dropWhile_cons, if_neg (by rw [h.2 c rfl]; decide)]

theorem parseF64_integer {ip ex : Str} (h : Run isDecimalDigit ip ex) (hd : ex.head? ≠ some '.') :
    parseF64 (ip ++ ex) = if ip = [] then none else expTail (decVal ip) 0 ex := by
  unfold parseF64
  rw [takeWhile_run h, dropWhile_run h]
  have : splitPoint ex = ([], ex) := by
    unfold splitPoint
    split
    · simp at hd
    · rfl
  simp only [this, List.append_nil]
  by_cases hi : ip = []
  · rw [if_pos hi, if_pos hi]
  · rw [if_neg hi, if_neg hi]
    unfold expTail
    rfl

theorem parseF64_fraction {ip fp ex : Str} (hi : ∀ d ∈ ip, isDecimalDigit d = true) (hf : Run isDecimalDigit fp ex) :
    parseF64 (ip ++ ['.'] ++ fp ++ ex) =
      if ip ++ fp = [] then none else expTail (decVal (ip ++ fp)) fp.length ex := by
  unfold parseF64
  have e : ip ++ ['.'] ++ fp ++ ex = ip ++ ('.' :: (fp ++ ex)) := by simp
  have h : Run isDecimalDigit ip ('.' :: (fp ++ ex)) := ⟨hi, by intro c hc; simp at hc; subst hc; decide⟩
  rw [e, takeWhile_run h, dropWhile_run h]
  simp only [splitPoint, takeWhile_run hf, dropWhile_run hf]
  by_cases hi : ip ++ fp = []
  · rw [if_pos hi, if_pos hi]
  · rw [if_neg hi, if_neg hi]
    unfold expTail
    rfl

/-- An exponent part as the scanner reads it, digits or not. -/
inductive RawExp : Str → Str → Prop
  | none {r : Str} : r.head? ≠ some 'e' → r.head? ≠ some 'E' → RawExp [] r
  | some {e : Char} {sg ds r : Str} : e = 'e' ∨ e = 'E' →
      (sg = [] ∧ (ds ++ r).head? ≠ some '+' ∧ (ds ++ r).head? ≠ some '-') ∨ sg = ['+'] ∨ sg = ['-'] →
      Run isDecimalDigit ds r → RawExp (e :: (sg ++ ds)) r

theorem RawExp.of {ex r : Str} {k : Int} (h : Exponent ex r k) : RawExp ex r := by
  cases h with
  | none h1 h2 => exact .none h1 h2
  | @plain e ds r he hne hr =>
    refine RawExp.some (sg := []) he (Or.inl ⟨rfl, ?_⟩) hr
    cases ds with
    | nil => exact absurd rfl hne
    | cons d ds =>
      have := hr.1 d (by simp)
      constructor <;> intro h <;> simp at h <;> rw [h] at this <;> revert this <;> decide
  | plus he hne hr => exact RawExp.some (sg := ['+']) he (Or.inr (Or.inl rfl)) hr
  | minus he hne hr => exact RawExp.some (sg := ['-']) he (Or.inr (Or.inr rfl)) hr

theorem all_of {ds : Str} (h : ∀ d ∈ ds, isDecimalDigit d = true) : ds.all isDecimalDigit = true := by
  simpa [List.all_eq_true] using h

theorem expTail_sound {m : Nat} {l : Int} {ex r : Str} {n : Num} (h : RawExp ex r) (hn : expTail m l ex = some n) :
    ∃ k, Exponent ex r k ∧ n = ⟨m, k - l⟩ := by
  cases h with
  | none h1 h2 =>
    refine ⟨0, .none h1 h2, ?_⟩
    unfold expTail at hn
    cases hn
    simp
  | @some e sg ds r he hs hr =>
    unfold expTail at hn
    simp only [he, if_true] at hn
    rcases hs with ⟨rfl, h1, h2⟩ | rfl | rfl
    · have : splitSign ds = (false, ds) := by
        unfold splitSign
        split
        · simp at h1
        · simp at h2
        · rfl
      simp only [List.nil_append, this] at hn
      split at hn
      · next hd =>
        cases hn
        refine ⟨numeral 10 ds, .plain he hd.1 hr, ?_⟩
        simp [decVal_eq hr.1]
      · cases hn
    · simp only [List.cons_append, List.nil_append, splitSign] at hn ⊢
      split at hn
      · next hd =>
        cases hn
        refine ⟨numeral 10 ds, .plus he hd.1 hr, ?_⟩
        simp [decVal_eq hr.1]
      · cases hn
    · simp only [List.cons_append, List.nil_append, splitSign] at hn ⊢
      split at hn
      · next hd =>
        cases hn
        refine ⟨-numeral 10 ds, .minus he hd.1 hr, ?_⟩
        simp [decVal_eq hr.1]
      · cases hn

theorem expTail_complete {m : Nat} {l : Int} {ex r : Str} {k : Int} (h : Exponent ex r k) :
    expTail m l ex = some ⟨m, k - l⟩ := by
  cases h with
  | none h1 h2 => simp [expTail]
  | @plain e ds r he hne hr =>
    unfold expTail
    simp only [he, if_true]
    have : splitSign ds = (false, ds) := by
      unfold splitSign
      split
      · have := hr.1 '+' (by simp); exact absurd this (by decide)
      · have := hr.1 '-' (by simp); exact absurd this (by decide)
      · rfl
    simp only [this]
    rw [if_pos ⟨hne, all_of hr.1⟩, decVal_eq hr.1]
    rfl
  | @plus e ds r he hne hr =>
    unfold expTail
    simp only [he, if_true, splitSign]
    rw [if_pos ⟨hne, all_of hr.1⟩, decVal_eq hr.1]
    rfl
  | @minus e ds r he hne hr =>
    unfold expTail
    simp only [he, if_true, splitSign]
    rw [if_pos ⟨hne, all_of hr.1⟩, decVal_eq hr.1]

/-! ### Reading -/

theorem bind_consumeUnwrap {β : Type} {c : Char} {r : Str} {f : Char → SM β} (h : s.rest = c :: r) :
    (consumeUnwrap >>= f) s = f c (afterConsume s) := M.bind_ok (consumeUnwrap_cons h)

theorem scanExponent_eq {ex r : Str} (h : s.rest = ex ++ r) (hx : RawExp ex r) :
    scanExponent s = .ok (ex, afterN ex.length s) := by
  cases hx with
  | none h1 h2 =>
    unfold scanExponent
    simp only [List.nil_append] at h
    rw [bind_peek, h]
    cases hc : r.head? with
    | none => rfl
    | some c =>
      rw [hc] at h1 h2
      dsimp only
      rw [if_neg (by rintro (rfl | rfl) <;> simp_all)]; rfl
  | @some e sg ds r he hs hr =>
    unfold scanExponent
    have h0 : s.rest = e :: (sg ++ (ds ++ r)) := by rw [h]; simp
    rw [bind_peek, h0]
    dsimp only [List.head?_cons]
    rw [if_pos he, bind_consumeUnwrap h0]
    have h1 := rest_afterConsume h0
    have hrun : Run (fun c => !!isDecimalDigit c) ds r := by simpa [Run] using hr
    have key : ∀ s', s'.rest = ds ++ r → (do
        let exponent ← scanUntil (fun cp => !isDecimalDigit cp) (consumeOr .invalidOrUnexpectedToken)
        pure (e :: (sg ++ exponent)) : SM Str) s' = .ok (e :: (sg ++ ds), afterN ds.length s') := by
      intro s' hs'
      rw [M.bind_ok (scanUntil_run hs' hrun)]; rfl
    rcases hs with ⟨rfl, h2, h3⟩ | hsg
    · simp only [List.nil_append] at h1 key ⊢
      have h4 : (do
        match ← peek with
        | some c2 => if c2 = '+' ∨ c2 = '-' then do let c3 ← consumeUnwrap; pure [c3] else pure []
        | none => pure [] : SM Str) (afterConsume s) = .ok ([], afterConsume s) := by
        rw [bind_peek, h1]
        cases hc : (ds ++ r).head? with
        | none => rfl
        | some c =>
          rw [hc] at h2 h3
          dsimp only
          rw [if_neg (by rintro (rfl | rfl) <;> simp_all)]; rfl
      exact (M.bind_ok h4).trans (key _ h1)
    · obtain ⟨c, rfl, hc⟩ : ∃ c, sg = [c] ∧ (c = '+' ∨ c = '-') := by
        rcases hsg with rfl | rfl
        · exact ⟨_, rfl, .inl rfl⟩
        · exact ⟨_, rfl, .inr rfl⟩
      have h1' : (afterConsume s).rest = c :: (ds ++ r) := h1
      have h4 : (do
        match ← peek with
        | some c2 => if c2 = '+' ∨ c2 = '-' then do let c3 ← consumeUnwrap; pure [c3] else pure []
        | none => pure [] : SM Str) (afterConsume s) = .ok ([c], afterConsume (afterConsume s)) := by
        rw [bind_peek, h1']
        dsimp only [List.head?_cons]
        rw [if_pos hc, bind_consumeUnwrap h1']; rfl
      exact (M.bind_ok h4).trans (key _ (rest_afterConsume h1'))

theorem exists_rawExp (text : Str) : ∃ ex r, text = ex ++ r ∧ RawExp ex r := by
  by_cases he : text.head? = some 'e' ∨ text.head? = some 'E'
  · obtain ⟨e, x, rfl, he'⟩ : ∃ e x, text = e :: x ∧ (e = 'e' ∨ e = 'E') := by
      cases text with
      | nil => simp at he
      | cons c x => simp at he; exact ⟨c, x, rfl, he⟩
    by_cases hs : x.head? = some '+' ∨ x.head? = some '-'
    · obtain ⟨c, y, rfl, hc⟩ : ∃ c y, x = c :: y ∧ (c = '+' ∨ c = '-') := by
        cases x with
        | nil => simp at hs
        | cons c y => simp at hs; exact ⟨c, y, rfl, hs⟩
      refine ⟨e :: ([c] ++ y.takeWhile isDecimalDigit), y.dropWhile isDecimalDigit, by simp, ?_⟩
      exact .some he' (.inr (by rcases hc with rfl | rfl <;> simp)) (run_takeWhile _ _)
    · refine ⟨e :: ([] ++ x.takeWhile isDecimalDigit), x.dropWhile isDecimalDigit, by simp, ?_⟩
      refine .some he' (.inl ⟨rfl, ?_⟩) (run_takeWhile _ _)
      simpa [not_or] using hs
  · rw [not_or] at he
    exact ⟨[], text, rfl, .none he.1 he.2⟩

theorem scanExponent_eats : Eats scanExponent s (fun a x r => a = x ∧ RawExp x r) := by
  obtain ⟨ex, r, h, hx⟩ := exists_rawExp s.rest
  exact Eats.of_eq h (scanExponent_eq h hx) ⟨rfl, hx⟩

theorem Eats.numOr {o : Option Num} {Q : Num → Str → Str → Prop} (h : ∀ n, o = some n → Q n [] s.rest) :
    Eats (numOr o) s Q := by
  unfold Scanner.numOr
  split
  · next n => exact Eats.pure (h n rfl)
  · exact Eats.error _

/-- digits before a point that begin with 0 are just that 0, as `scanNumericValue` has it -/
theorem scanFractionalPart_eats {ip : Str} (hi : ∀ d ∈ ip, isDecimalDigit d = true) :
    Eats (scanFractionalPart ip) s (fun n x r => ∃ fp ex k, x = '.' :: (fp ++ ex) ∧ ip ++ fp ≠ [] ∧
      Run isDecimalDigit fp (ex ++ r) ∧ Exponent ex r k ∧ n = ⟨numeral 10 (ip ++ fp), k - fp.length⟩) := by
  unfold scanFractionalPart
  refine Eats.expect fun r1 h1 => Eats.scanUntil fun fp r2 h2 hrun => ?_
  refine Eats.bind scanExponent_eats ?_
  rintro ex _ r h3 ⟨rfl, hx⟩
  refine Eats.numOr fun n hn => ?_
  have hrun' : Run isDecimalDigit fp r2 := by simpa [Run] using hrun
  have h4 : r2 = ex ++ r := by rw [← h3, rest_afterN_append h2]
  subst h4
  have hfe : Run isDecimalDigit fp ex := by
    refine ⟨hrun'.1, fun c hc => hrun'.2 c ?_⟩
    cases ex with
    | nil => simp at hc
    | cons d ex => simpa using hc
  rw [parseF64_fraction hi hfe] at hn
  split at hn
  · cases hn
  · next hne =>
    obtain ⟨k, hk, rfl⟩ := expTail_sound hx hn
    rw [rest_afterN_append h3]
    refine ⟨fp, ex, k, by simp, hne, hrun', hk, ?_⟩
    rw [decVal_eq]
    intro d hd
    rcases List.mem_append.1 hd with hd | hd
    · exact hi d hd
    · exact hrun'.1 d hd

theorem scanFractionalPart_eq {ip fp ex r : Str} {k : Int} (h : s.rest = '.' :: (fp ++ ex) ++ r)
    (hi : ∀ d ∈ ip, isDecimalDigit d = true) (hne : ip ++ fp ≠ []) (hf : Run isDecimalDigit fp (ex ++ r))
    (hk : Exponent ex r k) :
    scanFractionalPart ip s = .ok (⟨numeral 10 (ip ++ fp), k - fp.length⟩, afterN ('.' :: (fp ++ ex)).length s) := by
  unfold scanFractionalPart
  have h0 : s.rest = '.' :: (fp ++ (ex ++ r)) := by rw [h]; simp
  have h1 := rest_afterConsume h0
  have h2 : (afterN fp.length (afterConsume s)).rest = ex ++ r := rest_afterN_append h1
  rw [bind_expect h0, M.bind_ok (scanUntil_run h1 (by simpa [Run] using hf)), M.bind_ok (scanExponent_eq h2 (.of hk))]
  have hfe : Run isDecimalDigit fp ex := by
    refine ⟨hf.1, fun c hc => hf.2 c ?_⟩
    cases ex with
    | nil => simp at hc
    | cons d ex => simpa using hc
  rw [parseF64_fraction hi hfe, if_neg hne, expTail_complete hk, decVal_eq]
  · dsimp only [numOr]
    rw [M.pure_apply, ← afterN_succ, ← afterN_add]
    congr 3
    simp; omega
  · intro d hd
    rcases List.mem_append.1 hd with hd | hd
    · exact hi d hd
    · exact hf.1 d hd

theorem scanRadixLiteral_eats {radix : Nat} {c : Char} {r0 : Str} (h : s.rest = '0' :: c :: r0) :
    Eats (scanRadixLiteral radix) s (fun n x r => ∃ ds, x = '0' :: c :: ds ∧ ds ≠ [] ∧ Run isHexDigit ds r ∧
      (∀ d ∈ ds, digit d < radix) ∧ numeral radix ds < 2 ^ 63 ∧ n = ⟨numeral radix ds, 0⟩) := by
  unfold scanRadixLiteral
  refine Eats.expect fun r1 h1 => ?_
  refine Eats.consume (rest_afterConsume h) ?_
  refine Eats.scanUntil fun ds r h2 hrun => ?_
  have hrun' : Run isHexDigit ds r := by simpa [Run] using hrun
  refine Eats.numOr fun n hn => ?_
  rw [parseI64_eq hrun'.1] at hn
  split at hn
  · next hd =>
    cases hn
    rw [rest_afterN_append h2]
    exact ⟨ds, by simp, hd.1, hrun', hd.2.1, hd.2.2, rfl⟩
  · cases hn

theorem scanRadixLiteral_eq {radix : Nat} {c : Char} {ds r : Str} (h : s.rest = ('0' :: c :: ds) ++ r)
    (hne : ds ≠ []) (hrun : Run isHexDigit ds r) (hd : ∀ d ∈ ds, digit d < radix) (hlt : numeral radix ds < 2 ^ 63) :
    scanRadixLiteral radix s = .ok (⟨numeral radix ds, 0⟩, afterN ('0' :: c :: ds).length s) := by
  unfold scanRadixLiteral
  simp only [List.cons_append] at h
  have h1 := rest_afterConsume h
  have h2 := rest_afterConsume h1
  rw [bind_expect h, bind_consume h1, M.bind_ok (scanUntil_run h2 (by simpa [Run] using hrun)),
    parseI64_eq hrun.1, if_pos ⟨hne, hd, hlt⟩]
  rfl

theorem head?_cases {text : Str} (c : Char) (h : text.head? = some c) : ∃ x, text = c :: x := by
  cases text with
  | nil => cases h
  | cons d x => simp at h; exact ⟨x, by rw [h]⟩

theorem numeric_sound : Eats scanNumericValue s (fun n x r => Number x r n) := by
  unfold scanNumericValue
  refine Eats.look (peek2_eq s) ?_
  dsimp only
  have two : ∀ {c d : Char}, s.rest[0]? = some c → s.rest[1]? = some d → ∃ r0, s.rest = c :: d :: r0 := by
    intro c d h0 h1
    rcases hr : s.rest with _ | ⟨a, _ | ⟨b, r⟩⟩ <;> simp [hr] at h0 h1
    exact ⟨r, by rw [h0, h1]⟩
  refine Eats.ite (fun hc => ?_) (fun hb => ?_)
  · obtain ⟨c, hc1, hc2⟩ : ∃ c, s.rest[1]? = some c ∧ (c = 'b' ∨ c = 'B') := by
      rcases hc.2 with h | h
      · exact ⟨_, h, .inl rfl⟩
      · exact ⟨_, h, .inr rfl⟩
    obtain ⟨r0, hr⟩ := two hc.1 hc1
    refine (scanRadixLiteral_eats hr).mono ?_
    rintro n x r _ ⟨ds, rfl, h1, h2, h3, h4, rfl⟩
    exact .radix (.inl ⟨hc2, rfl⟩) h1 h2 h3 h4
  refine Eats.ite (fun hc => ?_) (fun ho => ?_)
  · obtain ⟨c, hc1, hc2⟩ : ∃ c, s.rest[1]? = some c ∧ (c = 'o' ∨ c = 'O') := by
      rcases hc.2 with h | h
      · exact ⟨_, h, .inl rfl⟩
      · exact ⟨_, h, .inr rfl⟩
    obtain ⟨r0, hr⟩ := two hc.1 hc1
    refine (scanRadixLiteral_eats hr).mono ?_
    rintro n x r _ ⟨ds, rfl, h1, h2, h3, h4, rfl⟩
    exact .radix (.inr (.inl ⟨hc2, rfl⟩)) h1 h2 h3 h4
  refine Eats.ite (fun hc => ?_) (fun hx => ?_)
  · obtain ⟨c, hc1, hc2⟩ : ∃ c, s.rest[1]? = some c ∧ (c = 'x' ∨ c = 'X') := by
      rcases hc.2 with h | h
      · exact ⟨_, h, .inl rfl⟩
      · exact ⟨_, h, .inr rfl⟩
    obtain ⟨r0, hr⟩ := two hc.1 hc1
    refine (scanRadixLiteral_eats hr).mono ?_
    rintro n x r _ ⟨ds, rfl, h1, h2, h3, h4, rfl⟩
    exact .radix (.inr (.inr ⟨hc2, rfl⟩)) h1 h2 h3 h4
  refine Eats.ite (fun hc => ?_) (fun hz => ?_)
  · refine Eats.scanUntil fun x r h1 hrun => ?_
    have hrun' : Run isDecimalDigit x r := by simpa [Run] using hrun
    obtain ⟨ds, rfl⟩ : ∃ ds, x = '0' :: ds := by
      cases x with
      | nil =>
        have h0 : r.head? = some '0' := by
          rw [List.nil_append] at h1; rw [← h1]
          cases hr : s.rest with
          | nil => simp [hr] at hc
          | cons d y => simp [hr] at hc ⊢; exact hc.1
        have h9 := hrun'.2 '0' h0
        exact absurd h9 (by decide)
      | cons d ds =>
        simp [h1] at hc
        exact ⟨ds, by rw [hc.1]⟩
    have hds : Run isDecimalDigit ds r := ⟨fun d hd => hrun'.1 d (by simp [hd]), hrun'.2⟩
    have hne : ds ++ r ≠ [] := by
      intro h
      rw [List.cons_append, h] at h1
      rw [h1] at hc
      simp at hc
    have hhead : ds = [] → ∀ c, r.head? = some c →
        c ≠ '.' ∧ c ≠ 'b' ∧ c ≠ 'B' ∧ c ≠ 'o' ∧ c ≠ 'O' ∧ c ≠ 'x' ∧ c ≠ 'X' := by
      rintro rfl c hcr
      obtain ⟨y, rfl⟩ := head?_cases c hcr
      simp [h1] at hc hb ho hx
      exact ⟨hc, hb.1, hb.2, ho.1, ho.2, hx.1, hx.2⟩
    have hh : ∀ d ∈ ('0' :: ds), isHexDigit d = true := fun d hd => isHexDigit_of_decimal (hrun'.1 d hd)
    refine Eats.numOr fun n hn => ?_
    rw [rest_afterN_append h1, List.append_nil]
    rw [parseI64_eq hh, parseI64_eq hh, numeral_zero_cons, numeral_zero_cons] at hn
    have z8 : digit '0' < 8 := by decide
    have z10 : digit '0' < 10 := by decide
    have d10 : ∀ d ∈ ds, digit d < 10 := by
      intro d hd
      have := decimal_cases (hds.1 d hd)
      rw [digit_decimal (hds.1 d hd)]; omega
    simp only [List.forall_mem_cons, z8, z10, true_and, ne_eq, reduceCtorEq, not_false_eq_true] at hn
    by_cases h8 : ∀ d ∈ ds, digit d < 8
    · by_cases hlt : numeral 8 ds < 2 ^ 63
      · rw [if_pos ⟨h8, hlt⟩] at hn
        cases hn
        exact .octal hds hne hhead h8 hlt
      · rw [if_neg (fun h => hlt h.2), if_neg] at hn
        · cases hn
        · rintro ⟨_, h⟩
          exact hlt (Nat.lt_of_le_of_lt (numeral_mono (by decide) ds) h)
    · rw [if_neg (fun h => h8 h.1)] at hn
      split at hn
      · next hd =>
        cases hn
        refine .octalLike hds ?_ hd.2
        simp only [Classical.not_forall] at h8
        obtain ⟨d, hd1, hd2⟩ := h8
        exact ⟨d, hd1, by omega⟩
      · cases hn
  refine Eats.ite (fun hc => ?_) (fun hd => ?_)
  · refine Eats.scanUntil fun ds r h1 hrun => ?_
    have hrun' : Run isDecimalDigit ds r := by simpa [Run] using hrun
    have hne : ds ≠ [] := by
      rintro rfl
      rw [List.nil_append] at h1
      rw [h1] at hc
      cases r with
      | nil => simp at hc
      | cons c r =>
        simp at hc
        have := hrun'.2 c rfl
        rw [hc] at this; cases this
    have hzero : ds.head? = some '0' → ds = ['0'] ∧ (r = [] ∨ r.head? = some '.') := by
      intro h0
      obtain ⟨y, rfl⟩ := head?_cases _ h0
      simp [h1] at hz
      cases y with
      | nil =>
        refine ⟨rfl, ?_⟩
        cases r with
        | nil => exact .inl rfl
        | cons d r => simp at hz; exact .inr (by simp [hz])
      | cons d y =>
        simp at hz
        have := hrun'.1 d (by simp)
        rw [hz] at this
        exact absurd this (by decide)
    refine Eats.look (matches_eq _ _) ?_
    rw [rest_afterN_append h1]
    refine Eats.ite (fun hm => ?_) (fun hm => ?_)
    · refine (scanFractionalPart_eats hrun'.1).mono ?_
      rintro n x r' h2 ⟨fp, ex, k, rfl, h3, h4, h5, rfl⟩
      exact .fraction h3 (fun h => (hzero h).1) hrun'.1 h4 h5
    · simp only [decide_eq_true_eq] at hm
      refine Eats.bind scanExponent_eats ?_
      rintro ex _ r' h2 ⟨rfl, hx⟩
      have h3 : r = ex ++ r' := by rw [← h2, rest_afterN_append h1]
      subst h3
      refine Eats.numOr fun n hn => ?_
      have hde : Run isDecimalDigit ds ex := by
        refine ⟨hrun'.1, fun c hc => hrun'.2 c ?_⟩
        cases ex with
        | nil => simp at hc
        | cons d ex => simpa using hc
      have hdot : ex.head? ≠ some '.' := by
        cases ex with
        | nil => simp
        | cons d ex => simpa using hm
      rw [parseF64_integer hde hdot, if_neg hne] at hn
      obtain ⟨k, hk, rfl⟩ := expTail_sound hx hn
      rw [rest_afterN_append h2, decVal_eq hrun'.1, Int.sub_zero]
      simp only [List.append_nil]
      refine .integer hne ?_ hrun' hm hk
      intro h0
      obtain ⟨h4, h5⟩ := hzero h0
      rcases h5 with h5 | h5
      · rw [List.append_assoc, h5, h4]; rfl
      · exact absurd h5 hm
  refine Eats.ite (fun hc => ?_) (fun _ => Eats.error _)
  refine (scanFractionalPart_eats (ip := []) (by simp)).mono ?_
  rintro n x r' h2 ⟨fp, ex, k, rfl, h3, h4, h5, rfl⟩
  exact .fraction (ip := []) h3 (by simp) (by simp) h4 h5

theorem numeric_complete {x r : Str} {n : Num} (h : s.rest = x ++ r) (hx : Number x r n) :
    scanNumericValue s = .ok (n, afterN x.length s) := by
  cases hx with
  | @radix c radix ds r hc hne hrun hd hlt =>
    have := scanRadixLiteral_eq h hne hrun hd hlt
    unfold scanNumericValue
    rw [bind_peek2, h]
    simp only [List.cons_append, List.getElem?_cons_zero, List.getElem?_cons_succ]
    rcases hc with ⟨rfl | rfl, rfl⟩ | ⟨rfl | rfl, rfl⟩ | ⟨rfl | rfl, rfl⟩ <;> simpa using this
  | @octal ds r hrun hne hhead hd hlt =>
    unfold scanNumericValue
    rw [bind_peek2, h]
    simp only [List.cons_append, List.getElem?_cons_zero, List.getElem?_cons_succ]
    obtain ⟨c, y, hcy⟩ : ∃ c y, ds ++ r = c :: y := by
      cases h' : ds ++ r with
      | nil => exact absurd h' hne
      | cons c y => exact ⟨c, y, rfl⟩
    have hc : c ≠ '.' ∧ c ≠ 'b' ∧ c ≠ 'B' ∧ c ≠ 'o' ∧ c ≠ 'O' ∧ c ≠ 'x' ∧ c ≠ 'X' := by
      cases ds with
      | nil => exact hhead rfl c (by simp at hcy; rw [hcy]; rfl)
      | cons d ds =>
        simp at hcy
        have := hrun.1 d (by simp)
        rw [hcy.1] at this
        refine ⟨?_, ?_, ?_, ?_, ?_, ?_, ?_⟩ <;> (rintro rfl; revert this; decide)
    rw [hcy]
    simp only [List.getElem?_cons_zero, Option.some.injEq, hc, ne_eq, reduceCtorEq, not_false_eq_true, and_true,
      or_self, and_false, if_false, if_true]
    have hrun0 : Run (fun c => !!isDecimalDigit c) ('0' :: ds) r := by
      refine ⟨?_, by simpa [Run] using hrun.2⟩
      intro d hd'
      rcases List.mem_cons.1 hd' with rfl | hd'
      · decide
      · simpa using hrun.1 d hd'
    rw [M.bind_ok (scanUntil_run h hrun0)]
    have hh : ∀ d ∈ ('0' :: ds), isHexDigit d = true := fun d hd => isHexDigit_of_decimal (by simpa using hrun0.1 d hd)
    rw [parseI64_eq hh, numeral_zero_cons, if_pos]
    · rfl
    · refine ⟨by simp, ?_, hlt⟩
      intro d hd'
      rcases List.mem_cons.1 hd' with rfl | hd'
      · decide
      · exact hd d hd'
  | @octalLike ds r hrun hex hlt =>
    unfold scanNumericValue
    rw [bind_peek2, h]
    simp only [List.cons_append, List.getElem?_cons_zero, List.getElem?_cons_succ]
    obtain ⟨e, he1, he2⟩ := hex
    obtain ⟨c, y, rfl⟩ : ∃ c y, ds = c :: y := by
      cases ds with
      | nil => simp at he1
      | cons c y => exact ⟨c, y, rfl⟩
    have hc : c ≠ '.' ∧ c ≠ 'b' ∧ c ≠ 'B' ∧ c ≠ 'o' ∧ c ≠ 'O' ∧ c ≠ 'x' ∧ c ≠ 'X' := by
      have := hrun.1 c (by simp)
      refine ⟨?_, ?_, ?_, ?_, ?_, ?_, ?_⟩ <;> (rintro rfl; revert this; decide)
    simp only [List.cons_append, List.getElem?_cons_zero, Option.some.injEq, hc, ne_eq, reduceCtorEq, not_false_eq_true, and_true,
      or_self, and_false, if_false, if_true]
    have hrun0 : Run (fun c => !!isDecimalDigit c) ('0' :: c :: y) r := by
      refine ⟨?_, by simpa [Run] using hrun.2⟩
      intro d hd'
      rcases List.mem_cons.1 hd' with rfl | hd'
      · decide
      · simpa using hrun.1 d hd'
    rw [M.bind_ok (scanUntil_run h hrun0)]
    have hh : ∀ d ∈ ('0' :: c :: y), isHexDigit d = true := fun d hd => isHexDigit_of_decimal (by simpa using hrun0.1 d hd)
    rw [parseI64_eq hh, parseI64_eq hh, numeral_zero_cons, numeral_zero_cons, if_neg, if_pos]
    · rfl
    · refine ⟨by simp, ?_, hlt⟩
      intro d hd'
      have hdd : isDecimalDigit d = true := by simpa using hrun0.1 d hd'
      have := decimal_cases hdd
      rw [digit_decimal hdd]; omega
    · rintro ⟨_, h', _⟩
      have := h' e (by simp [he1] : e ∈ '0' :: c :: y)
      omega
  | @integer ds ex r k hne hz hrun hdot hk =>
    obtain ⟨c, y, rfl⟩ : ∃ c y, ds = c :: y := by
      cases ds with
      | nil => exact absurd rfl hne
      | cons c y => exact ⟨c, y, rfl⟩
    have hcd := hrun.1 c (by simp)
    have h0 : s.rest = (c :: y) ++ (ex ++ r) := by rw [h, List.append_assoc]
    have key : (do
        let val ← scanUntil (fun cp => !isDecimalDigit cp) (consumeOr .unexpectedEOS)
        if ← «matches» '.' then scanFractionalPart val
        else do
          let ex ← scanExponent
          numOr (parseF64 (val ++ ex)) : SM Num) s = .ok (⟨numeral 10 (c :: y), k⟩, afterN ((c :: y) ++ ex).length s) := by
      rw [M.bind_ok (scanUntil_run h0 (by simpa [Run] using hrun)), M.bind_ok (matches_eq _ _), rest_afterN_append h0,
        if_neg (by simpa using hdot), M.bind_ok (scanExponent_eq (rest_afterN_append h0) (.of hk))]
      have hde : Run isDecimalDigit (c :: y) ex := by
        refine ⟨hrun.1, fun c hc => hrun.2 c ?_⟩
        cases ex with
        | nil => simp at hc
        | cons d ex => simpa using hc
      have hdot' : ex.head? ≠ some '.' := by
        cases ex with
        | nil => simp
        | cons d ex => simpa using hdot
      rw [parseF64_integer hde hdot', if_neg (by simp), expTail_complete hk, decVal_eq hrun.1, Int.sub_zero]
      dsimp only [numOr]
      rw [M.pure_apply, ← afterN_add]
      simp [Nat.add_right_comm]
    unfold scanNumericValue
    rw [bind_peek2]
    by_cases hc0 : c = '0'
    · subst hc0
      have h1 := hz rfl
      have h2 : s.rest = ['0'] := by rw [h, ← List.append_assoc] at *; rw [← h1]
      rw [h2]
      have h3 : isDecimalDigit '0' = true := by decide
      simpa [h3] using key
    · rw [h0]
      simpa [hc0, hcd] using key
  | @fraction ip fp ex r k hne hz hi hf hk =>
    have h0 : s.rest = ip ++ ('.' :: (fp ++ ex) ++ r) := by rw [h]; simp
    cases ip with
    | nil =>
      have := scanFractionalPart_eq (ip := []) h0 (by simp) hne hf hk
      unfold scanNumericValue
      rw [bind_peek2, h0]
      have hd : isDecimalDigit '.' = false := by decide
      simpa [hd] using this
    | cons c y =>
      have hcd := hi c (by simp)
      have hrun : Run (fun c => !!isDecimalDigit c) (c :: y) ('.' :: (fp ++ ex) ++ r) := by
        refine ⟨by simpa using hi, ?_⟩
        intro d hd; simp at hd; subst hd; decide
      have key : (do
          let val ← scanUntil (fun cp => !isDecimalDigit cp) (consumeOr .unexpectedEOS)
          if ← «matches» '.' then scanFractionalPart val
          else do
            let ex ← scanExponent
            numOr (parseF64 (val ++ ex)) : SM Num) s =
          .ok (⟨numeral 10 (c :: y ++ fp), k - fp.length⟩, afterN ((c :: y) ++ '.' :: (fp ++ ex)).length s) := by
        rw [M.bind_ok (scanUntil_run h0 hrun), M.bind_ok (matches_eq _ _), rest_afterN_append h0, if_pos (by simp)]
        rw [scanFractionalPart_eq (rest_afterN_append h0) hi hne hf hk, ← afterN_add, List.length_append]
      unfold scanNumericValue
      rw [bind_peek2, h0]
      by_cases hc0 : c = '0'
      · subst hc0
        have h1 := hz rfl
        simp at h1
        subst h1
        have h3 : isDecimalDigit '0' = true := by decide
        simpa [h3] using key
      · simpa [hc0, hcd] using key

end Scanner
end Giron

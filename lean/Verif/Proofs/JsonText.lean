import Verif.Proofs.Digits
/-
Reading back the text of the JSON.
-/
namespace Giron
open Spec

/-- What can follow a value. -/
def Ends (r : Str) : Prop := ∀ c s, r = c :: s → c = ',' ∨ c = ']' ∨ c = '}'

theorem Ends.notDec {r : Str} (h : Ends r) : ∀ c s, r = c :: s → isDec c = false := by
  intro c s e
  rcases h c s e with rfl | rfl | rfl <;> rfl

/-! ### Numbers -/

theorem readNumber_of {ip rest fp r1 r2 : Str} {k : Int} (h1 : ∀ c ∈ ip, isDec c = true) (h2 : ip ≠ [])
    (h3 : ip.head? = some '0' → ip = ['0']) (h4 : ∀ c s, rest = c :: s → isDec c = false) (h5 : readFrac rest = some (fp, r1))
    (h6 : readExp r1 = some (k, r2)) :
    readNumber (ip ++ rest) = some ((decNat (ip ++ fp) : Rat) * (10 : Rat) ^ (k - (fp.length : Int)), r2) := by
  obtain ⟨e1, e2⟩ := takeWhile_dec h1 h4
  unfold readNumber
  rw [e1, e2]
  dsimp only
  rw [if_neg (fun h => h.elim h2 fun p => p.2 (h3 p.1)), h5]
  show (readExp r1 >>= _) = _
  rw [h6]
  rfl

theorem readFrac_point {fp r : Str} (h1 : ∀ c ∈ fp, isDec c = true) (h2 : fp ≠ []) (h3 : ∀ c s, r = c :: s → isDec c = false) :
    readFrac ('.' :: (fp ++ r)) = some (fp, r) := by
  obtain ⟨e1, e2⟩ := takeWhile_dec h1 h3
  show (if _ then _ else _) = _
  rw [e1, e2, if_neg h2]

theorem readFrac_none {r : Str} (h : ∀ s, r ≠ '.' :: s) : readFrac r = some ([], r) := by
  unfold readFrac
  split
  · exact absurd rfl (h _)
  · rfl

theorem readExp_none {r : Str} (h : Ends r) : readExp r = some (0, r) := by
  cases r with
  | nil => rfl
  | cons c s =>
    show (if _ then _ else _) = _
    rw [if_neg]
    rcases h c s rfl with rfl | rfl | rfl <;> decide

theorem readDigits_of {ds r : Str} (h1 : ∀ c ∈ ds, isDec c = true) (h2 : ds ≠ []) (h3 : ∀ c s, r = c :: s → isDec c = false) :
    readDigits (ds ++ r) = some (decNat ds, r) := by
  obtain ⟨e1, e2⟩ := takeWhile_dec h1 h3
  unfold readDigits
  rw [e1, e2, if_neg h2]

theorem readExp_show {k : Int} {r : Str} (h : ∀ c s, r = c :: s → isDec c = false) :
    readExp ('e' :: (F64.showExp k ++ r)) = some (k, r) := by
  unfold F64.showExp
  split
  · next hk =>
    obtain ⟨d1, d2, d3, -⟩ := digits_spec (-k).toNat
    show (readDigits (F64.digits (-k).toNat ++ r)).map _ = _
    rw [readDigits_of d2 d3 h, d1]
    show some (_, _) = _
    congr 2
    omega
  · next hk =>
    obtain ⟨d1, d2, d3, -⟩ := digits_spec k.toNat
    have key : readExp ('e' :: (F64.digits k.toNat ++ r)) =
        (readDigits (F64.digits k.toNat ++ r)).map fun p => ((p.1 : Int), p.2) := by
      cases hd : F64.digits k.toNat with
      | nil => exact absurd hd d3
      | cons c s =>
        have hc : isDec c = true := d2 c (by rw [hd]; exact List.mem_cons_self ..)
        rw [readExp, if_pos (.inl rfl)]
        · intro r' e; cases e; exact absurd hc (by decide)
        · intro r' e; cases e; exact absurd hc (by decide)
    rw [key, readDigits_of d2 d3 h, d1]
    show some (_, _) = _
    congr 2
    omega

theorem readNumber_nat {n : Nat} {r : Str} (h : Ends r) : readNumber (F64.digits n ++ r) = some ((n : Rat), r) := by
  obtain ⟨d1, d2, d3, d4⟩ := digits_spec n
  have h0 : (F64.digits n).head? = some '0' → F64.digits n = ['0'] := by
    intro h0
    by_cases hn : n = 0
    · subst hn; rfl
    · obtain ⟨c, s, e, hc⟩ := d4 (by omega)
      rw [e] at h0
      simp at h0
      exact absurd h0 hc
  have := readNumber_of (rest := r) d2 d3 h0 h.notDec (readFrac_none fun s e => by
    rcases h _ _ e with h | h | h <;> exact absurd h (by decide)) (readExp_none h)
  rw [this, List.append_nil, d1]
  have : (10 : Rat) ^ ((0 : Int) - (([] : Str).length : Int)) = 1 := rfl
  rw [this, Rat.mul_one]

/-- A double is written so that it is read back. -/
theorem readNumber_json (tie : Nat → Bool) {m : Nat} {e : Int} {r : Str} (hd : IsDouble m e) (h : Ends r) :
    ∃ q, readNumber (F64.json tie (.fin m e) ++ r) = some (q, r) ∧ F64.round q = .fin m e := by
  unfold F64.json
  dsimp only
  split
  · next hm =>
    subst hm
    have he : e = -1074 := hd.2.1.resolve_left (by decide)
    subst he
    refine ⟨0, ?_, by unfold F64.round; exact if_pos (by decide)⟩
    have := readNumber_of (ip := ['0']) (rest := '.' :: ('0' :: r)) (fp := ['0']) (by simp; rfl) (by simp) (fun _ => rfl)
      (fun c s e => by cases e; rfl) (readFrac_point (fp := ['0']) (by simp; rfl) (by simp) h.notDec) (readExp_none h)
    refine this.trans ?_
    have e0 : decNat (['0'] ++ ['0']) = 0 := rfl
    rw [e0]
    congr 2
    exact Rat.zero_mul _
  next hm =>
  have hr := shortest_round tie hd
  have hp := shortest_pos tie hd hm
  generalize (F64.shortest tie m e) = p at *
  obtain ⟨d, k⟩ := p
  dsimp only at hr hp ⊢
  obtain ⟨d1, d2, d3, d4⟩ := digits_spec d
  obtain ⟨c0, s0, hc0, hcz⟩ := d4 hp
  have hlen : 0 < (F64.digits d).length := List.length_pos_iff.mpr d3
  refine ⟨(d : Rat) * (10 : Rat) ^ k, ?_, hr⟩
  generalize hds : F64.digits d = ds at *
  have dot : ∀ s : Str, ∀ c t, '.' :: s = c :: t → isDec c = false := fun s c t e => by cases e; rfl
  split
  · next hk =>
    obtain ⟨j, rfl⟩ := Int.eq_ofNat_of_zero_le hk.1
    obtain ⟨z1, z2, z3⟩ := zeros_dec j
    have := readNumber_of (ip := ds ++ F64.zeros j) (rest := '.' :: ('0' :: r)) (fp := ['0']) (r1 := r) (k := 0) (r2 := r)
      (fun c hc => (List.mem_append.mp hc).elim (d2 c) (z2 c)) (by simp [d3])
      (fun h0 => by rw [hc0] at h0; simp at h0; exact absurd h0 hcz) (dot _)
      (readFrac_point (fp := ['0']) (by simp; rfl) (by simp) h.notDec) (readExp_none h)
    simp only [List.append_assoc, Int.toNat_natCast, List.cons_append, List.nil_append] at this ⊢
    rw [this]
    congr 2
    have e1 : decNat (ds ++ (F64.zeros j ++ ['0'])) = d * 10 ^ (j + 1) := by
      rw [decNat_append, d1, decNat_append, z1, List.length_append, z3]; rfl
    rw [e1, Rat.natCast_mul, ← ten_nat, Rat.mul_assoc, ← ten_add]
    congr 2
    simp; omega
  next hk1 =>
  split
  · next hk =>
    obtain ⟨kk, hkk⟩ := Int.eq_ofNat_of_zero_le (show 0 ≤ (ds.length : Int) + k by omega)
    have hlt : kk < ds.length := by omega
    rw [hkk, Int.toNat_natCast]
    have := readNumber_of (ip := ds.take kk) (rest := '.' :: (ds.drop kk ++ r)) (fp := ds.drop kk) (r1 := r) (k := 0) (r2 := r)
      (fun c hc => d2 c (List.mem_of_mem_take hc)) (by rw [ne_eq, List.take_eq_nil_iff]; exact fun h => h.elim (by omega) d3)
      (fun h0 => by
        rw [hc0] at h0
        cases kk with
        | zero => omega
        | succ j => simp at h0; exact absurd h0 hcz) (dot _)
      (readFrac_point (fun c hc => d2 c (List.mem_of_mem_drop hc)) (by rw [ne_eq, List.drop_eq_nil_iff]; omega) h.notDec)
      (readExp_none h)
    rw [List.append_assoc, List.cons_append, this, List.take_append_drop, d1]
    congr 4
    rw [List.length_drop]; omega
  next hk2 =>
  split
  · next hk =>
    obtain ⟨j, hj⟩ := Int.eq_ofNat_of_zero_le (show 0 ≤ -((ds.length : Int) + k) by omega)
    rw [hj, Int.toNat_natCast]
    obtain ⟨z1, z2, z3⟩ := zeros_dec j
    have := readNumber_of (ip := ['0']) (rest := '.' :: ((F64.zeros j ++ ds) ++ r)) (fp := F64.zeros j ++ ds) (r1 := r) (k := 0)
      (r2 := r) (by simp; rfl) (by simp) (fun _ => rfl) (dot _)
      (readFrac_point (fun c hc => (List.mem_append.mp hc).elim (z2 c) (d2 c)) (by simp [d3]) h.notDec) (readExp_none h)
    simp only [List.cons_append, List.nil_append] at this ⊢
    rw [this]
    have e1 : decNat ('0' :: (F64.zeros j ++ ds)) = d := by
      show decNat (['0'] ++ (F64.zeros j ++ ds)) = d
      rw [decNat_append, decNat_append, z1, d1]
      have : decNat ['0'] = 0 := rfl
      rw [this]; omega
    rw [e1]
    congr 4
    rw [List.length_append, z3]; omega
  next hk3 =>
  have hE : ∀ s : Str, ∀ c t, 'e' :: s = c :: t → isDec c = false := fun s c t e => by cases e; rfl
  split
  · next hl =>
    have := readNumber_of (ip := ds) (rest := 'e' :: (F64.showExp ((ds.length : Int) + k - 1) ++ r)) (fp := []) (r2 := r) d2 d3
      (fun h0 => by rw [hc0] at h0; simp at h0; exact absurd h0 hcz) (hE _)
      (readFrac_none fun s e => by simp at e) (readExp_show h.notDec)
    rw [List.append_assoc, List.cons_append, this, List.append_nil, d1]
    congr 4
    simp; omega
  · next hl =>
    have := readNumber_of (ip := ds.take 1)
      (rest := '.' :: (ds.drop 1 ++ 'e' :: (F64.showExp ((ds.length : Int) + k - 1) ++ r))) (fp := ds.drop 1) (r2 := r)
      (fun c hc => d2 c (List.mem_of_mem_take hc)) (by rw [ne_eq, List.take_eq_nil_iff]; exact fun h => h.elim (by omega) d3)
      (fun h0 => by rw [hc0] at h0; simp at h0; exact absurd h0 hcz) (dot _)
      (readFrac_point (fun c hc => d2 c (List.mem_of_mem_drop hc)) (by rw [ne_eq, List.drop_eq_nil_iff]; omega) (hE _))
      (readExp_show h.notDec)
    simp only [List.append_assoc, List.cons_append] at this ⊢
    rw [this, List.take_append_drop, d1]
    congr 4
    rw [List.length_drop]; omega

/-- A double is shown so that it is read back. -/
theorem readNumber_display (tie : Nat → Bool) {m : Nat} {e : Int} (hd : IsDouble m e) :
    ∃ q, readNumber (F64.display tie (.fin m e)) = some (q, []) ∧ F64.round q = .fin m e := by
  have hE : Ends [] := fun c s h => by cases h
  unfold F64.display
  dsimp only
  split
  · next hm =>
    subst hm
    have he : e = -1074 := hd.2.1.resolve_left (by decide)
    subst he
    exact ⟨_, readNumber_nat (n := 0) hE, by unfold F64.round; exact if_pos (by decide)⟩
  next hm =>
  have hr := shortest_round tie hd
  have hp := shortest_pos tie hd hm
  generalize (F64.shortest tie m e) = p at *
  obtain ⟨d, k⟩ := p
  dsimp only at hr hp ⊢
  obtain ⟨d1, d2, d3, d4⟩ := digits_spec d
  obtain ⟨c0, s0, hc0, hcz⟩ := d4 hp
  have hlen : 0 < (F64.digits d).length := List.length_pos_iff.mpr d3
  refine ⟨(d : Rat) * (10 : Rat) ^ k, ?_, hr⟩
  generalize hds : F64.digits d = ds at *
  have dot : ∀ s : Str, ∀ c t, '.' :: s = c :: t → isDec c = false := fun s c t e => by cases e; rfl
  split
  · next hk =>
    obtain ⟨j, rfl⟩ := Int.eq_ofNat_of_zero_le hk
    obtain ⟨z1, z2, z3⟩ := zeros_dec j
    have := readNumber_of (ip := ds ++ F64.zeros j) (rest := []) (fp := []) (r1 := []) (k := 0) (r2 := [])
      (fun c hc => (List.mem_append.mp hc).elim (d2 c) (z2 c)) (by simp [d3])
      (fun h0 => by rw [hc0] at h0; simp at h0; exact absurd h0 hcz) hE.notDec
      (readFrac_none fun s => by simp) (readExp_none hE)
    simp only [List.append_nil] at this
    rw [Int.toNat_natCast, this, decNat_append, d1, z1, z3, Nat.add_zero, Rat.natCast_mul, ← ten_nat, Rat.mul_assoc, ← ten_add]
    rfl
  next hk1 =>
  obtain ⟨j, hj⟩ := Int.eq_ofNat_of_zero_le (show 0 ≤ -k by omega)
  rw [hj, Int.toNat_natCast]
  split
  · next hk =>
    have := readNumber_of (ip := ds.take (ds.length - j)) (rest := '.' :: (ds.drop (ds.length - j) ++ []))
      (fp := ds.drop (ds.length - j)) (r1 := []) (k := 0) (r2 := [])
      (fun c hc => d2 c (List.mem_of_mem_take hc)) (by rw [ne_eq, List.take_eq_nil_iff]; exact fun h => h.elim (by omega) d3)
      (fun h0 => by
        rw [hc0] at h0
        cases hn : (c0 :: s0).length - j with
        | zero => rw [hc0] at hk; omega
        | succ i => rw [hn] at h0; simp at h0; exact absurd h0 hcz) (dot _)
      (readFrac_point (fun c hc => d2 c (List.mem_of_mem_drop hc)) (by rw [ne_eq, List.drop_eq_nil_iff]; omega) hE.notDec)
      (readExp_none hE)
    rw [List.append_nil] at this
    rw [this, List.take_append_drop, d1]
    congr 4
    rw [List.length_drop]; omega
  · next hk =>
    obtain ⟨z1, z2, z3⟩ := zeros_dec (j - ds.length)
    have := readNumber_of (ip := ['0']) (rest := '.' :: ((F64.zeros (j - ds.length) ++ ds) ++ []))
      (fp := F64.zeros (j - ds.length) ++ ds) (r1 := []) (k := 0)
      (r2 := []) (by simp; rfl) (by simp) (fun _ => rfl) (dot _)
      (readFrac_point (fun c hc => (List.mem_append.mp hc).elim (z2 c) (d2 c)) (by simp [d3]) hE.notDec) (readExp_none hE)
    rw [List.append_nil] at this
    simp only [List.cons_append, List.nil_append] at this ⊢
    rw [this]
    have e1 : decNat ('0' :: (F64.zeros (j - ds.length) ++ ds)) = d := by
      show decNat (['0'] ++ (F64.zeros (j - ds.length) ++ ds)) = d
      rw [decNat_append, decNat_append, z1, d1]
      have : decNat ['0'] = 0 := rfl
      rw [this]; omega
    rw [e1]
    congr 4
    rw [List.length_append, z3]; omega

/-- A number that fits is a double. -/
theorem toF64_isDouble {x : Num} {m : Nat} {e : Int} (h : x.toF64 = .fin m e) : IsDouble m e := by
  have h1 := round_nearest (v := x.val) (Rat.mul_nonneg Rat.natCast_nonneg (Rat.le_of_lt (ten_pos _)))
  unfold Num.toF64 at h
  rw [h] at h1
  cases h1; assumption

theorem json_head (tie : Nat → Bool) (m : Nat) (e : Int) : ∃ c s, F64.json tie (.fin m e) = c :: s ∧ isDec c = true := by
  unfold F64.json
  dsimp only
  generalize (F64.shortest tie m e) = p
  obtain ⟨d1, d2, d3, d4⟩ := digits_spec p.1
  generalize F64.digits p.1 = ds at *
  cases ds with
  | nil => exact absurd rfl d3
  | cons c s =>
    have hc := d2 c (List.mem_cons_self ..)
    have key : ∀ (k : Nat) (t : Str), 0 < k → ∃ c' s', (c :: s).take k ++ t = c' :: s' ∧ isDec c' = true := by
      intro k t hk
      cases k with
      | zero => omega
      | succ k => exact ⟨c, _, rfl, hc⟩
    split
    · exact ⟨_, _, rfl, rfl⟩
    · split
      · exact ⟨_, _, rfl, hc⟩
      · split
        · exact key _ _ (by omega)
        · split
          · exact ⟨_, _, rfl, rfl⟩
          · split
            · exact ⟨_, _, rfl, hc⟩
            · exact key _ _ (by omega)

/-! ### Strings -/

theorem hexVal_hexDigit : ∀ d < 16, hexVal (hexDigit d) = some d := by decide

theorem readHex4_control {n : Nat} (h : n < 32) (r : Str) :
    readHex4 ('0' :: '0' :: hexDigit (n / 16) :: hexDigit (n % 16) :: r) = some (n, r) := by
  unfold readHex4
  dsimp only
  rw [show hexVal '0' = some 0 from rfl, hexVal_hexDigit _ (by omega), hexVal_hexDigit _ (by omega)]
  show some (_, r) = _
  congr 2
  omega

theorem readChars_escape (s r : Str) (n : Nat) (hn : (escape s).length < n) :
    readChars n (escape s ++ '"' :: r) = some (s, r) := by
  induction s generalizing n with
  | nil =>
    cases n with
    | zero => omega
    | succ n => rfl
  | cons c s ih =>
    have hlen : (escape (c :: s)).length = (escapeChar c).length + (escape s).length := by
      show (escapeChar c ++ escape s).length = _
      rw [List.length_append]
    rw [hlen] at hn
    cases n with
    | zero => omega
    | succ n =>
      have nat : ∀ k, c.toNat = k → c = Char.ofNat k := fun k hk => by rw [← hk, Char.ofNat_toNat]
      have esc : ∀ (w : Str), escapeChar c = '\\' :: w → (∀ t, readEscape (w ++ t) = some (c, t)) →
          readChars (n + 1) (escape (c :: s) ++ '"' :: r) = some (c :: s, r) := by
        intro w hw hr
        show readChars (n + 1) ((escapeChar c ++ escape s) ++ '"' :: r) = _
        rw [hw] at hn ⊢
        rw [List.append_assoc, List.cons_append]
        show (readEscape (w ++ (escape s ++ '"' :: r)) >>= _) = _
        rw [hr]
        show (readChars n (escape s ++ '"' :: r) >>= _) = _
        rw [ih n (by simp at hn; omega)]
        rfl
      by_cases h1 : c = '"'
      · exact esc ['"'] (by rw [escapeChar, if_pos h1]) fun t => by subst h1; rfl
      by_cases h2 : c = '\\'
      · exact esc ['\\'] (by rw [escapeChar, if_neg h1, if_pos h2]) fun t => by subst h2; rfl
      by_cases h3 : c.toNat = 8
      · exact esc ['b'] (by rw [escapeChar, if_neg h1, if_neg h2, if_pos h3]) fun t => by rw [nat _ h3]; rfl
      by_cases h4 : c.toNat = 9
      · exact esc ['t'] (by rw [escapeChar, if_neg h1, if_neg h2, if_neg h3, if_pos h4]) fun t => by rw [nat _ h4]; rfl
      by_cases h5 : c.toNat = 10
      · exact esc ['n'] (by rw [escapeChar, if_neg h1, if_neg h2, if_neg h3, if_neg h4, if_pos h5]) fun t => by rw [nat _ h5]; rfl
      by_cases h6 : c.toNat = 12
      · exact esc ['f'] (by rw [escapeChar, if_neg h1, if_neg h2, if_neg h3, if_neg h4, if_neg h5, if_pos h6])
          fun t => by rw [nat _ h6]; rfl
      by_cases h7 : c.toNat = 13
      · exact esc ['r'] (by rw [escapeChar, if_neg h1, if_neg h2, if_neg h3, if_neg h4, if_neg h5, if_neg h6, if_pos h7])
          fun t => by rw [nat _ h7]; rfl
      by_cases h8 : c.toNat < 32
      · refine esc _ (by rw [escapeChar, if_neg h1, if_neg h2, if_neg h3, if_neg h4, if_neg h5, if_neg h6, if_neg h7, if_pos h8])
          fun t => ?_
        show (readHex4 _ >>= _) = _
        rw [show ∀ a b : Char, (['0', '0', a, b] : Str).append t = '0' :: '0' :: a :: b :: t from fun _ _ => rfl,
          readHex4_control h8]
        show (if _ then _ else _) = _
        rw [if_pos (by omega)]
        rw [Char.ofNat_toNat]
      · show readChars (n + 1) ((escapeChar c ++ escape s) ++ '"' :: r) = _
        have e : escapeChar c = [c] := by
          rw [escapeChar, if_neg h1, if_neg h2, if_neg h3, if_neg h4, if_neg h5, if_neg h6, if_neg h7, if_neg h8]
        rw [e] at hn ⊢
        show (if _ then _ else if _ then _ else if _ then _ else _) = _
        rw [if_neg h1, if_neg h2, if_neg h8]
        show (readChars n (escape s ++ '"' :: r) >>= _) = _
        rw [ih n (by simp at hn; omega)]
        rfl

theorem readString_quote (s r : Str) : readString (quote s ++ r) = some (s, r) := by
  unfold quote
  rw [List.cons_append, List.append_assoc]
  show readChars _ _ = _
  exact readChars_escape s r _ (by simp)

/-! ### Values -/

theorem skipWs_of {c : Char} {s : Str} (h : isWs c = false) : skipWs (c :: s) = c :: s := by
  unfold skipWs; rw [List.dropWhile_cons, h]; rfl

theorem text_head (tie : Nat → Bool) (j : Json) : ∃ c s, j.text tie = c :: s ∧ isWs c = false ∧ c ≠ ']' := by
  have dec : ∀ c, isDec c = true → isWs c = false ∧ c ≠ ']' := by
    intro c hc
    simp only [isDec, Bool.and_eq_true, decide_eq_true_eq] at hc
    have : ∀ d : Char, d.toNat < 48 ∨ 57 < d.toNat → c ≠ d := by rintro d hd rfl; omega
    refine ⟨?_, this _ (by decide)⟩
    simp only [isWs, Bool.or_eq_false_iff, decide_eq_false_iff_not]
    exact ⟨⟨⟨this _ (by decide), this _ (by decide)⟩, this _ (by decide)⟩, this _ (by decide)⟩
  cases j with
  | null => exact ⟨_, _, rfl, rfl, by decide⟩
  | bool b => cases b <;> exact ⟨_, _, rfl, rfl, by decide⟩
  | nat n =>
    obtain ⟨-, d2, d3, -⟩ := digits_spec n
    cases h : F64.digits n with
    | nil => exact absurd h d3
    | cons c s => exact ⟨c, s, h, dec c (d2 c (by rw [h]; exact List.mem_cons_self ..))⟩
  | num x =>
    show ∃ c s, x.toF64.json tie = _ ∧ _
    cases x.toF64 with
    | inf => exact ⟨_, _, rfl, rfl, by decide⟩
    | fin m e =>
      obtain ⟨c, s, h, hc⟩ := json_head tie m e
      exact ⟨c, s, h, dec c hc⟩
  | str s => exact ⟨_, _, rfl, rfl, by decide⟩
  | arr l => exact ⟨_, _, rfl, rfl, by decide⟩
  | obj l => exact ⟨_, _, rfl, rfl, by decide⟩

/-- The number is read as such by the reader of values. -/
theorem readValue_number {c : Char} {s r : Str} {q : Rat} {n : Nat} (hc : isDec c = true)
    (h : readNumber (c :: s) = some (q, r)) : readValue (n + 1) (c :: s) = some (.num false (F64.round q), r) := by
  simp only [isDec, Bool.and_eq_true, decide_eq_true_eq] at hc
  have ne : ∀ d : Char, d.toNat < 48 ∨ 57 < d.toNat → c ≠ d := by rintro d hd rfl; omega
  have hw : isWs c = false := by
    simp only [isWs, Bool.or_eq_false_iff, decide_eq_false_iff_not]
    exact ⟨⟨⟨ne _ (by decide), ne _ (by decide)⟩, ne _ (by decide)⟩, ne _ (by decide)⟩
  rw [readValue, skipWs_of hw]
  dsimp only
  rw [if_neg (ne _ (by decide)), if_neg (ne _ (by decide)), if_neg (ne _ (by decide)), if_neg (ne _ (by decide)),
    if_neg (ne _ (by decide)), if_neg (ne _ (by decide)), if_neg (ne _ (by decide)), h]
  rfl

theorem textItems_false (tie : Nat → Bool) (j : Json) (l : List Json) :
    Json.textItems tie false (j :: l) = ',' :: Json.textItems tie true (j :: l) := rfl

theorem textMembers_false (tie : Nat → Bool) (m : Str × Json) (l : List (Str × Json)) :
    Json.textMembers tie false (m :: l) = ',' :: Json.textMembers tie true (m :: l) := rfl

mutual

theorem read_text (tie : Nat → Bool) : ∀ (j : Json) (n : Nat) (r : Str), (j.text tie).length ≤ n → Ends r →
    readValue n (j.text tie ++ r) = some (view j, r)
  | .null, n, r, hn, _ => by
    cases n with
    | zero => exact absurd hn (Nat.not_succ_le_zero _)
    | succ n => rfl
  | .bool true, n, r, hn, _ => by
    cases n with
    | zero => exact absurd hn (Nat.not_succ_le_zero _)
    | succ n => rfl
  | .bool false, n, r, hn, _ => by
    cases n with
    | zero => exact absurd hn (Nat.not_succ_le_zero _)
    | succ n => rfl
  | .nat k, n, r, hn, hr => by
    obtain ⟨-, d2, d3, -⟩ := digits_spec k
    have h := readNumber_nat (n := k) hr
    change (F64.digits k).length ≤ n at hn
    show readValue n (F64.digits k ++ r) = _
    cases hd : F64.digits k with
    | nil => exact absurd hd d3
    | cons c s =>
      cases n with
      | zero => rw [hd] at hn; exact absurd hn (by simp)
      | succ n =>
        rw [hd] at h
        exact readValue_number (d2 c (by rw [hd]; exact List.mem_cons_self ..)) h
  | .num x, n, r, hn, hr => by
    change (x.toF64.json tie).length ≤ n at hn
    show readValue n (x.toF64.json tie ++ r) = some ((if x.toF64 = .inf then _ else _), r)
    cases hx : x.toF64 with
    | inf =>
      rw [hx] at hn
      cases n with
      | zero => exact absurd hn (Nat.not_succ_le_zero _)
      | succ n => rfl
    | fin m e =>
      obtain ⟨c, s, hc, hd⟩ := json_head tie m e
      obtain ⟨q, h1, h2⟩ := readNumber_json tie (toF64_isDouble hx) hr
      rw [hx] at hn
      rw [hc] at hn h1 ⊢
      cases n with
      | zero => exact absurd hn (by simp)
      | succ n =>
        have := readValue_number (n := n) hd h1
        rw [h2] at this
        exact this
  | .str s, n, r, hn, hr => by
    cases n with
    | zero => exact absurd hn (by simp [Json.text, quote])
    | succ n =>
      show (readString (quote s ++ r)).map _ = _
      rw [readString_quote]
      rfl
  | .arr [], n, r, hn, hr => by
    cases n with
    | zero => exact absurd hn (Nat.not_succ_le_zero _)
    | succ n => rfl
  | .arr (j :: l), n, r, hn, hr => by
    have ih := read_items tie (j :: l) (by simp)
    cases n with
    | zero => exact absurd hn (by simp [Json.text])
    | succ n =>
      obtain ⟨c, s, hc, hw, hb⟩ := text_head tie j
      have e : (Json.arr (j :: l)).text tie ++ r = '[' :: (Json.textItems tie true (j :: l) ++ ']' :: r) := by
        show ('[' :: (Json.textItems tie true (j :: l) ++ [']'])) ++ r = _
        simp
      have hl : (Json.textItems tie true (j :: l)).length + 1 ≤ n := by
        have : ((Json.arr (j :: l)).text tie).length = (Json.textItems tie true (j :: l)).length + 2 := by
          show ('[' :: (Json.textItems tie true (j :: l) ++ [']'])).length = _
          simp
        omega
      have h := ih n r hl
      rw [e, readValue, skipWs_of (by rfl)]
      dsimp only
      rw [if_neg (by decide), if_pos rfl]
      have e2 : Json.textItems tie true (j :: l) ++ ']' :: r = c :: (s ++ (Json.textItems tie false l ++ ']' :: r)) := by
        show (j.text tie ++ Json.textItems tie false l) ++ ']' :: r = _
        rw [hc, List.append_assoc]; rfl
      rw [show skipWs (Json.textItems tie true (j :: l) ++ ']' :: r) = _ from by rw [e2, skipWs_of hw]]
      split
      · next e3 => cases e3; exact absurd rfl hb
      · rw [h]; rfl
  | .obj [], n, r, hn, hr => by
    cases n with
    | zero => exact absurd hn (Nat.not_succ_le_zero _)
    | succ n => rfl
  | .obj (m :: l), n, r, hn, hr => by
    have ih := read_members tie (m :: l) (by simp)
    cases n with
    | zero => exact absurd hn (by simp [Json.text])
    | succ n =>
      have e : (Json.obj (m :: l)).text tie ++ r = '{' :: (Json.textMembers tie true (m :: l) ++ '}' :: r) := by
        show ('{' :: (Json.textMembers tie true (m :: l) ++ ['}'])) ++ r = _
        simp
      have hl : (Json.textMembers tie true (m :: l)).length + 1 ≤ n := by
        have : ((Json.obj (m :: l)).text tie).length = (Json.textMembers tie true (m :: l)).length + 2 := by
          show ('{' :: (Json.textMembers tie true (m :: l) ++ ['}'])).length = _
          simp
        omega
      have h := ih n r hl
      rw [e, readValue, skipWs_of (by rfl)]
      dsimp only
      rw [if_pos rfl]
      obtain ⟨k, j⟩ := m
      have e2 : Json.textMembers tie true ((k, j) :: l) ++ '}' :: r =
          '"' :: (escape k ++ ('"' :: ':' :: (j.text tie ++ (Json.textMembers tie false l ++ '}' :: r)))) := by
        show ((quote k ++ ':' :: j.text tie) ++ Json.textMembers tie false l) ++ '}' :: r = _
        unfold quote
        simp
      rw [show skipWs (Json.textMembers tie true ((k, j) :: l) ++ '}' :: r) = _ from by rw [e2, skipWs_of (by rfl)]]
      rw [h]; rfl
termination_by structural j => j

theorem read_items (tie : Nat → Bool) : ∀ (l : List Json), l ≠ [] → ∀ (n : Nat) (r : Str),
    (Json.textItems tie true l).length + 1 ≤ n → readItems n (Json.textItems tie true l ++ ']' :: r) = some (viewItems l, r)
  | [], h, _, _, _ => absurd rfl h
  | j :: l, _, n, r, hn => by
    have ihj := read_text tie j
    have ihl := read_items tie l
    cases n with
    | zero => omega
    | succ n =>
      have e : Json.textItems tie true (j :: l) = j.text tie ++ Json.textItems tie false l := rfl
      rw [e, List.length_append] at hn
      rw [e, List.append_assoc, readItems]
      cases l with
      | nil =>
        rw [ihj n _ (by omega) (fun c s h => by cases h; exact .inr (.inl rfl))]
        rfl
      | cons j' l' =>
        rw [textItems_false] at hn ⊢
        rw [ihj n _ (by omega) (fun c s h => by cases h; exact .inl rfl)]
        show Option.map _ (readItems n (Json.textItems tie true (j' :: l') ++ ']' :: r)) = _
        rw [ihl (by simp) n r (by rw [List.length_cons] at hn; omega)]
        rfl
termination_by structural l => l

theorem read_members (tie : Nat → Bool) : ∀ (l : List (Str × Json)), l ≠ [] → ∀ (n : Nat) (r : Str),
    (Json.textMembers tie true l).length + 1 ≤ n → readMembers n (Json.textMembers tie true l ++ '}' :: r) = some (viewMembers l, r)
  | [], h, _, _, _ => absurd rfl h
  | m :: l, _, n, r, hn => by
    have ihj := read_member tie m
    have ihl := read_members tie l
    obtain ⟨k, j⟩ := m
    cases n with
    | zero => omega
    | succ n =>
      have e : Json.textMembers tie true ((k, j) :: l) = quote k ++ (':' :: (j.text tie ++ Json.textMembers tie false l)) := by
        show (quote k ++ ':' :: j.text tie) ++ Json.textMembers tie false l = _
        simp
      rw [e, List.length_append, List.length_cons, List.length_append] at hn
      have hs : ∀ t, skipWs (quote k ++ t) = quote k ++ t := fun t => skipWs_of rfl
      rw [e, List.append_assoc, readMembers, hs, readString_quote]
      cases l with
      | nil =>
        show (readValue n ((j.text tie ++ []) ++ '}' :: r) >>= _) = _
        rw [List.append_nil, ihj n _ (by dsimp only; omega) (fun c s h => by cases h; exact .inr (.inr rfl))]
        rfl
      | cons m' l' =>
        rw [textMembers_false] at hn ⊢
        show (readValue n ((j.text tie ++ (',' :: Json.textMembers tie true (m' :: l'))) ++ '}' :: r) >>= _) = _
        rw [List.append_assoc, ihj n _ (by dsimp only; omega) (fun c s h => by cases h; exact .inl rfl)]
        show Option.map _ (readMembers n (Json.textMembers tie true (m' :: l') ++ '}' :: r)) = _
        rw [ihl (by simp) n r (by rw [List.length_cons] at hn; omega)]
        rfl
termination_by structural l => l

theorem read_member (tie : Nat → Bool) : ∀ (m : Str × Json) (n : Nat) (r : Str), (m.2.text tie).length ≤ n → Ends r →
    readValue n (m.2.text tie ++ r) = some (view m.2, r)
  | (_, j) => read_text tie j
termination_by structural m => m

end

/-- `JSON.parse` reads the text back. -/
theorem jsonParse_text (tie : Nat → Bool) (j : Json) : jsonParse (j.text tie) = some (view j) := by
  have := read_text tie j ((j.text tie).length + 1) [] (by omega) (fun c s h => by cases h)
  rw [List.append_nil] at this
  unfold jsonParse
  rw [this]
  rfl

end Giron

import Verif.Proofs.ScanSafe
import Verif.Spec.Lexical
/-
What the scanner's methods read, exactly: `Eats` gives what is known when a method succeeds, equations give when it does.
-/
namespace Giron
open M Spec

theorem M.bind_inv {σ α β : Type} {m : M σ α} {k : α → M σ β} {s s'' : σ} {b : β}
    (h : (m >>= k) s = .ok (b, s'')) : ∃ a s', m s = .ok (a, s') ∧ k a s' = .ok (b, s'') := by
  rw [M.bind_apply] at h
  cases hm : m s with
  | error e => rw [hm] at h; cases h
  | ok p => rw [hm] at h; exact ⟨p.1, p.2, rfl, h⟩

namespace Scanner

/-- If `m` succeeds it has read a text `x`, leaving `r`, and `Q` holds. -/
def Eats {α : Type} (m : SM α) (s : Scanner) (Q : α → Str → Str → Prop) : Prop :=
  ∀ a s', m s = .ok (a, s') → ∃ x r, s.rest = x ++ r ∧ s' = afterN x.length s ∧ Q a x r

/-- `m s` gives `a` and leaves `s'` (a name for the equation, for goals where the state must not be applied to a
`match`) -/
def Gives {α : Type} (m : SM α) (s : Scanner) (a : α) (s' : Scanner) : Prop := m s = .ok (a, s')

variable {s : Scanner} {α β : Type}

@[simp] theorem rest_afterN_append {x r : Str} (h : s.rest = x ++ r) : (afterN x.length s).rest = r := by
  simp [h]

theorem Eats.bind {m : SM α} {f : α → SM β} {P : α → Str → Str → Prop} {Q : β → Str → Str → Prop}
    (h : Eats m s P)
    (hf : ∀ a x r, s.rest = x ++ r → P a x r → Eats (f a) (afterN x.length s) (fun b y r' => Q b (x ++ y) r')) :
    Eats (m >>= f) s Q := by
  intro b s'' hb
  obtain ⟨a, s', h1, h2⟩ := M.bind_inv hb
  obtain ⟨x, r, hx, rfl, hp⟩ := h a s' h1
  obtain ⟨y, r', hy, rfl, hq⟩ := hf a x r hx hp b _ h2
  rw [rest_afterN_append hx] at hy
  refine ⟨x ++ y, r', by rw [hx, hy, List.append_assoc], ?_, hq⟩
  rw [List.length_append, afterN_add]

/-- binding something that only looks -/
theorem Eats.look {m : SM α} {f : α → SM β} {a : α} {Q : β → Str → Str → Prop} (h : m s = .ok (a, s))
    (hf : Eats (f a) s Q) : Eats (m >>= f) s Q := by
  intro b s'' hb
  rw [M.bind_ok h] at hb
  exact hf b s'' hb

theorem Eats.pure {a : α} {Q : α → Str → Str → Prop} (h : Q a [] s.rest) : Eats (Pure.pure a) s Q := by
  intro b s' hb
  cases hb
  exact ⟨[], s.rest, rfl, rfl, h⟩

theorem Eats.error {Q : α → Str → Str → Prop} (t : ErrorType) : Eats (error t : SM α) s Q := by
  intro b s' hb; cases hb

theorem Eats.panic {Q : α → Str → Str → Prop} (p : PanicSite) : Eats (M.panic p : SM α) s Q := by
  intro b s' hb; cases hb

theorem Eats.fuel {Q : α → Str → Str → Prop} : Eats (M.fail .fuel : SM α) s Q := by
  intro b s' hb; cases hb

theorem Eats.mono {m : SM α} {P Q : α → Str → Str → Prop} (h : Eats m s P)
    (hk : ∀ a x r, s.rest = x ++ r → P a x r → Q a x r) : Eats m s Q := by
  intro a s' hm
  obtain ⟨x, r, hx, hs, hp⟩ := h a s' hm
  exact ⟨x, r, hx, hs, hk a x r hx hp⟩

theorem Eats.congr {m m' : SM α} {Q : α → Str → Str → Prop} (h : m s = m' s) (h' : Eats m' s Q) : Eats m s Q := by
  intro a s'
  rw [h]
  exact h' a s'

theorem Eats.ite {c : Prop} [Decidable c] {m m' : SM α} {Q : α → Str → Str → Prop}
    (ht : c → Eats m s Q) (he : ¬ c → Eats m' s Q) : Eats (if c then m else m') s Q := by
  by_cases h : c
  · rw [if_pos h]; exact ht h
  · rw [if_neg h]; exact he h

theorem Eats.of_eq {m : SM α} {a : α} {x r : Str} {Q : α → Str → Str → Prop} (hr : s.rest = x ++ r)
    (h : m s = .ok (a, afterN x.length s)) (hq : Q a x r) : Eats m s Q := by
  intro b s' hb
  rw [h] at hb
  cases hb
  exact ⟨x, r, hr, rfl, hq⟩

theorem consume_cons {c : Char} {r : Str} (h : s.rest = c :: r) : consume s = .ok (some c, afterConsume s) := by
  rw [consume_eq, h]; rfl

/-- `consume` where there is a character -/
theorem Eats.consume {c : Char} {r : Str} {f : Option Char → SM β} {Q : β → Str → Str → Prop} (h : s.rest = c :: r)
    (hf : Eats (f (some c)) (afterConsume s) (fun b y r' => Q b (c :: y) r')) : Eats (consume >>= f) s Q := by
  refine Eats.bind (P := fun a x _ => a = some c ∧ x = [c]) ?_ ?_
  · exact Eats.of_eq (x := [c]) (r := r) h (consume_cons h) ⟨rfl, rfl⟩
  · rintro a x r' hx ⟨rfl, rfl⟩
    exact hf

/-- `consume` at the end of input: only harmless if what follows fails -/
theorem Eats.consumeOr {f : Char → SM β} {t : ErrorType} {Q : β → Str → Str → Prop}
    (hf : ∀ c r, s.rest = c :: r → Eats (f c) (afterConsume s) (fun b y r' => Q b (c :: y) r')) :
    Eats (consumeOr t >>= f) s Q := by
  cases hr : s.rest with
  | nil =>
    intro b s' hb
    obtain ⟨a, s1, h1, h2⟩ := M.bind_inv hb
    unfold Scanner.consumeOr at h1
    rw [M.bind_ok (consume_eq s), hr] at h1
    cases h1
  | cons c r =>
    refine Eats.bind (P := fun a x _ => a = c ∧ x = [c]) ?_ ?_
    · exact Eats.of_eq (x := [c]) (r := r) hr (consumeOr_cons t hr) ⟨rfl, rfl⟩
    · rintro a x r' hx ⟨rfl, rfl⟩
      exact hf _ _ hr

theorem Eats.consumeOr' {t : ErrorType} {Q : Char → Str → Str → Prop}
    (hf : ∀ c r, s.rest = c :: r → Q c [c] r) : Eats (Scanner.consumeOr t) s Q := by
  rw [← bind_pure (Scanner.consumeOr t)]
  exact Eats.consumeOr fun c r h => Eats.pure (by simpa [h] using hf c r h)

theorem Eats.expect {c : Char} {f : Unit → SM β} {Q : β → Str → Str → Prop}
    (hf : ∀ r, s.rest = c :: r → Eats (f ()) (afterConsume s) (fun b y r' => Q b (c :: y) r')) :
    Eats (expect c >>= f) s Q := by
  by_cases h : s.rest.head? = some c
  · obtain ⟨r, hr⟩ : ∃ r, s.rest = c :: r := by
      cases hr : s.rest with
      | nil => simp [hr] at h
      | cons d r => simp [hr] at h; exact ⟨r, by rw [h]⟩
    refine Eats.bind (P := fun _ x _ => x = [c]) ?_ ?_
    · exact Eats.of_eq (x := [c]) (r := r) hr (expect_cons hr) rfl
    · rintro a x r' hx rfl
      exact hf r hr
  · intro b s' hb
    obtain ⟨a, s1, h1, h2⟩ := M.bind_inv hb
    unfold Scanner.expect at h1
    rw [M.bind_ok (consume_eq s), if_neg h] at h1
    cases h1

theorem Eats.charOr {t : ErrorType} {v : Nat} {Q : Char → Str → Str → Prop}
    (hf : ∀ c : Char, c.toNat = v → Q c [] s.rest) : Eats (charOr t v) s Q := by
  unfold Scanner.charOr charFromU32
  by_cases h : v.isValidChar
  · simp only [dif_pos h]
    refine Eats.pure (hf _ ?_)
    simp [Char.toNat, Char.ofNatAux]
  · simp only [dif_neg h]
    exact Eats.error _

theorem charOr_eq {t : ErrorType} {c : Char} : charOr t c.toNat s = .ok (c, s) := by
  unfold charOr charFromU32
  have h : c.toNat.isValidChar := c.valid
  simp only [dif_pos h, M.pure_apply]
  congr 2

theorem scanUntil_run {p : Char → Bool} {t : ErrorType} {x r : Str} (h : s.rest = x ++ r)
    (hr : Run (fun c => !p c) x r) : scanUntil p (consumeOr t) s = .ok (x, afterN x.length s) := by
  have : s.rest.takeWhile (fun c => !p c) = x := by
    rw [h, List.takeWhile_append_of_pos hr.1]
    cases r with
    | nil => simp
    | cons c r =>
      have := hr.2 c rfl
      simp only at this
      rw [List.takeWhile_cons, if_neg (by rw [this]; decide), List.append_nil]
  rw [scanUntil_consumeOr, this]

theorem run_takeWhile (p : Char → Bool) (l : Str) : Run p (l.takeWhile p) (l.dropWhile p) := by
  constructor
  · intro c hc
    exact mem_takeWhile hc
  · intro c hc
    cases h : l.dropWhile p with
    | nil => rw [h] at hc; cases hc
    | cons d r =>
      rw [h] at hc
      cases hc
      have := List.head_dropWhile_not p (l := l) (by simp [h])
      simpa [h] using this

theorem Eats.scanUntil {p : Char → Bool} {t : ErrorType} {f : Str → SM β} {Q : β → Str → Str → Prop}
    (hf : ∀ x r, s.rest = x ++ r → Run (fun c => !p c) x r →
      Eats (f x) (afterN x.length s) (fun b y r' => Q b (x ++ y) r')) :
    Eats (scanUntil p (Scanner.consumeOr t) >>= f) s Q := by
  have hx : s.rest = s.rest.takeWhile (fun c => !p c) ++ s.rest.dropWhile (fun c => !p c) := by simp
  have hr := run_takeWhile (fun c => !p c) s.rest
  refine Eats.bind (P := fun a x r => a = x ∧ Run (fun c => !p c) x r)
    (Eats.of_eq hx (scanUntil_run hx hr) ⟨rfl, hr⟩) ?_
  rintro a x r h1 ⟨rfl, h2⟩
  exact hf _ _ h1 h2

/-! ### Digits -/

theorem hex_cases {c : Char} (h : isHexDigit c = true) :
    (48 ≤ c.toNat ∧ c.toNat ≤ 57) ∨ (97 ≤ c.toNat ∧ c.toNat ≤ 102) ∨ (65 ≤ c.toNat ∧ c.toNat ≤ 70) := by
  unfold isHexDigit inRange at h
  simpa [or_assoc] using h

theorem le_iff_toNat {a c : Char} : a ≤ c ↔ a.toNat ≤ c.toNat := by
  rw [Char.le_def, UInt32.le_iff_toNat_le]; rfl

theorem digit_eq (c : Char) : digit c =
    if 97 ≤ c.toNat then c.toNat - 87 else if 65 ≤ c.toNat then c.toNat - 55 else c.toNat - 48 := by
  unfold digit
  simp only [le_iff_toNat, show 'a'.toNat = 97 from rfl, show 'A'.toNat = 65 from rfl, show '0'.toNat = 48 from rfl]
  split
  · omega
  · split <;> omega

theorem toDigit16_eq {c : Char} (h : isHexDigit c = true) : toDigit16 c = some (digit c) := by
  rw [digit_eq]
  have := hex_cases h
  unfold toDigit16 inRange
  simp only [show 'a'.toNat = 97 from rfl, show 'A'.toNat = 65 from rfl, show '0'.toNat = 48 from rfl,
    show '9'.toNat = 57 from rfl, show 'f'.toNat = 102 from rfl, show 'F'.toNat = 70 from rfl,
    Bool.and_eq_true, decide_eq_true_eq]
  split
  · rw [if_neg (by omega), if_neg (by omega)]
  · split
    · rw [if_pos (by omega)]
    · split
      · rw [if_neg (by omega), if_pos (by omega)]
      · omega

theorem numeral_foldl (radix : Nat) (ds : Str) (v : Nat) :
    ds.foldl (fun v d => v * radix + digit d) v = v * radix ^ ds.length + numeral radix ds := by
  induction ds generalizing v with
  | nil => simp [numeral]
  | cons c cs ih =>
    rw [List.foldl_cons, ih, numeral, List.length_cons, Nat.pow_succ, Nat.add_mul]
    rw [Nat.mul_assoc, Nat.mul_comm radix, Nat.add_assoc]

/-- the value of a longer sequence of digits -/
theorem numeral_append (radix : Nat) (ds es : Str) :
    numeral radix (ds ++ es) = numeral radix ds * radix ^ es.length + numeral radix es := by
  rw [← Nat.zero_add (numeral radix (ds ++ es)), ← Nat.zero_mul (radix ^ (ds ++ es).length), ← numeral_foldl,
    List.foldl_append, numeral_foldl, numeral_foldl]
  simp

end Scanner
end Giron

import Verif.Proofs.Double
import Verif.Spec.JsonText
/-
Decimal spelling: what the digits of a number denote, and the shortest decimal.
-/
namespace Giron
open Spec

theorem ten_pos (e : Int) : (0 : Rat) < (10 : Rat) ^ e := Rat.zpow_pos (by decide)
theorem ten_add (a b : Int) : (10 : Rat) ^ (a + b) = (10 : Rat) ^ a * (10 : Rat) ^ b := Rat.zpow_add (by decide) a b
theorem ten_nat (n : Nat) : (10 : Rat) ^ (n : Int) = ((10 ^ n : Nat) : Rat) := by
  rw [Rat.zpow_natCast, Rat.natCast_pow]; rfl

/-! ### Digits -/

theorem decNat_append (a b : Str) : decNat (a ++ b) = decNat a * 10 ^ b.length + decNat b := by
  have key : ∀ (b : Str) (n : Nat), b.foldl (fun n c => 10 * n + (c.toNat - 48)) n = n * 10 ^ b.length + decNat b := by
    intro b
    induction b with
    | nil => intro n; simp [decNat]
    | cons c b ih =>
      intro n
      have h0 : decNat (c :: b) = (10 * 0 + (c.toNat - 48)) * 10 ^ b.length + decNat b := ih _
      rw [List.foldl_cons, ih, h0]
      simp only [List.length_cons, Nat.pow_succ]
      generalize 10 ^ b.length = p
      generalize decNat b = q
      generalize c.toNat - 48 = r
      grind
  unfold decNat
  rw [List.foldl_append, key]
  rfl

theorem digitChar_isDec {d : Nat} (h : d < 10) : isDec d.digitChar = true ∧ d.digitChar.toNat - 48 = d ∧
    (0 < d → d.digitChar ≠ '0') := by
  have : ∀ d < 10, isDec d.digitChar = true ∧ d.digitChar.toNat - 48 = d ∧ (0 < d → d.digitChar ≠ '0') := by decide
  exact this d h

theorem digits_step (n : Nat) : F64.digits n = if n < 10 then [n.digitChar] else F64.digits (n / 10) ++ [(n % 10).digitChar] := by
  unfold F64.digits
  split
  · exact Nat.toDigits_of_lt_base ‹_›
  · exact Nat.toDigits_of_base_le (by decide) (by omega)

theorem digits_spec (n : Nat) : decNat (F64.digits n) = n ∧ (∀ c ∈ F64.digits n, isDec c = true) ∧ F64.digits n ≠ [] ∧
    (0 < n → ∃ c s, F64.digits n = c :: s ∧ c ≠ '0') := by
  induction n using Nat.strongRecOn with
  | _ n ih =>
    rw [digits_step]
    split
    · next h =>
      obtain ⟨h1, h2, h3⟩ := digitChar_isDec h
      refine ⟨?_, ?_, by simp, fun h' => ⟨_, [], rfl, h3 h'⟩⟩
      · simp [decNat, h2]
      · intro c hc; rw [List.mem_singleton] at hc; rw [hc]; exact h1
    · next h =>
      obtain ⟨i1, i2, i3, i4⟩ := ih (n / 10) (by omega)
      obtain ⟨h1, h2, h3⟩ := digitChar_isDec (d := n % 10) (by omega)
      refine ⟨?_, ?_, by simp, fun _ => ?_⟩
      · rw [decNat_append, i1]
        simp [decNat, h2]
        omega
      · intro c hc
        rcases List.mem_append.mp hc with hc | hc
        · exact i2 c hc
        · rw [List.mem_singleton] at hc; rw [hc]; exact h1
      · obtain ⟨c, s, h4, h5⟩ := i4 (by omega)
        exact ⟨c, s ++ [(n % 10).digitChar], by rw [h4]; rfl, h5⟩

theorem zeros_dec (n : Nat) : decNat (F64.zeros n) = 0 ∧ (∀ c ∈ F64.zeros n, isDec c = true) ∧ (F64.zeros n).length = n := by
  refine ⟨?_, fun c hc => ?_, List.length_replicate⟩
  · induction n with
    | zero => rfl
    | succ n ih =>
      unfold F64.zeros at ih ⊢
      rw [List.replicate_succ']
      rw [decNat_append, ih]; rfl
  · rw [List.eq_of_mem_replicate hc]; rfl

theorem takeWhile_dec {a r : Str} (ha : ∀ c ∈ a, isDec c = true) (hr : ∀ c s, r = c :: s → isDec c = false) :
    (a ++ r).takeWhile isDec = a ∧ (a ++ r).dropWhile isDec = r := by
  induction a with
  | nil =>
    cases r with
    | nil => exact ⟨rfl, rfl⟩
    | cons c s => simp [List.takeWhile, List.dropWhile, hr c s rfl]
  | cons c a ih =>
    have h1 := ha c (List.mem_cons_self ..)
    have h2 := ih fun c hc => ha c (List.mem_cons_of_mem _ hc)
    simp [List.takeWhile, List.dropWhile, h1, h2]

/-! ### The shortest decimal -/

theorem exact_val (m : Nat) (e : Int) :
    ((F64.exact m e).1 : Rat) * (10 : Rat) ^ (F64.exact m e).2 = doubleVal m e := by
  unfold F64.exact doubleVal
  split
  · next h =>
    obtain ⟨j, rfl⟩ := Int.eq_ofNat_of_zero_le h
    rw [two_nat]
    simp only [Int.toNat_natCast, Rat.natCast_mul]
    have : (10 : Rat) ^ (0 : Int) = 1 := rfl
    rw [this, Rat.mul_one]
  · next h =>
    obtain ⟨j, hj⟩ := Int.eq_ofNat_of_zero_le (show 0 ≤ -e by omega)
    have he : e = -(j : Int) := by omega
    subst he
    simp only [Int.neg_neg, Int.toNat_natCast]
    have a1 : (2 : Rat) ^ (-(j : Int)) * (2 : Rat) ^ (j : Int) = 1 := two_neg j
    have a2 : (10 : Rat) ^ (-(j : Int)) * (10 : Rat) ^ (j : Int) = 1 := by
      rw [← ten_add, Int.add_left_neg]; rfl
    have a3 : (10 : Rat) ^ (j : Int) = ((5 ^ j : Nat) : Rat) * (2 : Rat) ^ (j : Int) := by
      rw [ten_nat, two_nat, ← Rat.natCast_mul, ← Nat.mul_pow]
    rw [Rat.natCast_mul]
    have hp := two_pos j
    generalize (2 : Rat) ^ (j : Int) = t at *
    generalize (2 : Rat) ^ (-(j : Int)) = t' at *
    generalize (10 : Rat) ^ (-(j : Int)) = s' at *
    generalize (10 : Rat) ^ (j : Int) = s at *
    generalize ((5 ^ j : Nat) : Rat) = f at *
    subst a3
    have : f * s' = t' := by
      have h1 : f * s' * t = 1 := by grind
      have h2 : f * s' * t * t' = t' := by rw [h1, Rat.one_mul]
      have h3 : f * s' * t * t' = f * s' * (t' * t) := by grind
      rw [h3, a1, Rat.mul_one] at h2
      exact h2
    grind

theorem search_round {tie : Nat → Bool} {x : F64} {d : Nat} {k : Int} (h : F64.round ((d : Rat) * (10 : Rat) ^ k) = x) (j : Nat) :
    F64.round (((F64.search tie x d k j).1 : Rat) * (10 : Rat) ^ (F64.search tie x d k j).2) = x := by
  induction j with
  | zero => exact h
  | succ j ih =>
    unfold F64.search
    dsimp only
    split
    · assumption
    · split
      · assumption
      · exact ih

theorem strip_val (n : Nat) (p : Nat × Int) :
    ((F64.strip n p).1 : Rat) * (10 : Rat) ^ (F64.strip n p).2 = (p.1 : Rat) * (10 : Rat) ^ p.2 := by
  induction n generalizing p with
  | zero => rfl
  | succ n ih =>
    obtain ⟨d, k⟩ := p
    unfold F64.strip
    split
    · next h =>
      rw [ih]
      have : d = d / 10 * 10 := by omega
      dsimp only
      have e : (d : Rat) = (d / 10 : Nat) * 10 := by
        conv => lhs; rw [this]
        rw [Rat.natCast_mul]; rfl
      rw [ten_add, show (10 : Rat) ^ (1 : Int) = 10 from rfl, e]
      grind
    · rfl

/-- The shortest decimal rounds to the double. -/
theorem shortest_round (tie : Nat → Bool) {m : Nat} {e : Int} (h : IsDouble m e) :
    F64.round (((F64.shortest tie m e).1 : Rat) * (10 : Rat) ^ (F64.shortest tie m e).2) = .fin m e := by
  unfold F64.shortest
  dsimp only
  rw [strip_val]
  refine search_round ?_ _
  rw [exact_val]
  exact round_double h

theorem shortest_pos (tie : Nat → Bool) {m : Nat} {e : Int} (h : IsDouble m e) (hm : m ≠ 0) : 0 < (F64.shortest tie m e).1 := by
  have h1 := shortest_round tie h
  by_cases h0 : (F64.shortest tie m e).1 = 0
  · exfalso
    rw [h0] at h1
    have : ((0 : Nat) : Rat) * (10 : Rat) ^ (F64.shortest tie m e).2 = 0 := Rat.zero_mul _
    rw [this] at h1
    have h2 : F64.round 0 = .fin 0 (-1074) := by unfold F64.round; exact if_pos (by decide)
    rw [h2] at h1
    cases h1
    exact hm rfl
  · omega

end Giron

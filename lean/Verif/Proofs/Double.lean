import Verif.Spec.Double
/-
Rounding gives the nearest double, and there is only one.
-/
namespace Giron
open Spec

theorem rat_lt_of_le_of_lt {a b c : Rat} (h : a ≤ b) (h' : b < c) : a < c := by grind

theorem two_pos (e : Int) : (0 : Rat) < (2 : Rat) ^ e := Rat.zpow_pos (by decide)
theorem two_add (a b : Int) : (2 : Rat) ^ (a + b) = (2 : Rat) ^ a * (2 : Rat) ^ b := Rat.zpow_add (by decide) a b
theorem two_neg (e : Int) : (2 : Rat) ^ (-e) * (2 : Rat) ^ e = 1 := by
  rw [← two_add, Int.add_left_neg]; rfl
theorem two_nat (n : Nat) : (2 : Rat) ^ (n : Int) = ((2 ^ n : Nat) : Rat) := by
  rw [Rat.zpow_natCast, Rat.natCast_pow]; rfl
theorem two_ge_one {k : Int} (h : 0 ≤ k) : (1 : Rat) ≤ (2 : Rat) ^ k := by
  obtain ⟨n, rfl⟩ := Int.eq_ofNat_of_zero_le h
  rw [two_nat]
  exact_mod_cast Nat.one_le_two_pow
theorem two_mono {a b : Int} (h : a ≤ b) : (2 : Rat) ^ a ≤ (2 : Rat) ^ b := by
  have e : b = a + (b - a) := by omega
  rw [e, two_add]
  have := Rat.mul_le_mul_of_nonneg_left (two_ge_one (k := b - a) (by omega)) (Rat.le_of_lt (two_pos a))
  grind

theorem floorLog2_spec {v : Rat} (h : 0 < v) :
    (2 : Rat) ^ F64.floorLog2 v ≤ v ∧ v < (2 : Rat) ^ (F64.floorLog2 v + 1) := by
  have hn : 0 < v.num := by
    have h1 := Rat.num_nonneg.mpr (Rat.le_of_lt h)
    have h2 : v.num ≠ 0 := fun h' => by rw [Rat.num_eq_zero.mp h'] at h; exact absurd h (by decide)
    omega
  have hd : 0 < v.den := v.den_pos
  obtain ⟨p, hp⟩ := Int.eq_ofNat_of_zero_le (Int.le_of_lt hn)
  have hp0 : p ≠ 0 := by omega
  have hv : v * (v.den : Rat) = (p : Rat) := by
    have : v * (v.den : Rat) = (v.num : Rat) := by
      rw [Rat.eq_iff_mul_eq_mul]
      have h1 := Rat.mul_def' v (v.den : Rat)
      rw [Rat.num_natCast, Rat.den_natCast, Nat.mul_one, Int.mul_comm] at h1
      have h2 := Rat.mkRat_mul_left (n := v.num) (d := 1) (a := v.den) v.den_nz
      rw [Nat.mul_one] at h2
      rw [h1, h2]
      simp [Rat.num_mkRat, Rat.den_mkRat]
    rw [this, hp]; rfl
  have h1 := Nat.log2_self_le hp0
  have h2 := Nat.lt_log2_self (n := p)
  have h3 := Nat.log2_self_le (n := v.den) (by omega)
  have h4 := Nat.lt_log2_self (n := v.den)
  have c1 : (2 : Rat) ^ (p.log2 : Int) ≤ p := by rw [two_nat]; exact_mod_cast h1
  have c2 : (p : Rat) < (2 : Rat) ^ ((p.log2 : Int) + 1) := by
    rw [show ((p.log2 : Int) + 1) = ((p.log2 + 1 : Nat) : Int) by omega, two_nat]; exact_mod_cast h2
  have c3 : (2 : Rat) ^ (v.den.log2 : Int) ≤ v.den := by rw [two_nat]; exact_mod_cast h3
  have c4 : (v.den : Rat) < (2 : Rat) ^ ((v.den.log2 : Int) + 1) := by
    rw [show ((v.den.log2 : Int) + 1) = ((v.den.log2 + 1 : Nat) : Int) by omega, two_nat]; exact_mod_cast h4
  have hlo : (2 : Rat) ^ ((p.log2 : Int) - v.den.log2 - 1) < v := by
    have e : (p.log2 : Int) = ((p.log2 : Int) - v.den.log2 - 1) + ((v.den.log2 : Int) + 1) := by omega
    rw [e, two_add] at c1
    have := Rat.mul_lt_mul_of_pos_left c4 h
    exact Rat.lt_of_mul_lt_mul_right (c := (2 : Rat) ^ ((v.den.log2 : Int) + 1)) (by grind) (Rat.le_of_lt (two_pos _))
  have hhi : v < (2 : Rat) ^ ((p.log2 : Int) - v.den.log2 + 1) := by
    have e : (p.log2 : Int) + 1 = ((p.log2 : Int) - v.den.log2 + 1) + (v.den.log2 : Int) := by omega
    rw [e, two_add] at c2
    have := Rat.mul_le_mul_of_nonneg_left c3 (Rat.le_of_lt h)
    exact Rat.lt_of_mul_lt_mul_right (c := (2 : Rat) ^ (v.den.log2 : Int)) (by grind) (Rat.le_of_lt (two_pos _))
  have hq : v.num.toNat = p := by rw [hp]; rfl
  unfold F64.floorLog2
  rw [hq]
  dsimp only
  split
  · rename_i hlt
    exact ⟨Rat.le_of_lt hlo, by rw [Int.sub_add_cancel]; exact hlt⟩
  · rename_i hge
    exact ⟨Rat.not_lt.mp hge, hhi⟩

theorem roundEven_spec (u : Rat) :
    2 * (u - F64.roundEven u) ≤ 1 ∧ 2 * (F64.roundEven u - u) ≤ 1 ∧
      (2 * (u - F64.roundEven u) = 1 ∨ 2 * (F64.roundEven u - u) = 1 → F64.roundEven u % 2 = 0) := by
  have h1 := Rat.floor_le u
  have h2 := Rat.lt_floor_add_one u
  have h3 : ((u.floor + 1 : Int) : Rat) = (u.floor : Rat) + 1 := by rw [Rat.intCast_add]; rfl
  rw [h3] at h2
  unfold F64.roundEven
  dsimp only
  split
  · refine ⟨by grind, by grind, fun h => ?_⟩
    exfalso; grind
  · split
    · rw [h3]
      refine ⟨by grind, by grind, fun h => ?_⟩
      exfalso; grind
    · split
      · rename_i h
        exact ⟨by grind, by grind, fun _ => h⟩
      · rw [h3]
        exact ⟨by grind, by grind, fun _ => by omega⟩

/-- The nearest of the integers. -/
theorem roundEven_near (u : Rat) (z : Int) :
    dist u (F64.roundEven u) ≤ dist u z ∧ (dist u (F64.roundEven u) = dist u z → z ≠ F64.roundEven u → F64.roundEven u % 2 = 0) := by
  obtain ⟨h1, h2, h3⟩ := roundEven_spec u
  by_cases hz : z = F64.roundEven u
  · subst hz; exact ⟨Rat.le_refl, fun _ h => absurd rfl h⟩
  · have hz' : z + 1 ≤ F64.roundEven u ∨ F64.roundEven u + 1 ≤ z := by omega
    have c : (z : Rat) + 1 ≤ F64.roundEven u ∨ (F64.roundEven u : Rat) + 1 ≤ z := by
      rcases hz' with h | h
      · left
        have := Rat.intCast_le_intCast.mpr h
        rw [Rat.intCast_add] at this; exact this
      · right
        have := Rat.intCast_le_intCast.mpr h
        rw [Rat.intCast_add] at this; exact this
    generalize (F64.roundEven u) = n at *
    refine ⟨?_, fun he _ => h3 ?_⟩
    · unfold dist; grind
    · unfold dist at he; grind

theorem dist_scale {a b c : Rat} (hc : 0 < c) : dist (a * c) (b * c) = dist a b * c := by
  unfold dist
  by_cases h : a ≤ b
  · rw [if_pos h, if_pos (Rat.mul_le_mul_of_nonneg_right h (Rat.le_of_lt hc))]; grind
  · have h' : b < a := Rat.not_le.mp h
    rw [if_neg h, if_neg (Rat.not_le.mpr (Rat.mul_lt_mul_of_pos_right h' hc))]; grind

/-- Among the doubles, scaled to make the unit of the last place 1. -/
theorem roundEven_double {u : Rat} {e : Int} (hu : e = -1074 ∨ (2 : Rat) ^ (52 : Int) ≤ u) {m' : Nat} {e' : Int}
    (hm : m' < 2 ^ 53) (he : -1074 ≤ e') :
    dist u (F64.roundEven u) ≤ dist u ((m' : Rat) * (2 : Rat) ^ (e' - e)) ∧
      (dist u (F64.roundEven u) = dist u ((m' : Rat) * (2 : Rat) ^ (e' - e)) →
        (m' : Rat) * (2 : Rat) ^ (e' - e) ≠ F64.roundEven u → F64.roundEven u % 2 = 0) := by
  by_cases hle : e ≤ e'
  · obtain ⟨j, hj⟩ := Int.eq_ofNat_of_zero_le (show 0 ≤ e' - e by omega)
    rw [hj, two_nat, ← Rat.natCast_mul]
    have h := roundEven_near u ((m' * 2 ^ j : Nat) : Int)
    rw [Rat.intCast_natCast] at h
    refine ⟨h.1, fun h1 h2 => h.2 h1 fun h3 => h2 ?_⟩
    rw [← h3, Rat.intCast_natCast]
  · have hu' := hu.resolve_left (by omega)
    have h1 := (roundEven_near u ((2 ^ 52 : Nat) : Int)).1
    have e1 : (((2 ^ 52 : Nat) : Int) : Rat) = (2 : Rat) ^ (52 : Int) := by rw [Rat.intCast_natCast, ← two_nat]; rfl
    rw [e1] at h1
    have h2 : (m' : Rat) * (2 : Rat) ^ (e' - e) < (2 : Rat) ^ (52 : Int) := by
      have a1 : (m' : Rat) < (2 : Rat) ^ (53 : Int) := by
        rw [show (53 : Int) = ((53 : Nat) : Int) from rfl, two_nat]; exact_mod_cast hm
      have a2 : (2 : Rat) ^ (e' - e) ≤ (2 : Rat) ^ (-1 : Int) := two_mono (by omega)
      have a3 := Rat.mul_lt_mul_of_pos_right a1 (two_pos (e' - e))
      have a4 := Rat.mul_le_mul_of_nonneg_left a2 (Rat.le_of_lt (two_pos 53))
      rw [← two_add 53 (-1)] at a4
      have a5 : (2 : Rat) ^ ((53 : Int) + -1) = (2 : Rat) ^ (52 : Int) := rfl
      grind
    generalize (m' : Rat) * (2 : Rat) ^ (e' - e) = w at *
    have h3 : dist u ((2 : Rat) ^ (52 : Int)) < dist u w := by
      generalize (2 : Rat) ^ (52 : Int) = c at *
      unfold dist; grind
    exact ⟨Rat.le_trans h1 (Rat.le_of_lt h3), fun h4 _ => by rw [h4] at h1; exact absurd h3 (Rat.not_lt.mpr h1)⟩

/-- The nearest double. -/
theorem round_nearest {v : Rat} (hv : 0 ≤ v) : Nearest v (F64.round v) := by
  unfold F64.round
  by_cases h0 : v ≤ 0
  · have : v = 0 := Rat.le_antisymm h0 hv
    subst this
    rw [if_pos (by decide)]
    refine .fin ⟨by decide, .inr rfl, by decide, by decide⟩ (by decide +kernel) (fun m' e' _ => ?_) (fun _ _ _ _ _ => rfl)
    have h1 : doubleVal 0 (-1074) = 0 := by unfold doubleVal; exact Rat.zero_mul _
    have h2 : 0 ≤ doubleVal m' e' := Rat.mul_nonneg Rat.natCast_nonneg (Rat.le_of_lt (two_pos _))
    rw [h1]
    unfold dist; grind
  · have hpos : 0 < v := Rat.not_le.mp h0
    rw [if_neg h0]
    obtain ⟨hk1, hk2⟩ := floorLog2_spec hpos
    dsimp only
    have he1 : -1074 ≤ F64.expo v := by unfold F64.expo; omega
    have he2 : F64.floorLog2 v - 52 ≤ F64.expo v := by unfold F64.expo; omega
    have he3 : F64.expo v = -1074 ∨ F64.expo v = F64.floorLog2 v - 52 := by unfold F64.expo; omega
    generalize F64.expo v = e at *
    generalize F64.floorLog2 v = k at *
    have huv : v = v * (2 : Rat) ^ (-e) * (2 : Rat) ^ e := by rw [Rat.mul_assoc, two_neg, Rat.mul_one]
    have hu1 : v * (2 : Rat) ^ (-e) < (2 : Rat) ^ (53 : Int) := by
      have a1 := Rat.mul_lt_mul_of_pos_right hk2 (two_pos (-e))
      rw [← two_add] at a1
      have a2 : (2 : Rat) ^ (k + 1 + -e) ≤ (2 : Rat) ^ (53 : Int) := two_mono (by omega)
      grind
    have hu2 : e = -1074 ∨ (2 : Rat) ^ (52 : Int) ≤ v * (2 : Rat) ^ (-e) := by
      refine he3.imp id fun h => ?_
      have a1 := Rat.mul_le_mul_of_nonneg_right hk1 (Rat.le_of_lt (two_pos (-e)))
      rw [← two_add, show k + -e = 52 by omega] at a1
      exact a1
    have hu0 : 0 < v * (2 : Rat) ^ (-e) := Rat.mul_pos hpos (two_pos _)
    generalize v * (2 : Rat) ^ (-e) = u at *
    obtain ⟨r1, r2, r3⟩ := roundEven_spec u
    have near := fun m' e' => roundEven_double (u := u) (e := e) hu2 (m' := m') (e' := e')
    have lo : e = -1074 ∨ 2 ^ 52 ≤ F64.roundEven u := by
      refine hu2.imp id fun h => ?_
      have : ((2 ^ 52 - 1 : Int) : Rat) < (F64.roundEven u : Rat) := by
        have : ((2 ^ 52 - 1 : Int) : Rat) = (2 : Rat) ^ (52 : Int) - 1 := by decide +kernel
        rw [this]; grind
      have := Rat.intCast_lt_intCast.mp this
      omega
    have nn : 0 ≤ F64.roundEven u := by
      have : ((-1 : Int) : Rat) < (F64.roundEven u : Rat) := by
        have : ((-1 : Int) : Rat) = -1 := rfl
        rw [this]; grind
      have := Rat.intCast_lt_intCast.mp this
      omega
    have hi : F64.roundEven u ≤ 2 ^ 53 := by
      have : (F64.roundEven u : Rat) < ((2 ^ 53 + 1 : Int) : Rat) := by
        have : ((2 ^ 53 + 1 : Int) : Rat) = (2 : Rat) ^ (53 : Int) + 1 := by decide +kernel
        rw [this]; grind
      have := Rat.intCast_lt_intCast.mp this
      omega
    obtain ⟨m, hm⟩ := Int.eq_ofNat_of_zero_le nn
    rw [hm] at r1 r2 r3 near lo hi ⊢
    simp only [Rat.intCast_natCast, Int.toNat_natCast] at *
    -- back to the scale of `v`
    have back : ∀ m' e', m' < 2 ^ 53 → -1074 ≤ e' →
        dist v ((m : Rat) * (2 : Rat) ^ e) ≤ dist v (doubleVal m' e') ∧
          (dist v ((m : Rat) * (2 : Rat) ^ e) = dist v (doubleVal m' e') →
            doubleVal m' e' ≠ (m : Rat) * (2 : Rat) ^ e → m % 2 = 0) := by
      intro m' e' h1 h2
      obtain ⟨n1, n2⟩ := near m' e' h1 h2
      have hw : doubleVal m' e' = (m' : Rat) * (2 : Rat) ^ (e' - e) * (2 : Rat) ^ e := by
        unfold doubleVal
        rw [Rat.mul_assoc, ← two_add, Int.sub_add_cancel]
      rw [hw, huv, dist_scale (two_pos e), dist_scale (two_pos e)]
      refine ⟨Rat.mul_le_mul_of_nonneg_right n1 (Rat.le_of_lt (two_pos e)), fun h3 h4 => ?_⟩
      have h5 : dist u m = dist u ((m' : Rat) * (2 : Rat) ^ (e' - e)) :=
        Rat.le_antisymm (Rat.le_of_mul_le_mul_right (h3 ▸ Rat.le_refl) (two_pos e))
          (Rat.le_of_mul_le_mul_right (h3 ▸ Rat.le_refl) (two_pos e))
      have := n2 h5 (fun h6 => h4 (by rw [h6]))
      omega
    -- the threshold
    have hT : tooLarge = ((2 : Rat) ^ (53 : Int) - 1 / 2) * (2 : Rat) ^ (971 : Int) := by decide +kernel
    by_cases hc : m = 9007199254740992
    · rw [if_pos hc]
      subst hc
      unfold F64.mk
      by_cases hb : 971 < e + 1
      · rw [if_pos hb]
        refine .inf ?_
        rw [hT, huv]
        have b1 : (2 : Rat) ^ (53 : Int) - 1 / 2 ≤ u := by
          have : ((9007199254740992 : Nat) : Rat) = (2 : Rat) ^ (53 : Int) := by decide +kernel
          rw [this] at r2; grind
        have b2 : (2 : Rat) ^ (971 : Int) ≤ (2 : Rat) ^ e := two_mono (by omega)
        exact Rat.le_trans (Rat.mul_le_mul_of_nonneg_right b1 (Rat.le_of_lt (two_pos _)))
          (Rat.mul_le_mul_of_nonneg_left b2 (Rat.le_of_lt hu0))
      · rw [if_neg hb]
        have hval : doubleVal 4503599627370496 (e + 1) = ((9007199254740992 : Nat) : Rat) * (2 : Rat) ^ e := by
          unfold doubleVal
          rw [Int.add_comm, two_add, ← Rat.mul_assoc, show ((4503599627370496 : Nat) : Rat) * (2 : Rat) ^ (1 : Int) =
            ((9007199254740992 : Nat) : Rat) by decide +kernel]
        refine .fin ⟨by decide, .inl (by decide), by omega, by omega⟩ ?_ (fun m' e' h => ?_) (fun m' e' h h1 h2 => by decide)
        · rw [hT, huv]
          have b2 : (2 : Rat) ^ e ≤ (2 : Rat) ^ (970 : Int) := two_mono (by omega)
          have b3 : (2 : Rat) ^ (971 : Int) = 2 * (2 : Rat) ^ (970 : Int) := by decide +kernel
          have b4 := Rat.mul_le_mul_of_nonneg_left b2 (Rat.le_of_lt hu0)
          have b5 := Rat.mul_lt_mul_of_pos_right hu1 (two_pos 970)
          have b6 : ((2 : Rat) ^ (53 : Int) - 1 / 2) * (2 : Rat) ^ (971 : Int) > (2 : Rat) ^ (53 : Int) * (2 : Rat) ^ (970 : Int) := by
            decide +kernel
          generalize u * (2 : Rat) ^ e = x at *
          exact rat_lt_of_le_of_lt b4 (by grind)
        · rw [hval]; exact (back m' e' h.1 h.2.2.1).1
    · rw [if_neg hc]
      unfold F64.mk
      by_cases hb : 971 < e
      · rw [if_pos hb]
        refine .inf ?_
        rw [huv]
        have b1 := hu2.resolve_left (by omega)
        have b2 : (2 : Rat) ^ (972 : Int) ≤ (2 : Rat) ^ e := two_mono (by omega)
        have b3 : tooLarge ≤ (2 : Rat) ^ (52 : Int) * (2 : Rat) ^ (972 : Int) := by decide +kernel
        exact Rat.le_trans b3 (Rat.le_trans (Rat.mul_le_mul_of_nonneg_right b1 (Rat.le_of_lt (two_pos _)))
          (Rat.mul_le_mul_of_nonneg_left b2 (Rat.le_of_lt hu0)))
      · rw [if_neg hb]
        refine .fin ⟨by omega, by omega, he1, by omega⟩ ?_ (fun m' e' h => (back m' e' h.1 h.2.2.1).1)
          (fun m' e' h => (back m' e' h.1 h.2.2.1).2)
        rw [hT, huv]
        have b2 : (2 : Rat) ^ e ≤ (2 : Rat) ^ (971 : Int) := two_mono (by omega)
        have b1 : u < (2 : Rat) ^ (53 : Int) - 1 / 2 := by
          have c1 : (m : Rat) ≤ ((9007199254740991 : Nat) : Rat) := Rat.natCast_le_natCast.mpr (by omega)
          have c2 : ((9007199254740991 : Nat) : Rat) = (2 : Rat) ^ (53 : Int) - 1 := by decide +kernel
          rw [c2] at c1
          by_cases c3 : 2 * (u - m) = 1
          · have c4 : m ≤ 9007199254740990 := by
              have := r3 (.inl c3)
              omega
            have c5 : (m : Rat) ≤ ((9007199254740990 : Nat) : Rat) := Rat.natCast_le_natCast.mpr c4
            have c6 : ((9007199254740990 : Nat) : Rat) = (2 : Rat) ^ (53 : Int) - 2 := by decide +kernel
            rw [c6] at c5
            grind
          · grind
        exact rat_lt_of_le_of_lt (Rat.mul_le_mul_of_nonneg_left b2 (Rat.le_of_lt hu0)) (Rat.mul_lt_mul_of_pos_right b1 (two_pos _))

/-- The double after the one is not above any larger double. -/
theorem double_next {m m' : Nat} {e e' : Int} (h : IsDouble m e) (h' : IsDouble m' e') (hlt : doubleVal m e < doubleVal m' e') :
    ((m + 1 : Nat) : Rat) * (2 : Rat) ^ e ≤ doubleVal m' e' := by
  by_cases hle : e ≤ e'
  · have hw : doubleVal m' e' = (m' : Rat) * (2 : Rat) ^ (e' - e) * (2 : Rat) ^ e := by
      unfold doubleVal
      rw [Rat.mul_assoc, ← two_add, Int.sub_add_cancel]
    obtain ⟨j, hj⟩ := Int.eq_ofNat_of_zero_le (show 0 ≤ e' - e by omega)
    rw [hw, hj, two_nat, ← Rat.natCast_mul] at hlt ⊢
    have := Rat.lt_of_mul_lt_mul_right hlt (Rat.le_of_lt (two_pos e))
    have := Rat.natCast_lt_natCast.mp this
    exact Rat.mul_le_mul_of_nonneg_right (Rat.natCast_le_natCast.mpr this) (Rat.le_of_lt (two_pos e))
  · exfalso
    have a1 : (2 : Rat) ^ (52 : Int) ≤ (m : Rat) := by
      rw [show (52 : Int) = ((52 : Nat) : Int) from rfl, two_nat]
      exact Rat.natCast_le_natCast.mpr (h.2.1.resolve_right (by have := h'.2.2.1; omega))
    have a2 : (m' : Rat) < (2 : Rat) ^ (53 : Int) := by
      rw [show (53 : Int) = ((53 : Nat) : Int) from rfl, two_nat]
      exact Rat.natCast_lt_natCast.mpr h'.1
    have a3 := Rat.mul_lt_mul_of_pos_right a2 (two_pos e')
    have a4 := Rat.mul_le_mul_of_nonneg_right a1 (Rat.le_of_lt (two_pos e))
    rw [← two_add] at a3 a4
    have a5 : (2 : Rat) ^ (53 + e') ≤ (2 : Rat) ^ (52 + e) := two_mono (by omega)
    unfold doubleVal at hlt
    grind

/-- The significand and the exponent are determined. -/
theorem double_inj {m m' : Nat} {e e' : Int} (h : IsDouble m e) (h' : IsDouble m' e') (he : doubleVal m e = doubleVal m' e') :
    m = m' ∧ e = e' := by
  have key : ∀ {m m' : Nat} {e e' : Int}, IsDouble m e → IsDouble m' e' → doubleVal m e = doubleVal m' e' → ¬ e < e' := by
    intro m m' e e' h h' he hlt
    have a1 : (2 : Rat) ^ (52 : Int) ≤ (m' : Rat) := by
      rw [show (52 : Int) = ((52 : Nat) : Int) from rfl, two_nat]
      exact Rat.natCast_le_natCast.mpr (h'.2.1.resolve_right (by have := h.2.2.1; omega))
    have a2 : (m : Rat) < (2 : Rat) ^ (53 : Int) := by
      rw [show (53 : Int) = ((53 : Nat) : Int) from rfl, two_nat]
      exact Rat.natCast_lt_natCast.mpr h.1
    have a3 := Rat.mul_lt_mul_of_pos_right a2 (two_pos e)
    have a4 := Rat.mul_le_mul_of_nonneg_right a1 (Rat.le_of_lt (two_pos e'))
    rw [← two_add] at a3 a4
    have a5 : (2 : Rat) ^ (53 + e) ≤ (2 : Rat) ^ (52 + e') := two_mono (by omega)
    unfold doubleVal at he
    grind
  have hee : e = e' := by
    have h1 := key h h' he
    have h2 := key h' h he.symm
    omega
  subst hee
  unfold doubleVal at he
  have h2 : (m' : Rat) ≤ m := Rat.le_of_mul_le_mul_right (c := (2 : Rat) ^ e) (by rw [he]; exact Rat.le_refl) (two_pos e)
  have h1 : (m : Rat) ≤ m' := Rat.le_of_mul_le_mul_right (c := (2 : Rat) ^ e) (by rw [he]; exact Rat.le_refl) (two_pos e)
  have := Rat.natCast_le_natCast.mp h1
  have := Rat.natCast_le_natCast.mp h2
  exact ⟨by omega, rfl⟩

/-- There is only one nearest double. -/
theorem nearest_unique {v : Rat} {x y : F64} (hx : Nearest v x) (hy : Nearest v y) : x = y := by
  have key : ∀ {m m' : Nat} {e e' : Int}, Nearest v (.fin m e) → Nearest v (.fin m' e') → ¬ doubleVal m e < doubleVal m' e' := by
    intro m m' e e' hx hy hlt
    cases hx with | fin d1 _ n1 p1 =>
    cases hy with | fin d2 _ n2 p2 =>
    have hd : dist v (doubleVal m e) = dist v (doubleVal m' e') := Rat.le_antisymm (n1 _ _ d2) (n2 _ _ d1)
    have q1 := p1 _ _ d2 hd (by grind)
    have q2 := p2 _ _ d1 hd.symm (by grind)
    have hz := double_next d1 d2 hlt
    have dz : IsDouble (m + 1) e := by
      obtain ⟨a, b, c⟩ := d1
      exact ⟨by omega, by omega, c⟩
    have hz1 : doubleVal m e < doubleVal (m + 1) e := by
      unfold doubleVal
      exact Rat.mul_lt_mul_of_pos_right (Rat.natCast_lt_natCast.mpr (by omega)) (two_pos e)
    change doubleVal (m + 1) e ≤ _ at hz
    by_cases hzy : doubleVal (m + 1) e = doubleVal m' e'
    · have := (double_inj dz d2 hzy).1
      omega
    · have h3 := n1 _ _ dz
      generalize doubleVal (m + 1) e = z at *
      generalize doubleVal m e = a at *
      generalize doubleVal m' e' = b at *
      unfold dist at h3 hd
      grind
  cases hx with
  | inf h1 =>
    cases hy with
    | inf => rfl
    | fin _ h2 => exact absurd h2 (Rat.not_lt.mpr h1)
  | fin d1 h1 n1 p1 =>
    cases hy with
    | inf h2 => exact absurd h1 (Rat.not_lt.mpr h2)
    | fin d2 h2 n2 p2 =>
      have k1 := key (.fin d1 h1 n1 p1) (.fin d2 h2 n2 p2)
      have k2 := key (.fin d2 h2 n2 p2) (.fin d1 h1 n1 p1)
      obtain ⟨rfl, rfl⟩ := double_inj d1 d2 (Rat.le_antisymm (Rat.not_lt.mp k2) (Rat.not_lt.mp k1))
      rfl

/-- A double is the nearest to itself. -/
theorem round_double {m : Nat} {e : Int} (h : IsDouble m e) : F64.round (doubleVal m e) = .fin m e := by
  have hnn : 0 ≤ doubleVal m e := Rat.mul_nonneg Rat.natCast_nonneg (Rat.le_of_lt (two_pos _))
  have d0 : dist (doubleVal m e) (doubleVal m e) = 0 := by unfold dist; grind
  have dn : ∀ a b : Rat, 0 ≤ dist a b := by intro a b; unfold dist; grind
  refine nearest_unique (round_nearest hnn) (.fin h ?_ (fun m' e' _ => by rw [d0]; exact dn _ _) fun m' e' _ h1 h2 => ?_)
  · have a1 : (m : Rat) ≤ ((9007199254740991 : Nat) : Rat) := Rat.natCast_le_natCast.mpr (by have := h.1; omega)
    have a2 : (2 : Rat) ^ e ≤ (2 : Rat) ^ (971 : Int) := two_mono h.2.2.2
    have a3 := Rat.mul_le_mul_of_nonneg_right a1 (Rat.le_of_lt (two_pos e))
    have a4 := Rat.mul_le_mul_of_nonneg_left a2 (show (0 : Rat) ≤ ((9007199254740991 : Nat) : Rat) from Rat.natCast_nonneg)
    have a5 : ((9007199254740991 : Nat) : Rat) * (2 : Rat) ^ (971 : Int) < tooLarge := by decide +kernel
    exact rat_lt_of_le_of_lt (Rat.le_trans a3 a4) a5
  · exfalso
    rw [d0] at h1
    apply h2
    unfold dist at h1
    grind

end Giron

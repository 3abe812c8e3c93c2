import Verif.Model.Double
/-
What it means that a double is the nearest to a number (IEEE 754, binary64, roundTiesToEven).  Only the type of doubles is
taken from the model, not the rounding.
-/
namespace Giron.Spec

/-- `m` and `e` are the significand and the exponent of a finite double: 53 bits, and all of them used but for the smallest
exponent. -/
def IsDouble (m : Nat) (e : Int) : Prop := m < 2 ^ 53 ∧ (2 ^ 52 ≤ m ∨ e = -1074) ∧ -1074 ≤ e ∧ e ≤ 971

/-- The number it stands for. -/
def doubleVal (m : Nat) (e : Int) : Rat := (m : Rat) * (2 : Rat) ^ e

/-- The distance of two numbers. -/
def dist (a b : Rat) : Rat := if a ≤ b then b - a else a - b

/-- Half way between the largest double and `2 ^ 1024`, which would be the next. -/
def tooLarge : Rat := ((2 : Rat) ^ (54 : Int) - 1) * (2 : Rat) ^ (970 : Int)

/-- The double is the nearest to `v`: no other is nearer, and if another is as near, its significand is even. -/
inductive Nearest (v : Rat) : F64 → Prop
  | fin {m : Nat} {e : Int} : IsDouble m e → v < tooLarge →
      (∀ m' e', IsDouble m' e' → dist v (doubleVal m e) ≤ dist v (doubleVal m' e')) →
      (∀ m' e', IsDouble m' e' → dist v (doubleVal m e) = dist v (doubleVal m' e') →
        doubleVal m' e' ≠ doubleVal m e → m % 2 = 0) → Nearest v (.fin m e)
  | inf : tooLarge ≤ v → Nearest v .inf

end Giron.Spec

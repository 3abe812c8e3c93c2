import Verif.Model.Basic
/-
Floating point numbers.  giron keeps numbers as `f64` (giron/src/token/value.rs:8); they are made by
`str::parse::<f64>()` (scanner.rs:321, 354) and by `i64 as f64` (scanner.rs:295-300, 398-399), both of which round to the nearest
double, ties to even, and shown by `f64::to_string` (value.rs:17) and by `serde_json` (value.rs:4-11 `derive(Serialize)`),
both of which use the shortest digits that denote the double.  All of these are functions of the Rust standard library and
of `serde_json`; they are modelled by what they are documented to do, on exact rational numbers.
-/
namespace Giron

/-- The number a literal denotes. -/
def Num.val (x : Num) : Rat := (x.mant : Rat) * (10 : Rat) ^ x.exp

/-- A double that is not negative: `m * 2 ^ e`, or infinity. -/
inductive F64
  | fin (m : Nat) (e : Int)
  | inf
deriving DecidableEq, Repr, Inhabited

namespace F64

/-- The exponent `k` with `2 ^ k ≤ v < 2 ^ (k + 1)`. -/
def floorLog2 (v : Rat) : Int :=
  let k : Int := v.num.toNat.log2 - v.den.log2
  if v < (2 : Rat) ^ k then k - 1 else k

/-- The nearest integer, and the even one of two. -/
def roundEven (u : Rat) : Int :=
  let d := u.floor
  if 2 * (u - d) < 1 then d
  else if 1 < 2 * (u - d) then d + 1
  else if d % 2 = 0 then d
  else d + 1

/-- The exponent of the doubles around `v`: 53 bits, and not below `2 ^ -1074`. -/
def expo (v : Rat) : Int := max (-1074) (floorLog2 v - 52)

/-- `m * 2 ^ e`, or infinity if it is too large. -/
def mk (m : Nat) (e : Int) : F64 := if 971 < e then .inf else .fin m e

/-- Rounding to the nearest double, ties to even: `str::parse::<f64>()` and `i64 as f64` (standard library). -/
def round (v : Rat) : F64 :=
  if v ≤ 0 then .fin 0 (-1074)
  else
    let e := expo v
    let m := (roundEven (v * (2 : Rat) ^ (-e))).toNat
    if m = 9007199254740992 then mk 4503599627370496 (e + 1) else mk m e

/-- The exact decimal `(d, k)`, meaning `d * 10 ^ k`, of the double. -/
def exact (m : Nat) (e : Int) : Nat × Int :=
  if 0 ≤ e then (m * 2 ^ e.toNat, 0) else (m * 5 ^ (-e).toNat, e)

/-- `d` without its last `j` digits, rounded to the nearer side; `tie` says which if both are as near.  (The algorithms of
the standard library and of `serde_json` differ in this.) -/
def nearer (tie : Nat → Bool) (d j : Nat) : Nat × Nat :=
  let lo := d / 10 ^ j
  let r := d % 10 ^ j
  if 2 * r < 10 ^ j ∨ 2 * r = 10 ^ j ∧ tie lo = false then (lo, lo + 1) else (lo + 1, lo)

/-- The first decimal that rounds to `x` among those with `j`, `j - 1`, ... digits fewer than `d * 10 ^ k`. -/
def search (tie : Nat → Bool) (x : F64) (d : Nat) (k : Int) : Nat → Nat × Int
  | 0 => (d, k)
  | j + 1 =>
    let c := nearer tie d (j + 1)
    let k' := k + (j + 1 : Nat)
    if round ((c.1 : Rat) * (10 : Rat) ^ k') = x then (c.1, k')
    else if round ((c.2 : Rat) * (10 : Rat) ^ k') = x then (c.2, k')
    else search tie x d k j

/-- `d * 10 ^ k` without zeros at the end of `d`; the fuel is at least the number of digits. -/
def strip : Nat → Nat × Int → Nat × Int
  | 0, p => p
  | n + 1, (d, k) => if d % 10 = 0 ∧ d ≠ 0 then strip n (d / 10, k + 1) else (d, k)

/-- The shortest decimal that rounds to the double `m * 2 ^ e`, and the nearest to it of these. -/
def shortest (tie : Nat → Bool) (m : Nat) (e : Int) : Nat × Int :=
  let p := exact m e
  let n := (Nat.toDigits 10 p.1).length
  strip n (search tie (.fin m e) p.1 p.2 (n - 1))

/-- The decimal spelling of a number. -/
def digits (n : Nat) : Str := Nat.toDigits 10 n

/-- A number of zeros. -/
def zeros (n : Nat) : Str := List.replicate n '0'

/-- `f64::to_string` (standard library; giron/src/token/value.rs:17): the shortest digits, never with an exponent. -/
def display (tie : Nat → Bool) : F64 → Str
  | .inf => cs!"inf"
  | .fin m e =>
    let p := shortest tie m e
    let ds := digits p.1
    if m = 0 then cs!"0"
    else if 0 ≤ p.2 then ds ++ zeros p.2.toNat
    else
      let j := (-p.2).toNat
      if j < ds.length then ds.take (ds.length - j) ++ '.' :: ds.drop (ds.length - j)
      else '0' :: '.' :: (zeros (j - ds.length) ++ ds)

/-- The exponent of a number: `-` and digits. -/
def showExp (k : Int) : Str := if k < 0 then '-' :: digits (-k).toNat else digits k.toNat

/-- How `serde_json` writes an `f64` (crate `ryu`, `pretty`): the shortest digits; with an exponent if the number is less
than `1e-5` or at least `1e16`; what is not finite is `null`. -/
def json (tie : Nat → Bool) : F64 → Str
  | .inf => cs!"null"
  | .fin m e =>
    let p := shortest tie m e
    let ds := digits p.1
    let kk := (ds.length : Int) + p.2
    if m = 0 then cs!"0.0"
    else if 0 ≤ p.2 ∧ kk ≤ 16 then ds ++ zeros p.2.toNat ++ cs!".0"
    else if 0 < kk ∧ kk ≤ 16 then ds.take kk.toNat ++ '.' :: ds.drop kk.toNat
    else if -5 < kk ∧ kk ≤ 0 then '0' :: '.' :: (zeros (-kk).toNat ++ ds)
    else if ds.length = 1 then ds ++ 'e' :: showExp (kk - 1)
    else ds.take 1 ++ '.' :: (ds.drop 1 ++ 'e' :: showExp (kk - 1))

end F64

/-- giron/src/token/value.rs:8: the double a literal becomes. -/
def Num.toF64 (x : Num) : F64 := F64.round x.val

end Giron

import Verif.Model.JsonText
/-
JSON texts and what they mean: the `JSON.parse` of JavaScript (ECMA-404, ECMA-262).  It knows nothing of how giron writes
JSON.
-/
namespace Giron.Spec
open Giron

/-- The values of JavaScript that JSON can denote.  A number is a double with a sign; an object is the list of its members. -/
inductive Val
  | null
  | bool (b : Bool)
  | num (negative : Bool) (x : F64)
  | str (s : Str)
  | arr (items : List Val)
  | obj (members : List (Str × Val))

/-- white space -/
def isWs (c : Char) : Bool := c = ' ' || c = '\t' || c = '\n' || c = '\r'
/-- what follows the white space -/
def skipWs (s : Str) : Str := s.dropWhile isWs

/-- the decimal digits -/
def isDec (c : Char) : Bool := decide (48 ≤ c.toNat) && decide (c.toNat ≤ 57)
/-- the number that digits denote, most significant digit first -/
def decNat (s : Str) : Nat := s.foldl (fun n c => 10 * n + (c.toNat - 48)) 0

/-- `. digits`, if there is a point: the digits (at least one) and what follows. -/
def readFrac : Str → Option (Str × Str)
  | '.' :: r => if r.takeWhile isDec = [] then none else some (r.takeWhile isDec, r.dropWhile isDec)
  | r => some ([], r)

/-- The digits of an exponent, at least one. -/
def readDigits (r : Str) : Option (Nat × Str) :=
  if r.takeWhile isDec = [] then none else some (decNat (r.takeWhile isDec), r.dropWhile isDec)

/-- `e` or `E`, a sign and digits, if there is one: the exponent and what follows. -/
def readExp : Str → Option (Int × Str)
  | [] => some (0, [])
  | c :: r =>
    if c = 'e' ∨ c = 'E' then
      match r with
      | '-' :: r' => (readDigits r').map fun p => (-(p.1 : Int), p.2)
      | '+' :: r' => (readDigits r').map fun p => ((p.1 : Int), p.2)
      | r' => (readDigits r').map fun p => ((p.1 : Int), p.2)
    else some (0, c :: r)

/-- A number without sign: digits (no `0` before other digits), a fraction and an exponent. -/
def readNumber (s : Str) : Option (Rat × Str) :=
  let ip := s.takeWhile isDec
  if ip = [] ∨ ip.head? = some '0' ∧ ip ≠ ['0'] then none
  else do
    let (fp, r) ← readFrac (s.dropWhile isDec)
    let (k, r) ← readExp r
    some ((decNat (ip ++ fp) : Rat) * (10 : Rat) ^ (k - (fp.length : Int)), r)

/-- the value of a hexadecimal digit -/
def hexVal (c : Char) : Option Nat :=
  if 48 ≤ c.toNat ∧ c.toNat ≤ 57 then some (c.toNat - 48)
  else if 97 ≤ c.toNat ∧ c.toNat ≤ 102 then some (c.toNat - 87)
  else if 65 ≤ c.toNat ∧ c.toNat ≤ 70 then some (c.toNat - 55)
  else none

/-- four hexadecimal digits -/
def readHex4 : Str → Option (Nat × Str)
  | a :: b :: c :: d :: r => do
    let a ← hexVal a
    let b ← hexVal b
    let c ← hexVal c
    let d ← hexVal d
    some (4096 * a + 256 * b + 16 * c + d, r)
  | _ => none

/-- What follows a backslash in a string.  (A lone surrogate is no character.) -/
def readEscape : Str → Option (Char × Str)
  | '"' :: r => some ('"', r)
  | '\\' :: r => some ('\\', r)
  | '/' :: r => some ('/', r)
  | 'b' :: r => some (Char.ofNat 8, r)
  | 'f' :: r => some (Char.ofNat 12, r)
  | 'n' :: r => some (Char.ofNat 10, r)
  | 'r' :: r => some (Char.ofNat 13, r)
  | 't' :: r => some (Char.ofNat 9, r)
  | 'u' :: r => do
    let (n, r) ← readHex4 r
    if n < 0xD800 ∨ 0xDFFF < n then some (Char.ofNat n, r)
    else if n < 0xDC00 then
      match r with
      | '\\' :: 'u' :: r => do
        let (m, r) ← readHex4 r
        if 0xDC00 ≤ m ∧ m ≤ 0xDFFF then some (Char.ofNat (0x10000 + 0x400 * (n - 0xD800) + (m - 0xDC00)), r) else none
      | _ => none
    else none
  | _ => none

/-- The characters of a string up to the closing quote, and what follows it. -/
def readChars : Nat → Str → Option (Str × Str)
  | 0, _ => none
  | _, [] => none
  | n + 1, c :: r =>
    if c = '"' then some ([], r)
    else if c = '\\' then do
      let (c, r) ← readEscape r
      let (s, r) ← readChars n r
      some (c :: s, r)
    else if c.toNat < 32 then none
    else do
      let (s, r) ← readChars n r
      some (c :: s, r)

/-- A string. -/
def readString : Str → Option (Str × Str)
  | '"' :: r => readChars r.length r
  | _ => none

/-- A given word. -/
def readWord : Str → Str → Option Str
  | [], s => some s
  | c :: w, d :: s => if c = d then readWord w s else none
  | _ :: _, [] => none

mutual

/-- A value, and what follows it; the number bounds the steps. -/
def readValue : Nat → Str → Option (Val × Str)
  | 0, _ => none
  | n + 1, s =>
    match skipWs s with
    | [] => none
    | c :: r =>
      if c = '{' then
        match skipWs r with
        | '}' :: r => some (.obj [], r)
        | _ => (readMembers n r).map fun p => (.obj p.1, p.2)
      else if c = '[' then
        match skipWs r with
        | ']' :: r => some (.arr [], r)
        | _ => (readItems n r).map fun p => (.arr p.1, p.2)
      else if c = '"' then (readString (c :: r)).map fun p => (.str p.1, p.2)
      else if c = 'n' then (readWord cs!"ull" r).map fun r => (.null, r)
      else if c = 't' then (readWord cs!"rue" r).map fun r => (.bool true, r)
      else if c = 'f' then (readWord cs!"alse" r).map fun r => (.bool false, r)
      else if c = '-' then (readNumber r).map fun p => (.num true (F64.round p.1), p.2)
      else (readNumber (c :: r)).map fun p => (.num false (F64.round p.1), p.2)

/-- The items of an array, at least one, the bracket that closes it, and what follows. -/
def readItems : Nat → Str → Option (List Val × Str)
  | 0, _ => none
  | n + 1, s => do
    let (v, r) ← readValue n s
    match skipWs r with
    | ',' :: r => (readItems n r).map fun p => (v :: p.1, p.2)
    | ']' :: r => some ([v], r)
    | _ => none

/-- The members of an object, at least one, the brace that closes it, and what follows. -/
def readMembers : Nat → Str → Option (List (Str × Val) × Str)
  | 0, _ => none
  | n + 1, s => do
    let (k, r) ← readString (skipWs s)
    match skipWs r with
    | ':' :: r => do
      let (v, r) ← readValue n r
      match skipWs r with
      | ',' :: r => (readMembers n r).map fun p => ((k, v) :: p.1, p.2)
      | '}' :: r => some ([(k, v)], r)
      | _ => none
    | _ => none

end

/-- `JSON.parse`: one value, with white space around it. -/
def jsonParse (s : Str) : Option Val := do
  let (v, r) ← readValue (s.length + 1) s
  if skipWs r = [] then some v else none

mutual

/-- What the JavaScript caller should see: the same value, with numbers as the nearest doubles, and `null` for a number that
is too large (JSON has no infinity). -/
def view : Json → Val
  | .null => .null
  | .bool b => .bool b
  | .nat n => .num false (F64.round n)
  | .num x => if x.toF64 = .inf then .null else .num false x.toF64
  | .str s => .str s
  | .arr items => .arr (viewItems items)
  | .obj members => .obj (viewMembers members)
termination_by structural j => j

/-- the items of an array -/
def viewItems : List Json → List Val
  | [] => []
  | j :: l => view j :: viewItems l
termination_by structural l => l

/-- the members of an object -/
def viewMembers : List (Str × Json) → List (Str × Val)
  | [] => []
  | m :: l => viewMember m :: viewMembers l
termination_by structural l => l

/-- one member -/
def viewMember : Str × Json → Str × Val
  | (k, j) => (k, view j)
termination_by structural m => m

end

end Giron.Spec

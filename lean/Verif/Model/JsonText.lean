import Verif.Model.Json
import Verif.Model.Double
/-
The text of the JSON.  `JsValue::from_serde` (giron-wasm/src/lib.rs:14, 23) writes the tree with `serde_json::to_string` and
hands the text to the `JSON.parse` of JavaScript.  `serde_json` is not part of the repository; it is modelled by what it
does (compact form, `CompactFormatter`): no white space, escapes for `"`, `\` and the control characters below 32, integers
in decimal (`itoa`), doubles with the shortest digits (`ryu`), infinity as `null`.
-/
namespace Giron

/-- The hexadecimal digit of a number below 16. -/
def hexDigit (n : Nat) : Char := cs!"0123456789abcdef".getD n '0'

/-- `serde_json`, `format_escaped_str_contents`: one character of a string. -/
def escapeChar (c : Char) : Str :=
  if c = '"' then ['\\', '"']
  else if c = '\\' then ['\\', '\\']
  else if c.toNat = 8 then ['\\', 'b']
  else if c.toNat = 9 then ['\\', 't']
  else if c.toNat = 10 then ['\\', 'n']
  else if c.toNat = 12 then ['\\', 'f']
  else if c.toNat = 13 then ['\\', 'r']
  else if c.toNat < 32 then ['\\', 'u', '0', '0', hexDigit (c.toNat / 16), hexDigit (c.toNat % 16)]
  else [c]

/-- The characters of a string. -/
def escape : Str → Str
  | [] => []
  | c :: s => escapeChar c ++ escape s

/-- A string. -/
def quote (s : Str) : Str := '"' :: (escape s ++ ['"'])

namespace Json

mutual

/-- `serde_json::to_string`; `tie` as in Model/Double.lean -/
def text (tie : Nat → Bool) : Json → Str
  | .null => cs!"null"
  | .bool b => if b then cs!"true" else cs!"false"
  | .nat n => F64.digits n
  | .num x => x.toF64.json tie
  | .str s => quote s
  | .arr items => '[' :: (textItems tie true items ++ [']'])
  | .obj members => '{' :: (textMembers tie true members ++ ['}'])
termination_by structural j => j

/-- The items of an array; a comma is before every one but the first. -/
def textItems (tie : Nat → Bool) : Bool → List Json → Str
  | _, [] => []
  | first, j :: l => (if first then [] else [',']) ++ (text tie j ++ textItems tie false l)
termination_by structural _ l => l

/-- The members of an object; a comma is before every one but the first. -/
def textMembers (tie : Nat → Bool) : Bool → List (Str × Json) → Str
  | _, [] => []
  | first, m :: l => (if first then [] else [',']) ++ (textMember tie m ++ textMembers tie false l)
termination_by structural _ l => l

/-- One member. -/
def textMember (tie : Nat → Bool) : Str × Json → Str
  | (key, j) => quote key ++ ':' :: text tie j
termination_by structural m => m

end

end Json

variable [Env]

/-- giron-wasm/src/lib.rs:11-18, 20-26: the text that `from_serde` hands to `JSON.parse`, if there is a tree. -/
def JsResult.json (tie : Nat → Bool) : JsResult → Option Str
  | .tree j => some (j.text tie)
  | .text _ => none

end Giron

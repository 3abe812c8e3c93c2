import Verif.Model.Json
import Verif.Spec.Spells
/-
What of the source is in the JSON: literals, names, regular expressions and the parts of templates, counted on both sides.
-/
namespace Giron.Spec
open Giron

mutual

/-- A weight is given to every object; this is the sum over all objects in a JSON value. -/
def tally (w : List (Str × Json) → Nat) : Json → Nat
  | .null => 0
  | .bool _ => 0
  | .nat _ => 0
  | .num _ => 0
  | .str _ => 0
  | .arr items => tallyItems w items
  | .obj members => w members + tallyMembers w members
termination_by structural j => j

/-- the same for the items of an array -/
def tallyItems (w : List (Str × Json) → Nat) : List Json → Nat
  | [] => 0
  | j :: more => tally w j + tallyItems w more
termination_by structural l => l

/-- the same for the members of an object -/
def tallyMembers (w : List (Str × Json) → Nat) : List (Str × Json) → Nat
  | [] => 0
  | m :: more => tallyMember w m + tallyMembers w more
termination_by structural l => l

/-- the same for one member -/
def tallyMember (w : List (Str × Json) → Nat) : Str × Json → Nat
  | (_, j) => tally w j
termination_by structural m => m

end

/-- How many objects in a JSON value have the property. -/
def howMany (p : List (Str × Json) → Bool) (j : Json) : Nat := tally (fun members => (p members).toNat) j

/-- the JSON value is this string, number or `null` -/
def sameValue : Value → Json → Bool
  | .str s, .str t => s == t
  | .num x, .num y => x == y
  | .null, .null => true
  | _, _ => false

/-- `{"type": "Literal", "value": v, "raw": …}` -/
def isLiteralObject (v : Value) : List (Str × Json) → Bool
  | [(_, .str tag), (_, j), _] => tag == cs!"Literal" && sameValue v j
  | _ => false

/-- `{"type": "Identifier", "name": n}`, or `BindingIdentifier` -/
def isNameObject (n : Str) : List (Str × Json) → Bool
  | [(_, .str tag), (_, .str m)] => (tag == cs!"Identifier" || tag == cs!"BindingIdentifier") && m == n
  | _ => false

/-- the strings of an array of strings, put together -/
def joinedStrings : List Json → Option Str
  | [] => some []
  | .str s :: more => (joinedStrings more).map (s ++ ·)
  | _ => none

/-- `{"type": "Regex", "pattern": p, "flags": [f1, f2, …]}` -/
def isRegexObject (p f : Str) : List (Str × Json) → Bool
  | [(_, .str tag), (_, .str q), (_, .arr flags)] => tag == cs!"Regex" && q == p && joinedStrings flags == some f
  | _ => false

/-- `{"type": "TemplateElement", "value": {"type": …, "cooked": c, "raw": r}, "tail": t}` -/
def isChunkObject (raw cooked : Str) (tail : Bool) : List (Str × Json) → Bool
  | [(_, .str tag), (_, .obj [_, (_, .str c), (_, .str r)]), (_, .bool t)] =>
    tag == cs!"TemplateElement" && c == cooked && r == raw && t == tail
  | _ => false

/-- How many words have the property. -/
def wordCount (p : Content → Bool) (ws : List Word) : Nat := (ws.filter fun w => p w.c).length

/-- a number or string with that value -/
def literalWith (v : Value) : Content → Bool
  | .number n => decide (Value.num n = v)
  | .string s _ => decide (Value.str s = v)
  | _ => false

/-- a name, a number or a string with that value (`null` for the word `null`) -/
def wordWith (v : Value) (c : Content) : Bool := decide (c.value? = some v)

/-- a name, or a number or string that is printed like it -/
def wordShown [Env] (n : Str) (c : Content) : Bool :=
  match c.value? with
  | some v => v.toString == n
  | none => false

/-- a part of a template -/
def chunkWith (raw cooked : Str) (tail : Bool) : Content → Bool
  | .template r c _ t => r == raw && c == cooked && t == tail
  | _ => false

/-- a regular expression -/
def regexWith (p f : Str) : Content → Bool
  | .regexp q g => q == p && g == f
  | _ => false

end Giron.Spec

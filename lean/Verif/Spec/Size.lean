import Verif.Model.Json
/-
How big a JSON value is.
-/
namespace Giron.Spec
open Giron

mutual

/-- The number of JSON values in a JSON value, itself included: every `null`, boolean, number, string, array and object counts.
(The names of members are no values.) -/
def count : Json → Nat
  | .null => 1
  | .bool _ => 1
  | .nat _ => 1
  | .num _ => 1
  | .str _ => 1
  | .arr items => 1 + countItems items
  | .obj members => 1 + countMembers members
termination_by structural j => j

/-- the same for the items of an array -/
def countItems : List Json → Nat
  | [] => 0
  | j :: more => count j + countItems more
termination_by structural l => l

/-- the same for the members of an object -/
def countMembers : List (Str × Json) → Nat
  | [] => 0
  | m :: more => countMember m + countMembers more
termination_by structural l => l

/-- the same for one member -/
def countMember : Str × Json → Nat
  | (_, j) => count j
termination_by structural m => m

end

end Giron.Spec

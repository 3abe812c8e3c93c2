import Verif.Proofs.Pos.Convert
/-
Every parser method keeps the invariant, and the spans of what it returns have the property.  (One instance per method.)
-/
namespace Giron
namespace Pos
open M Giron.Parser Layout
variable [Env] {I : Parser → Prop} {P : Pr} [F : Fair P] [W : World I P] {r : Rec}

variable {α : Type} [Sp α] {m : PM α}
instance [Ks I P m] {b} : Ks I P (withIn b m) := ks_withParams
instance [Ks I P m] {b} : Ks I P (withDefault b m) := ks_withParams
instance [Ks I P m] {b} : Ks I P (withReturn b m) := ks_withParams
instance [Ks I P m] {b} : Ks I P (withYield b m) := ks_withParams
instance [Ks I P m] {b} : Ks I P (withAwait b m) := ks_withParams
instance [Ks I P m] {a b} : Ks I P (withYieldAwait a b m) := ks_withParams

instance ks_consume {p : Punctuator} {g : LexGoal} : Ks I P (consume p g) := by
  unfold consume; ks

instance ks_consumeKw {p : Str} {g : LexGoal} : Ks I P (consumeKw p g) := by
  unfold consumeKw; ks

instance ks_consumeId {p : Str} {g : LexGoal} : Ks I P (consumeId p g) := by
  unfold consumeId; ks

instance ks_consumeSemicolon {g : LexGoal} : Ks I P (consumeSemicolon g) := by
  unfold consumeSemicolon; ks







end Pos
end Giron

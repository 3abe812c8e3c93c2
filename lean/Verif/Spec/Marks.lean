import Verif.Spec.Spells
/-
What it takes for giron to take more positions off its stack of positions than it has put there.
-/
namespace Giron
namespace Spec

/-- After the words `past` (the last one first), the word `w` is `new`, or it is `++` or `--` without a line break before it
(or giron has lost count of the lines). -/
def Endangers (past : List Word) (w : Word) : Prop :=
  w.c = .name cs!"new" ∨ ((w.c = .punct .inc ∨ w.c = .punct .dec) ∧ (w.nl = false ∨ LostCount past))

end Spec
end Giron

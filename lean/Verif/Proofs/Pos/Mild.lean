import Verif.Proofs.Pos.Convert
import Verif.Proofs.Pos.Any
/-
The errors of the conversions to patterns call no word unexpected.
-/
namespace Giron
namespace Pos
variable [Env]

/-- nothing is asked of spans -/
def mild : Pr := ⟨fun _ => True, fun _ => False, fun e => Plain e.errortype⟩

instance : Fair mild := ⟨fun _ _ h => h.elim, fun _ h => h.elim, fun _ _ _ h => h.plain⟩

omit [Env] in
theorem al_mild (n : Node) : Al mild n := ⟨allNode_any (fun _ => trivial) n⟩
omit [Env] in
theorem al_mildB (b : Binding) : Al mild b := ⟨allBinding_any (fun _ => trivial) b⟩

theorem toBindingPattern_plain {n : Node} {e : Error} (h : toBindingPattern n = .error (.err e)) : Plain e.errortype :=
  (kx_toBindingPattern (P := mild) n (al_mild n)).bad e h

theorem toAssignmentPattern_plain {n : Node} {e : Error} (h : toAssignmentPattern n = .error (.err e)) : Plain e.errortype :=
  (kx_toAssignmentPattern (P := mild) n (al_mild n)).bad e h

end Pos
end Giron

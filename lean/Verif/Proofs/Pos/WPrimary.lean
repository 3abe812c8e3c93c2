import Verif.Proofs.Pos.WClass
/-
Every parser method keeps the invariant, and the spans of what it returns have the property.  (One instance per method.)
-/
namespace Giron
namespace Pos
open M Giron.Parser Layout
variable [Env] {I : Parser → Prop} {P : Pr} [F : Fair P] [W : World I P] {r : Rec}

/-- the spans of the head of a property -/
def allPropHead (P : Pr) : PropHead → Prop
  | .done p => Al P p
  | .more .. => True
instance : Sp PropHead := ⟨allPropHead⟩
@[al] theorem al_done {p : ObjectExpressionProperty} : Al P (PropHead.done p) ↔ Al P p := by simp [al_def, Sp.all, allPropHead]
@[al] theorem al_more {k a g} : Al P (PropHead.more k a g) ↔ True := by simp [al_def, Sp.all, allPropHead]

instance ks_templateElementOf {t : Token}  : Ks I P (templateElementOf t) := by
  unfold templateElementOf; ks

instance ks_parseTemplateHead  : Ks I P (parseTemplateHead) := by
  unfold parseTemplateHead; ks

instance ks_parseTemplateElement  : Ks I P (parseTemplateElement) := by
  unfold parseTemplateElement; ks

theorem ks_templateLoopF [RecKs I P r] (n : Nat) : ∀ (x1 : Bool), Ks I P (templateLoopF r n x1) := by
  induction n with
  | zero => intro x1; exact ks_fuel
  | succ n ih => intro x1; unfold templateLoopF; ks

instance ks_templateLoopF' [RecKs I P r] {n : Nat} {x1 : Bool} : Ks I P (templateLoopF r n x1) := ks_templateLoopF n x1

instance ks_parseTemplateParts [RecKs I P r] : Ks I P (parseTemplateParts r) := by
  unfold parseTemplateParts; ks

instance ks_parseTemplateLiteral [RecKs I P r] : Ks I P (parseTemplateLiteral r) := by
  unfold parseTemplateLiteral; ks

instance ks_parseTaggedTemplate {tag : Node} [Al P tag] [RecKs I P r] : Ks I P (parseTaggedTemplate r tag) := by
  unfold parseTaggedTemplate; ks

instance ks_parseFunctionExpr {async : Bool} [RecKs I P r] : Ks I P (parseFunctionExpr r async) := by
  unfold parseFunctionExpr; ks

instance ks_argument [RecKs I P r] : Ks I P (argument r) := by
  unfold argument; ks

instance ks_parseArguments [RecKs I P r] : Ks I P (parseArguments r) := by
  unfold parseArguments; ks

instance ks_seqItem [RecKs I P r] : Ks I P (seqItem r) := by
  unfold seqItem; ks

instance ks_nodeToParam {isLast : Bool} {expr : Node} [Al P expr]  : Ks I P (nodeToParam isLast expr) := by
  unfold nodeToParam; ks

theorem ks_seqToArrowParams' : ∀ l : List Node, Al P l → Ks I P (seqToArrowParams l)
  | [], h => by unfold seqToArrowParams; ks
  | a :: l, h => by
    simp only [al] at h
    have := h.1
    have := ks_seqToArrowParams' l h.2
    unfold seqToArrowParams; ks
instance ks_seqToArrowParams {l : List Node} [h : Al P l] : Ks I P (seqToArrowParams l) := ks_seqToArrowParams' l h

instance ks_seqToArrow {seq : List Node} [Al P seq] [RecKs I P r] : Ks I P (seqToArrow r seq) := by
  unfold seqToArrow; ks

instance ks_parseSeqOrArrow [RecKs I P r] : Ks I P (parseSeqOrArrow r) := by
  unfold parseSeqOrArrow; ks

instance ks_arrayItem [RecKs I P r] : Ks I P (arrayItem r) := by
  unfold arrayItem; ks

instance ks_parseArrayLitExpr [RecKs I P r] : Ks I P (parseArrayLitExpr r) := by
  unfold parseArrayLitExpr; ks

instance ks_parseMethodDefinition {key : PropertyKey} [Al P key] {kind : PropKind} {async generator computed : Bool} [RecKs I P r] : Ks I P (parseMethodDefinition r key kind async generator computed) := by
  unfold parseMethodDefinition; ks

theorem ks_accessorHead [RecKs I P r] {C : Token → Prop} {n k} (hC : ∀ t, C t → lookTok t = true) :
    KsAt I P C (accessorHead r n k) := by
  unfold accessorHead
  refine ksAt_bind (ksAt_peek hC) fun u h => ?_
  ks

theorem ks_asyncHead [RecKs I P r] {C : Token → Prop} (hC : ∀ t, C t → lookTok t = true) :
    KsAt I P C (asyncHead r) := by
  unfold asyncHead
  refine ksAt_bind (ksAt_peek hC) fun u h => ?_
  ks

instance ks_propHead [RecKs I P r] : Ks I P (propHead r) := by
  unfold propHead
  refine KsAt.ks (ksAt_cur fun t _ => ?_)
  refine ksAt_ite (fun h => ks_accessorHead ?_) (fun _ => ?_)
  · intro u hu; rw [hu.2]; unfold lookTok; simp [h]
  refine ksAt_ite (fun h => ks_accessorHead ?_) (fun _ => ?_)
  · intro u hu; rw [hu.2]; unfold lookTok; simp [h]
  refine ksAt_ite (fun h => ks_asyncHead ?_) (fun _ => ?_)
  · intro u hu; rw [hu.2]; unfold lookTok; simp [h]
  refine Ks.at ?_
  ks

instance ks_propKey [RecKs I P r] : Ks I P (propKey r) := by
  unfold propKey; ks

instance ks_propRest {key : PropertyKey} [Al P key] {computed : Bool} {kind : PropKind} {async generator : Bool} [RecKs I P r] : Ks I P (propRest r key computed kind async generator) := by
  unfold propRest; ks

instance ks_objectItem [RecKs I P r] : Ks I P (objectItem r) := by
  unfold objectItem; ks

instance ks_parseObjectLitExpr [RecKs I P r] : Ks I P (parseObjectLitExpr r) := by
  unfold parseObjectLitExpr; ks

instance ks_identName {x0 : Node} [Al P x0]  : Ks I P (identName x0) := by
  unfold identName; ks

instance ks_parseAsyncPrimaryExpr [RecKs I P r] : Ks I P (parseAsyncPrimaryExpr r) := by
  unfold parseAsyncPrimaryExpr; ks

instance ks_parseLiteral  : Ks I P (parseLiteral) := by
  unfold parseLiteral; ks

instance ks_parseRegex  : Ks I P (parseRegex) := by
  unfold parseRegex; ks

instance ks_parseThis  : Ks I P (parseThis) := by
  unfold parseThis; ks

instance ks_parsePrimaryExpr [RecKs I P r] : Ks I P (parsePrimaryExpr r) := by
  unfold parsePrimaryExpr; ks

end Pos
end Giron

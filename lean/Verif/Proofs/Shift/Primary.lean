import Verif.Proofs.Shift.Names
/-
Two runs: classes, primary expressions, operators.
-/
namespace Giron
open M Spec

/-- the head of a property moved -/
def movePropHead (d ℓ : Nat) : Parser.PropHead → Parser.PropHead
  | .done p => .done (moveObjectExpressionProperty d ℓ p)
  | .more k a g => .more k a g

instance : Mv Parser.PropHead := ⟨movePropHead⟩

namespace Parser
variable [Env] {α β : Type} [Mv α] [Mv β] {μ : Mode} {r r' : Rec}

instance sim_parseComputedPropertyName [RecSim μ r r'] : Sim μ (parseComputedPropertyName r) (parseComputedPropertyName r') := by
  unfold parseComputedPropertyName; psim

instance sim_parsePropertyName [RecSim μ r r'] : Sim μ (parsePropertyName r) (parsePropertyName r') := by
  unfold parsePropertyName; psim

instance sim_classGetter [RecSim μ r r'] {isStatic} : Sim μ (classGetter r isStatic) (classGetter r' isStatic) := by
  unfold classGetter; psim

instance sim_classSetter [RecSim μ r r'] {isStatic} : Sim μ (classSetter r isStatic) (classSetter r' isStatic) := by
  unfold classSetter; psim

instance sim_classAsync [RecSim μ r r'] {isStatic} : Sim μ (classAsync r isStatic) (classAsync r' isStatic) := by
  unfold classAsync; psim

instance sim_classGenerator [RecSim μ r r'] {isStatic} : Sim μ (classGenerator r isStatic) (classGenerator r' isStatic) := by
  unfold classGenerator; psim

instance sim_classMethod [RecSim μ r r'] {isStatic} : Sim μ (classMethod r isStatic) (classMethod r' isStatic) := by
  unfold classMethod; psim

instance sim_classItem [RecSim μ r r'] : Sim μ (classItem r) (classItem r') := by
  unfold classItem; psim

instance sim_parseClassBody [RecSim μ r r'] : Sim μ (parseClassBody r) (parseClassBody r') := by
  unfold parseClassBody
  refine sim_bind inferInstance (fun l => sim_pure ?_)
  induction l with
  | nil => rfl
  | cons a l ih =>
    cases a with
    | none => exact ih
    | some a => exact congrArg (_ :: ·) ih

instance sim_parseClassTail [RecSim μ r r'] {id : Option Node} : Sim μ (parseClassTail r id) (parseClassTail r' (mv μ.d μ.ℓ id)) := by
  unfold parseClassTail; psim

instance sim_bindingIdNode {b : Binding} : Sim μ (bindingIdNode b) (bindingIdNode (mv μ.d μ.ℓ b)) := by
  cases b <;> first | exact sim_pure rfl | exact sim_panic

instance sim_parseClassDclr [RecSim μ r r'] : Sim μ (parseClassDclr r) (parseClassDclr r') := by
  unfold parseClassDclr; psim

instance sim_parseClassExpr [RecSim μ r r'] : Sim μ (parseClassExpr r) (parseClassExpr r') := by
  unfold parseClassExpr; psim

/-! ### primary expressions -/

instance sim_templateElementOf {t : Token} : Sim μ (templateElementOf t) (templateElementOf (mv μ.d μ.ℓ t)) := by
  unfold templateElementOf; psim

instance sim_parseTemplateHead : Sim μ (parseTemplateHead ) (parseTemplateHead ) := by
  unfold parseTemplateHead; psim

instance sim_parseTemplateElement : Sim μ (parseTemplateElement ) (parseTemplateElement ) := by
  unfold parseTemplateElement; psim

theorem sim_templateLoopF [RecSim μ r r'] (n : Nat) (b : Bool) : Sim μ (templateLoopF r n b) (templateLoopF r' n b) := by
  induction n generalizing b with
  | zero => exact sim_fuelL
  | succ n ih =>
    unfold templateLoopF
    psim1
    · psim
    · psim1; psim1
      exact sim_bind (ih _) (fun _ => sim_pure rfl)

instance sim_parseTemplateParts [RecSim μ r r'] : Sim μ (parseTemplateParts r) (parseTemplateParts r') := by
  unfold parseTemplateParts
  psim1; psim1
  refine sim_bind (sim_budget (fun n => sim_templateLoopF n _)) (fun _ => ?_)
  psim

instance sim_parseTemplateLiteral [RecSim μ r r'] : Sim μ (parseTemplateLiteral r) (parseTemplateLiteral r') := by
  unfold parseTemplateLiteral; psim

instance sim_parseTaggedTemplate [RecSim μ r r'] {n : Node} :
    Sim μ (parseTaggedTemplate r n) (parseTaggedTemplate r' (mv μ.d μ.ℓ n)) := by
  unfold parseTaggedTemplate; psim

instance sim_parseFunctionExpr [RecSim μ r r'] {a} : Sim μ (parseFunctionExpr r a) (parseFunctionExpr r' a) := by
  unfold parseFunctionExpr
  refine sim_bind (sim_when Iff.rfl inferInstance) (fun _ => ?_)
  psim
  refine sim_pure ?_
  simp only [mv, moveNode, moveOptNode_eq, moveListFunctionParameter_eq]
  rfl

instance sim_argument [RecSim μ r r'] : Sim μ (argument r) (argument r') := by
  unfold argument; psim

instance sim_parseArguments [RecSim μ r r'] : Sim μ (parseArguments r) (parseArguments r') := by
  unfold parseArguments; psim

instance sim_seqItem [RecSim μ r r'] : Sim μ (seqItem r) (seqItem r') := by
  unfold seqItem; psim

instance sim_nodeToParam {b : Bool} {n : Node} : Sim μ (nodeToParam b n) (nodeToParam b (mv μ.d μ.ℓ n)) := by
  unfold nodeToParam
  refine sim_bind (sim_ofExcept (toBindingPattern_mv n)) (fun p => ?_)
  cases p <;> first
    | exact sim_pure rfl
    | exact sim_pure (by mvsimp)
    | exact sim_errorCurrent
    | exact sim_ite Iff.rfl (fun _ => sim_pure rfl) (fun _ => sim_errorCurrent)

instance sim_seqToArrowParams {l : List Node} : Sim μ (seqToArrowParams l) (seqToArrowParams (mv μ.d μ.ℓ l)) := by
  induction l with
  | nil => exact sim_pure rfl
  | cons a l ih =>
    show Sim μ (nodeToParam l.isEmpty a >>= _) (nodeToParam (l.map _).isEmpty (mv μ.d μ.ℓ a) >>= _)
    have : (l.map (mv μ.d μ.ℓ)).isEmpty = l.isEmpty := by cases l <;> rfl
    rw [this]
    psim

instance sim_seqToArrow [RecSim μ r r'] {l : List Node} : Sim μ (seqToArrow r l) (seqToArrow r' (mv μ.d μ.ℓ l)) := by
  unfold seqToArrow; psim

theorem parenAtt_mv (l : List Node) : parenAtt (l.map (moveNode d ℓ)) = parenAtt l := by
  match l with
  | [] => rfl
  | [e] => exact assignTargetType_mv e
  | _ :: _ :: _ => rfl

instance sim_parseSeqOrArrow [RecSim μ r r'] : Sim μ (parseSeqOrArrow r) (parseSeqOrArrow r') := by
  unfold parseSeqOrArrow
  psim1; psim1; psim1
  rename_i items
  psim1; psim1
  rename_i t
  have e1 : (mv μ.d μ.ℓ items).map Prod.fst = mv μ.d μ.ℓ (items.map Prod.fst) := by
    simp [mv]
  have e2 : (mv μ.d μ.ℓ items).any Prod.snd = items.any Prod.snd := by
    show (items.map _).any _ = _
    simp [List.any_map, mv, Function.comp_def]
  rw [e1]
  refine sim_ite ?_ (fun _ => inferInstance) (fun _ => ?_)
  · rw [e2]; rfl
  · psim1
    refine sim_pure ?_
    simp only [mv, moveNode, moveListNode_eq, parenAtt_mv]

instance sim_arrayItem [RecSim μ r r'] : Sim μ (arrayItem r) (arrayItem r') := by
  unfold arrayItem; psim

instance sim_parseArrayLitExpr [RecSim μ r r'] : Sim μ (parseArrayLitExpr r) (parseArrayLitExpr r') := by
  unfold parseArrayLitExpr; psim

instance sim_parseMethodDefinition [RecSim μ r r'] {key : PropertyKey} {kind a g c} :
    Sim μ (parseMethodDefinition r key kind a g c) (parseMethodDefinition r' (mv μ.d μ.ℓ key) kind a g c) := by
  unfold parseMethodDefinition
  cases kind
  · dsimp only
    psim1; psim1
    refine sim_pure ?_
    cases a <;> mvsimp
  · dsimp only; psim
  · dsimp only; psim

instance sim_peekToken : Sim μ peekToken peekToken := by
  unfold peekToken
  refine sim_bind (sim_liftScanner (h := Scanner.sh_saveState) (fun a b h => h.symm)) (fun _ => ?_)
  refine sim_bind (sim_liftScanner (fun a b h => h)) (fun t => ?_)
  refine sim_bind ?_ (fun _ => sim_pure rfl)
  constructor
  intro s s' hs
  cases hs with
  | mk hm =>
    have := Scanner.sh_restoreState (t := t) hm
    unfold liftScanner
    dsimp only
    cases hx : Scanner.restoreState t s.scanner with
    | error f =>
      rw [hx] at this
      replace this : Scanner.restoreState (mv μ.d μ.ℓ t) _ = _ := this
      rw [this]
      exact Out.err rfl
    | ok r =>
      rw [hx] at this
      obtain ⟨b, t', e, hv', ht⟩ := this
      replace e : Scanner.restoreState (mv μ.d μ.ℓ t) _ = _ := e
      rw [e]
      exact Out.ok (t := { s with scanner := r.2 }) (.mk ht) rfl rfl rfl

instance sim_accessorHead [RecSim μ r r'] {n k} : Sim μ (accessorHead r n k) (accessorHead r' n k) := by
  unfold accessorHead; psim

instance sim_asyncHead [RecSim μ r r'] : Sim μ (asyncHead r) (asyncHead r') := by
  unfold asyncHead; psim

instance sim_propHead [RecSim μ r r'] : Sim μ (propHead r) (propHead r') := by
  unfold propHead; psim

instance sim_propKey [RecSim μ r r'] : Sim μ (propKey r) (propKey r') := by
  unfold propKey; psim

instance sim_propRest [RecSim μ r r'] {key : PropertyKey} {c kind a g} :
    Sim μ (propRest r key c kind a g) (propRest r' (mv μ.d μ.ℓ key) c kind a g) := by
  unfold propRest; psim

instance sim_objectItem [RecSim μ r r'] : Sim μ (objectItem r) (objectItem r') := by
  unfold objectItem
  psim1; psim1; psim1
  · psim
  · refine sim_bind inferInstance (fun h => ?_)
    cases h with
    | done p => exact sim_pure rfl
    | more k a g =>
      show Sim μ (propKey r >>= _) (propKey r' >>= _)
      refine sim_bind inferInstance (fun p => ?_)
      obtain ⟨key, c⟩ := p
      show Sim μ (propRest r key c k a g >>= _) (propRest r' (mv μ.d μ.ℓ key) c k a g >>= _)
      psim

instance sim_parseObjectLitExpr [RecSim μ r r'] : Sim μ (parseObjectLitExpr r) (parseObjectLitExpr r') := by
  unfold parseObjectLitExpr; psim

instance sim_identName {n : Node} : Sim μ (identName n) (identName (mv μ.d μ.ℓ n)) := by
  cases n <;> first | exact sim_pure rfl | exact sim_panic

instance sim_parseAsyncPrimaryExpr [RecSim μ r r'] : Sim μ (parseAsyncPrimaryExpr r) (parseAsyncPrimaryExpr r') := by
  unfold parseAsyncPrimaryExpr; psim

instance sim_parseLiteral : Sim μ (parseLiteral ) (parseLiteral ) := by
  unfold parseLiteral; psim

instance sim_parseRegex : Sim μ (parseRegex ) (parseRegex ) := by
  unfold parseRegex; psim

instance sim_parseThis : Sim μ (parseThis ) (parseThis ) := by
  unfold parseThis; psim

instance sim_parsePrimaryExpr [RecSim μ r r'] : Sim μ (parsePrimaryExpr r) (parsePrimaryExpr r') := by
  unfold parsePrimaryExpr; psim

end Parser
end Giron

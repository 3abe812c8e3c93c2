import Verif.Proofs.Layout.Names
/-
Texts made of the same words: bodies, patterns.
-/
namespace Giron
open M Spec

namespace Layout
open Parser
variable [Env] {α β γ : Type} [Er α] [Er β] [Er γ] {ι : Type} {r : Rec} {r' : ι → Rec}

instance sim_commaExpr [RecSim r r'] : Sim (ι := ι) (commaExpr r) (fun i => commaExpr (r' i)) := by unfold commaExpr; lsim

instance sim_parseExpression [RecSim r r'] : Sim (ι := ι) (parseExpression r) (fun i => parseExpression (r' i)) := by
  unfold parseExpression; lsim
  · next a b _ _ _ h1 _ _ _ _ l l' h _ _ _ _ _ =>
    have e := fun i => congrArg List.length (Rel.out (self := h) i)
    simp only [er, List.length_map] at e
    refine sim_pure fun i => ?_
    simp [er, bareNode, bareListNode_eq, *]
    simp [← List.length_eq_zero_iff, e i]
  · lsim

omit [Env] in
theorem isUseStrict_rel {n : Node} {n' : ι → Node} [h : Rel n n'] (i : ι) : isUseStrictLiteral n = true ↔ isUseStrictLiteral (n' i) = true := by
  rw [← isUseStrictLiteral_bare n, ← isUseStrictLiteral_bare (n' i), show bareNode n = bareNode (n' i) from h.out i]

instance sim_parseDirective [RecSim r r'] : Sim (ι := ι) (parseDirective r) (fun i => parseDirective (r' i)) := by
  unfold parseDirective
  lsim1; lsim1
  refine sim_bindId (sim_when isUseStrict_rel ?_) (fun _ => ?_)
  all_goals lsim

instance sim_parseDirectivePrologues [RecSim r r'] : Sim (ι := ι) (parseDirectivePrologues r) (fun i => parseDirectivePrologues (r' i)) :=
  sim_budget (sim_loop rfl (fun _ => rfl) fun n ih n' => by
    have := ih n'
    unfold directiveProloguesF; lsim)

instance sim_parseStatementList [RecSim r r'] : Sim (ι := ι) (parseStatementList r) (fun i => parseStatementList (r' i)) := by
  unfold parseStatementList; lsim

instance sim_parseFunctionBodyBlock [RecSim r r'] : Sim (ι := ι) (parseFunctionBodyBlock r) (fun i => parseFunctionBodyBlock (r' i)) := by
  unfold parseFunctionBodyBlock; lsim

instance sim_parseFunctionBody [RecSim r r'] : Sim (ι := ι) (parseFunctionBody r) (fun i => parseFunctionBody (r' i)) := by
  unfold parseFunctionBody; lsim

instance sim_parseArrowBody [RecSim r r'] : Sim (ι := ι) (parseArrowBody r) (fun i => parseArrowBody (r' i)) := by
  unfold parseArrowBody; lsim

instance sim_commaUnless {p} : Sim (ι := ι) (commaUnless p) (fun _ => commaUnless p) := by unfold commaUnless; lsim

/-! ### patterns -/

instance sim_valueToKey {v : ValueOrExpr} {v' : ι → ValueOrExpr} [h : Rel v v'] {b sp} {sp' : ι → Span} :
    Sim (ι := ι) (valueToKey v b sp) (fun i => valueToKey (v' i) b (sp' i)) := by
  cases v with
  | expr e =>
    unfold valueToKey
    cases b with
    | false =>
      refine sim_eq (m := M.panic (.unreachableArm 2965)) (m'' := fun _ => M.panic (.unreachableArm 2965)) inferInstance fun i => ?_
      have := h.out i
      cases hv : v' i with
      | value w => rw [hv] at this; cases this
      | expr e' => rfl
    | true =>
      refine sim_pure' (a := PropertyKey.expression e) fun i => ?_
      have := h.out i
      cases hv : v' i with
      | value w => rw [hv] at this; cases this
      | expr e' =>
        rw [hv] at this
        refine ⟨_, rfl, ?_⟩
        simpa [er, barePropertyKey, bareVoE] using this
  | value v =>
    have e : v' = fun _ => .value v := funext fun i => by
      have := h.out i
      cases hv : v' i with
      | value w => rw [hv] at this; exact this.symm
      | expr e' => rw [hv] at this; cases this
    subst e
    unfold valueToKey
    dsimp only
    lsim

instance sim_objPatName [RecSim r r'] : Sim (ι := ι) (objPatName r) (fun i => objPatName (r' i)) := by unfold objPatName; lsim

instance sim_shorthandName {v : ValueOrExpr} {v' : ι → ValueOrExpr} [h : Rel v v'] :
    Sim (ι := ι) (shorthandName v) (fun i => shorthandName (v' i)) := by
  cases v with
  | expr e =>
    refine sim_eq (m'' := fun _ => unexpectedCurrent) (m := unexpectedCurrent) inferInstance fun i => ?_
    have := h.out i
    cases hv : v' i with
    | value w => rw [hv] at this; cases this
    | expr e' => rfl
  | value v =>
    have e : v' = fun _ => .value v := funext fun i => by
      have := h.out i
      cases hv : v' i with
      | value w => rw [hv] at this; exact this.symm
      | expr e' => rw [hv] at this; cases this
    subst e
    cases v <;> first | exact sim_unexpectedCurrent | exact sim_pure fun _ => rfl

instance sim_bindingToPropertyValue {l c} {l' c' : ι → Nat} {b : Binding} {b' : ι → Binding} [h : Rel b b'] :
    Sim (bindingToPropertyValue l c b) (fun i => bindingToPropertyValue (l' i) (c' i) (b' i)) := by
  cases b <;> first
    | (refine sim_failed (fun _ h => by cases h; infer_instance) fun i => ?_
       have := h.out i
       cases hb : b' i <;> rw [hb] at this <;> first
         | (cases this; done)
         | exact ⟨_, rfl, rfl⟩)
    | (refine sim_pure' fun i => ?_
       have := h.out i
       cases hb : b' i <;> rw [hb] at this <;> first
         | (cases this; done)
         | (refine ⟨_, rfl, ?_⟩; simp [er, bareBinding, bareHolesArrayPatternElement_eq, bareListObjectPatternProperty_eq] at this; ersimp))

instance sim_objPatValue [RecSim r r'] : Sim (ι := ι) (objPatValue r) (fun i => objPatValue (r' i)) := by unfold objPatValue; lsim

omit [Env] in
theorem keyComputed_bare (k : PropertyKey) :
    (match barePropertyKey k with | .expression _ => true | _ => false) = match k with | .expression _ => true | _ => false := by
  cases k <;> rfl

instance sim_objPatItem [RecSim r r'] : Sim (ι := ι) (objPatItem r) (fun i => objPatItem (r' i)) := by
  unfold objPatItem; lsim
  · next h _ _ h' _ =>
    refine sim_pure fun i => ?_
    have e := h i
    have := congrArg (fun k => match k with | PropertyKey.expression _ => true | _ => false) e
    simp only [keyComputed_bare] at this
    ersimp
    exact this.symm
  all_goals lsim

instance sim_parseObjBindingPat [RecSim r r'] : Sim (ι := ι) (parseObjBindingPat r) (fun i => parseObjBindingPat (r' i)) := by
  unfold parseObjBindingPat; lsim

instance sim_bindingToElement {l c} {l' c' : ι → Nat} {b : Binding} {b' : ι → Binding} [h : Rel b b'] :
    Sim (bindingToElement l c b) (fun i => bindingToElement (l' i) (c' i) (b' i)) := by
  cases b <;> first
    | (refine sim_failed (fun _ h => by cases h; infer_instance) fun i => ?_
       have := h.out i
       cases hb : b' i <;> rw [hb] at this <;> first
         | (cases this; done)
         | exact ⟨_, rfl, rfl⟩)
    | (refine sim_pure' fun i => ?_
       have := h.out i
       cases hb : b' i <;> rw [hb] at this <;> first
         | (cases this; done)
         | (refine ⟨_, rfl, ?_⟩; simp [er, bareBinding, bareHolesArrayPatternElement_eq, bareListObjectPatternProperty_eq] at this; ersimp))

instance sim_arrPatItem [RecSim r r'] : Sim (ι := ι) (arrPatItem r) (fun i => arrPatItem (r' i)) := by unfold arrPatItem; lsim

instance sim_parseArrBindingPat [RecSim r r'] : Sim (ι := ι) (parseArrBindingPat r) (fun i => parseArrBindingPat (r' i)) := by
  unfold parseArrBindingPat; lsim

instance sim_parseBindingIdOrPat [RecSim r r'] : Sim (ι := ι) (parseBindingIdOrPat r) (fun i => parseBindingIdOrPat (r' i)) := by
  unfold parseBindingIdOrPat; lsim

instance sim_bindingToParam {l c} {l' c' : ι → Nat} {b : Binding} {b' : ι → Binding} [h : Rel b b'] :
    Sim (bindingToParam l c b) (fun i => bindingToParam (l' i) (c' i) (b' i)) := by
  cases b <;> first
    | (refine sim_failed (fun _ h => by cases h; infer_instance) fun i => ?_
       have := h.out i
       cases hb : b' i <;> rw [hb] at this <;> first
         | (cases this; done)
         | exact ⟨_, rfl, rfl⟩)
    | (refine sim_pure' fun i => ?_
       have := h.out i
       cases hb : b' i <;> rw [hb] at this <;> first
         | (cases this; done)
         | (refine ⟨_, rfl, ?_⟩; simp [er, bareBinding, bareHolesArrayPatternElement_eq, bareListObjectPatternProperty_eq] at this; ersimp))

instance sim_formalParam [RecSim r r'] : Sim (ι := ι) (formalParam r) (fun i => formalParam (r' i)) := by unfold formalParam; lsim

instance sim_parseFormalParams [RecSim r r'] : Sim (ι := ι) (parseFormalParams r) (fun i => parseFormalParams (r' i)) := by
  unfold parseFormalParams; lsim

instance sim_parseParamsAndBody [RecSim r r'] {g a} : Sim (ι := ι) (parseParamsAndBody r g a) (fun i => parseParamsAndBody (r' i) g a) := by
  unfold parseParamsAndBody; lsim

end Layout
end Giron

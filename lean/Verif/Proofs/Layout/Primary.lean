import Verif.Proofs.Layout.Patterns
import Verif.Proofs.Pos.Mild
/-
Texts made of the same words: classes, primary expressions.
-/
namespace Giron
open M Spec

/-- the head of a property without positions -/
def barePropHead : Parser.PropHead → Parser.PropHead
  | .done p => .done (bareObjectExpressionProperty p)
  | .more k a g => .more k a g

instance : Er Parser.PropHead := ⟨barePropHead⟩

namespace Layout
open Parser
variable [Env] {α β γ : Type} [Er α] [Er β] [Er γ] {ι : Type} {r : Rec} {r' : ι → Rec} {C : Token → Prop}

instance sim_parseComputedPropertyName [RecSim r r'] : Sim (ι := ι) (parseComputedPropertyName r) (fun i => parseComputedPropertyName (r' i)) := by
  unfold parseComputedPropertyName; lsim

instance sim_parsePropertyName [RecSim r r'] : Sim (ι := ι) (parsePropertyName r) (fun i => parsePropertyName (r' i)) := by
  unfold parsePropertyName; lsim

instance sim_classGetter [RecSim r r'] {isStatic} : Sim (ι := ι) (classGetter r isStatic) (fun i => classGetter (r' i) isStatic) := by
  unfold classGetter; lsim

instance sim_classSetter [RecSim r r'] {isStatic} : Sim (ι := ι) (classSetter r isStatic) (fun i => classSetter (r' i) isStatic) := by
  unfold classSetter; lsim

instance sim_classAsync [RecSim r r'] {isStatic} : Sim (ι := ι) (classAsync r isStatic) (fun i => classAsync (r' i) isStatic) := by
  unfold classAsync; lsim

instance sim_classGenerator [RecSim r r'] {isStatic} : Sim (ι := ι) (classGenerator r isStatic) (fun i => classGenerator (r' i) isStatic) := by
  unfold classGenerator; lsim

omit [Env] in
theorem methodKind_bare (k : PropertyKey) : methodKind (barePropertyKey k) = methodKind k := by cases k <;> rfl

instance sim_classMethod [RecSim r r'] {isStatic} : Sim (ι := ι) (classMethod r isStatic) (fun i => classMethod (r' i) isStatic) := by
  unfold classMethod; lsim
  · next h _ _ _ _ _ _ _ _ =>
    refine sim_pure fun i => ?_
    have := methodKind_bare
    have e := congrArg methodKind (h i)
    simp only [er, methodKind_bare] at e
    ersimp

instance sim_classItem [RecSim r r'] : Sim (ι := ι) (classItem r) (fun i => classItem (r' i)) := by
  unfold classItem; lsim

instance sim_parseClassBody [RecSim r r'] : Sim (ι := ι) (parseClassBody r) (fun i => parseClassBody (r' i)) := by
  unfold parseClassBody
  refine sim_bind inferInstance (fun l l' h => sim_pure fun i => ?_)
  have h := h.out i
  generalize l' i = m at h
  have key : ∀ l : List (Option MethodDefinition), (er l).filterMap id = er (l.filterMap id) := by
    intro l
    induction l with
    | nil => rfl
    | cons a l ih =>
      cases a with
      | none => exact ih
      | some a => exact congrArg (_ :: ·) ih
  rw [← key, h, key]

instance sim_parseClassTail [RecSim r r'] {id : Option Node} {id' : ι → Option Node} [h : Rel id id'] : Sim (parseClassTail r id) (fun i => parseClassTail (r' i) (id' i)) := by
  relfact h
  unfold parseClassTail; lsim

instance sim_bindingIdNode {b : Binding} {b' : ι → Binding} [h : Rel b b'] : Sim (bindingIdNode b) (fun i => bindingIdNode (b' i)) := by
  cases b <;> first
    | (refine sim_failed (f := .panic _) (fun _ h => by cases h) fun i => ?_
       have := h.out i
       cases hb : b' i <;> rw [hb] at this <;> first
         | (cases this; done)
         | exact ⟨_, rfl, rfl⟩)
    | (refine sim_pure' fun i => ?_
       have := h.out i
       cases hb : b' i <;> rw [hb] at this <;> first
         | (cases this; done)
         | (refine ⟨_, rfl, ?_⟩; simp [er, bareBinding] at this; ersimp))

instance sim_parseClassDclr [RecSim r r'] : Sim (ι := ι) (parseClassDclr r) (fun i => parseClassDclr (r' i)) := by
  unfold parseClassDclr; lsim

instance sim_parseClassExpr [RecSim r r'] : Sim (ι := ι) (parseClassExpr r) (fun i => parseClassExpr (r' i)) := by
  unfold parseClassExpr; lsim

/-! ### primary expressions -/

instance sim_templateElementOf {t : Token} {p : ι → Place} : Sim (templateElementOf t) (fun i => templateElementOf (t.at (p i))) := by
  unfold templateElementOf; lsim

instance sim_parseTemplateHead : Sim (ι := ι) (parseTemplateHead ) (fun _ => parseTemplateHead) := by
  unfold parseTemplateHead; lsim

instance sim_parseTemplateElement : Sim (ι := ι) (parseTemplateElement ) (fun _ => parseTemplateElement) := by
  unfold parseTemplateElement; lsim

theorem sim_templateLoopF [RecSim r r'] (n : Nat) (n' : ι → Nat) (b : Bool) :
    Sim (templateLoopF r n b) (fun i => templateLoopF (r' i) (n' i) b) := by
  induction n generalizing n' b with
  | zero => exact sim_fuelled
  | succ n ih =>
    refine sim_fuel (m'' := fun i => templateLoopF (r' i) (n' i - 1 + 1) b) ?_ (fun i => ?_)
    · have := fun b => ih (fun i => n' i - 1) b
      unfold templateLoopF
      lsim
    · rcases Nat.eq_zero_or_pos (n' i) with h | h
      · rw [h]; exact .inr rfl
      · rw [Nat.sub_add_cancel h]; exact .inl rfl

instance sim_parseTemplateParts [RecSim r r'] : Sim (ι := ι) (parseTemplateParts r) (fun i => parseTemplateParts (r' i)) := by
  unfold parseTemplateParts
  lsim1; lsim1
  refine sim_bindIdPair (sim_budget (F := fun n => templateLoopF r n _) (F' := fun i n => templateLoopF (r' i) n _) (fun n n' => sim_templateLoopF n n' _)) (fun _ _ _ h => ?_)
  relfact h
  dsimp only
  lsim

instance sim_parseTemplateLiteral [RecSim r r'] : Sim (ι := ι) (parseTemplateLiteral r) (fun i => parseTemplateLiteral (r' i)) := by
  unfold parseTemplateLiteral; lsim

instance sim_parseTaggedTemplate [RecSim r r'] {n : Node} {n' : ι → Node} [h : Rel n n'] :
    Sim (parseTaggedTemplate r n) (fun i => parseTaggedTemplate (r' i) (n' i)) := by
  relfact h
  unfold parseTaggedTemplate; lsim

instance sim_parseFunctionExpr [RecSim r r'] {a} : Sim (ι := ι) (parseFunctionExpr r a) (fun i => parseFunctionExpr (r' i) a) := by
  unfold parseFunctionExpr
  lsim
  refine sim_pure' fun i => ⟨Node.functionExpression _ _ _ _ _ _ _ _, rfl, ?_⟩
  simp [er, bareNode, *, bareOptNode_eq, bareListFunctionParameter_eq, at_tokentype, at_matchesStr]
  rfl
instance sim_argument [RecSim r r'] : Sim (ι := ι) (argument r) (fun i => argument (r' i)) := by
  unfold argument; lsim

instance sim_parseArguments [RecSim r r'] : Sim (ι := ι) (parseArguments r) (fun i => parseArguments (r' i)) := by
  unfold parseArguments; lsim

instance sim_seqItem [RecSim r r'] : Sim (ι := ι) (seqItem r) (fun i => seqItem (r' i)) := by
  unfold seqItem; lsim

instance sim_paramOf {b : Bool} {n : Node} {n' : ι → Node} [h : Rel n n'] :
    Sim (nodeToParam b n) (fun i => nodeToParam b (n' i)) := by
  unfold nodeToParam
  refine sim_bind (sim_ofExcept (fun _ => Pos.toBindingPattern_plain) fun i => ?_) (fun p p' h => ?_)
  · rw [← toBindingPattern_er, ← toBindingPattern_er, show bareNode n = bareNode (n' i) from h.out i]
  · cases p <;> first
      | (refine sim_eq (m'' := fun _ => errorCurrent .invalidDestructuringTarget) (m := errorCurrent _) inferInstance fun i => ?_
         have := h.out i
         cases hb : p' i <;> rw [hb] at this <;> first
           | (cases this; done)
           | rfl)
      | (refine sim_pure' fun i => ?_
         have := h.out i
         cases hb : p' i <;> rw [hb] at this <;> first
           | (cases this; done)
           | (refine ⟨_, rfl, ?_⟩; simp [er, bareNode, bareHolesArrayPatternElement_eq, bareListObjectPatternProperty_eq] at this; ersimp))
      | (cases b
         · refine sim_eq (m'' := fun _ => errorCurrent .paramAfterRest) (m := errorCurrent _) inferInstance fun i => ?_
           have := h.out i
           cases hb : p' i <;> rw [hb] at this <;> first
             | (cases this; done)
             | rfl
         · refine sim_pure' (m' := fun i => match p' i with | _ => _) fun i => ?_
           have := h.out i
           cases hb : p' i <;> rw [hb] at this <;> first
             | (cases this; done)
             | (refine ⟨_, rfl, ?_⟩; simp [er, bareNode] at this; ersimp))

instance sim_seqToArrowParams {l : List Node} {l' : ι → List Node} [h : Rel l l'] :
    Sim (seqToArrowParams l) (fun i => seqToArrowParams (l' i)) := by
  induction l generalizing l' with
  | nil =>
    have : l' = fun _ => [] := funext fun i => by
      have := h.out i
      cases hl : l' i with
      | nil => rfl
      | cons a l => rw [hl] at this; cases this
    rw [this]
    exact sim_pure fun _ => rfl
  | cons a l ih =>
    have : ∃ (a' : ι → Node) (m' : ι → List Node), l' = fun i => a' i :: m' i := by
      have key : ∀ i, ∃ x : Node × List Node, l' i = x.1 :: x.2 := by
        intro i
        have := h.out i
        cases hl : l' i with
        | nil => rw [hl] at this; cases this
        | cons b m => exact ⟨(b, m), rfl⟩
      exact ⟨fun i => (Classical.choose (key i)).1, fun i => (Classical.choose (key i)).2,
        funext fun i => Classical.choose_spec (key i)⟩
    obtain ⟨a', m', rfl⟩ := this
    have ha : Rel a a' := ⟨fun i => (List.cons.inj (h.out i)).1⟩
    have hm : Rel l m' := ⟨fun i => (List.cons.inj (h.out i)).2⟩
    have := ih (l' := m')
    have e : ∀ i, (m' i).isEmpty = l.isEmpty := fun i => by
      have := hm.out i
      generalize m' i = x at this
      cases x <;> cases l <;> first | rfl | (cases this; done)
    show Sim (nodeToParam l.isEmpty a >>= _) (fun i => nodeToParam (m' i).isEmpty (a' i) >>= _)
    simp only [e]
    lsim

instance sim_seqToArrow [RecSim r r'] {l : List Node} {l' : ι → List Node} [h : Rel l l'] :
    Sim (seqToArrow r l) (fun i => seqToArrow (r' i) (l' i)) := by
  unfold seqToArrow; lsim

omit [Env] in
theorem parenAtt_bare (l : List Node) : parenAtt (l.map bareNode) = parenAtt l := by
  match l with
  | [] => rfl
  | [e] => exact assignTargetType_er e
  | _ :: _ :: _ => rfl

instance sim_parseSeqOrArrow [RecSim r r'] : Sim (ι := ι) (parseSeqOrArrow r) (fun i => parseSeqOrArrow (r' i)) := by
  unfold parseSeqOrArrow
  lsim1; lsim1
  refine sim_bind inferInstance (fun l l' h => ?_)
  have e1 : ∀ l : List (Node × Bool), (er l).map Prod.fst = er (l.map Prod.fst) := fun l => by simp [er]
  have e2 : ∀ l : List (Node × Bool), (er l).any Prod.snd = l.any Prod.snd := fun l => by
    simp [er, List.any_map, Function.comp_def]
  have e3 : Rel (l.map Prod.fst) (fun i => (l' i).map Prod.fst) := ⟨fun i => by rw [← e1, h.out i, e1]⟩
  have e4 : ∀ i, (l' i).any Prod.snd = l.any Prod.snd := fun i => by rw [← e2, ← h.out i, e2]
  have e5 : ∀ i, parenAtt ((l' i).map Prod.fst) = parenAtt (l.map Prod.fst) := fun i => by
    rw [← parenAtt_bare, ← parenAtt_bare (l.map Prod.fst)]
    exact congrArg parenAtt (e3.out i).symm
  simp only [e4, e5]
  relfact e3
  lsim

instance sim_arrayItem [RecSim r r'] : Sim (ι := ι) (arrayItem r) (fun i => arrayItem (r' i)) := by
  unfold arrayItem; lsim

instance sim_parseArrayLitExpr [RecSim r r'] : Sim (ι := ι) (parseArrayLitExpr r) (fun i => parseArrayLitExpr (r' i)) := by
  unfold parseArrayLitExpr; lsim

instance sim_parseMethodDefinition [RecSim r r'] {key : PropertyKey} {key' : ι → PropertyKey} [h : Rel key key'] {kind a g c} :
    Sim (parseMethodDefinition r key kind a g c) (fun i => parseMethodDefinition (r' i) (key' i) kind a g c) := by
  relfact h
  unfold parseMethodDefinition
  cases kind
  · dsimp only
    cases a <;> lsim
  · dsimp only; lsim
  · dsimp only; lsim

macro "phsimp" : tactic => `(tactic| (refine sim_pure fun i => ?_; simp [er, barePropHead, *]))

theorem sim_accessorHead [RecSim r r'] {n k} (hC : ∀ t, C t → lookTok t = true) :
    SimAt C (accessorHead r n k) (fun i => accessorHead (r' i) n k) := by
  unfold accessorHead
  refine simAt_bind (simAt_peek hC) fun u u' h => ?_
  obtain ⟨p, rfl⟩ := rel_tok h
  lsim
  all_goals phsimp

theorem sim_asyncHead [RecSim r r'] (hC : ∀ t, C t → lookTok t = true) :
    SimAt C (asyncHead r) (fun i => asyncHead (r' i)) := by
  unfold asyncHead
  refine simAt_bind (simAt_peek hC) fun u u' h => ?_
  obtain ⟨p, rfl⟩ := rel_tok h
  lsim
  all_goals phsimp

instance sim_propHead [RecSim r r'] : Sim (ι := ι) (propHead r) (fun i => propHead (r' i)) := by
  unfold propHead
  refine SimAt.sim (simAt_cur fun t p => ?_)
  refine simAt_ite (fun _ => Iff.rfl) (fun h => sim_accessorHead ?_) (fun _ => ?_)
  · intro u hu; rw [hu.2]; unfold lookTok; simp [h]
  refine simAt_ite (fun _ => Iff.rfl) (fun h => sim_accessorHead ?_) (fun _ => ?_)
  · intro u hu; rw [hu.2]; unfold lookTok; simp [h]
  refine simAt_ite (fun _ => Iff.rfl) (fun h => sim_asyncHead ?_) (fun _ => ?_)
  · intro u hu; rw [hu.2]; unfold lookTok; simp [h]
  refine Sim.at ?_
  lsim
  all_goals phsimp

instance sim_propKey [RecSim r r'] : Sim (ι := ι) (propKey r) (fun i => propKey (r' i)) := by
  unfold propKey; lsim

instance sim_propRest [RecSim r r'] {key : PropertyKey} {key' : ι → PropertyKey} [h : Rel key key'] {c kind a g} :
    Sim (propRest r key c kind a g) (fun i => propRest (r' i) (key' i) c kind a g) := by
  relfact h
  unfold propRest; lsim

instance sim_objectItem [RecSim r r'] : Sim (ι := ι) (objectItem r) (fun i => objectItem (r' i)) := by
  unfold objectItem
  lsim1; lsim1; lsim1
  · lsim
  · refine sim_bind inferInstance (fun h h' hr => ?_)
    cases h with
    | done p =>
      refine sim_pure' (a := p) fun i => ?_
      have := hr.out i
      cases hh : h' i with
      | done q => rw [hh] at this; exact ⟨_, rfl, by simpa [er, barePropHead] using this⟩
      | more _ _ _ => rw [hh] at this; cases this
    | more k a g =>
      have : h' = fun _ => .more k a g := funext fun i => by
        have := hr.out i
        cases hh : h' i with
        | done q => rw [hh] at this; cases this
        | more _ _ _ => rw [hh] at this; cases this; rfl
      subst this
      dsimp only
      lsim

instance sim_parseObjectLitExpr [RecSim r r'] : Sim (ι := ι) (parseObjectLitExpr r) (fun i => parseObjectLitExpr (r' i)) := by
  unfold parseObjectLitExpr; lsim

theorem identName_bare (n : Node) : identName (bareNode n) = identName n := by cases n <;> rfl

instance sim_identName {n : Node} {n' : ι → Node} [h : Rel n n'] : Sim (identName n) (fun i => identName (n' i)) := by
  refine sim_eq (m'' := fun _ => identName n) ?_ fun i => by
    rw [← identName_bare (n' i), ← identName_bare n, show bareNode n = bareNode (n' i) from h.out i]
  cases n <;> first
    | exact sim_panic
    | exact sim_pure fun _ => rfl

instance sim_parseAsyncPrimaryExpr [RecSim r r'] : Sim (ι := ι) (parseAsyncPrimaryExpr r) (fun i => parseAsyncPrimaryExpr (r' i)) := by
  unfold parseAsyncPrimaryExpr; lsim

instance sim_parseLiteral : Sim (ι := ι) (parseLiteral ) (fun _ => parseLiteral) := by
  unfold parseLiteral; lsim

instance sim_parseRegex : Sim (ι := ι) (parseRegex ) (fun _ => parseRegex) := by
  unfold parseRegex; lsim

instance sim_parseThis : Sim (ι := ι) (parseThis ) (fun _ => parseThis) := by
  unfold parseThis; lsim

instance sim_parsePrimaryExpr [RecSim r r'] : Sim (ι := ι) (parsePrimaryExpr r) (fun i => parsePrimaryExpr (r' i)) := by
  unfold parsePrimaryExpr; lsim

end Layout
end Giron


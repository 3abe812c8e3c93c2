import Verif.Proofs.Ease.Sim
/-
Strict mode only rejects: every parser method.
-/
namespace Giron
open M Spec

namespace Ease
open Parser
variable [Env] {α β γ : Type} [Lk α] [Lk β] [Lk γ] {r : Rec}

instance up_untilPunc {p} {m m' : PM α} [Up m m'] : Up (untilPunc p m) (untilPunc p m') :=
  up_budget (up_loop rfl fun n ih => by unfold untilPuncF; up)

instance up_untilPuncOrRest {p} {m m' : PM α} [Up m m'] : Up (untilPuncOrRest p m) (untilPuncOrRest p m') :=
  up_budget (up_loop rfl fun n ih => by unfold untilPuncOrRestF; up)

instance up_untilEof {m m' : PM Node} [Up m m'] : Up (untilEof m) (untilEof m') :=
  up_budget (up_loop rfl fun n ih => by unfold untilEofF; up)

instance up_strictReservedCheck : Up strictReservedCheck strictReservedCheck := by
  unfold strictReservedCheck
  refine up_get fun s b hs => ?_
  dsimp only
  rw [if_pos hs]
  cases hk : s.current.isStrictReservedKw with
  | none => exact up_never (fun _ _ _ h => by cases h)
  | some v =>
    cases v with
    | true =>
      refine up_never fun s a s1 h => ?_
      obtain ⟨t, s', _, h⟩ := bind_ok_inv (show errorCurrent _ s = _ from h)
      cases h
    | false => cases b <;> exact up_pure rfl

theorem easedIdAtt {b : Bool} {name : Str} : EasedAtt (idAtt true name) (idAtt b name) := by
  cases b with
  | true => exact .same
  | false =>
    unfold idAtt
    by_cases h : (name == cs!"eval" || name == cs!"arguments") = true
    · rw [if_pos (by simp only [h]; rfl), if_neg (by simp)]; exact .eased
    · rw [if_neg (by simp only [Bool.true_and]; exact h), if_neg (by simp)]; exact .same

instance up_parseIdReference : Up parseIdReference parseIdReference := by
  unfold parseIdReference
  up1; up1
  refine up_get fun s b hs => ?_
  dsimp only
  simp only [hs]
  up
  refine up_pure ?_
  exact EasedNode.identifier easedIdAtt

instance up_advanceStr {g} : Up (advanceStr g) (advanceStr g) := by unfold advanceStr; up

instance up_parseIdName {g} : Up (parseIdName g) (parseIdName g) := by unfold parseIdName; up

instance up_parseBindingId : Up parseBindingId (parseBindingId) := by unfold parseBindingId; up

instance up_commaExpr [RecUp r] : Up (commaExpr r) (commaExpr r) := by unfold commaExpr; up

instance up_parseExpression [RecUp r] : Up (parseExpression r) (parseExpression r) := by
  unfold parseExpression
  up1; up1; up1; up1
  · refine up_bind inferInstance fun l l' h => ?_
    keep h
    up1
    refine up_pure ?_
    simp only [List.length_cons, easedList_length h]
    exact EasedNode.sequenceExpression (EasedList.cons (by assumption) h) .same
  · up

theorem isUseStrict_lk {n n' : Node} (h : EasedNode n n') : isUseStrictLiteral n' = isUseStrictLiteral n := by
  cases h <;> rfl

instance up_parseDirective [RecUp r] : Up (parseDirective r) (parseDirective r) := by
  unfold parseDirective
  up1
  refine up_bind inferInstance fun e e' h => ?_
  keep h
  refine up_bindEq (up_whenIff (by rw [isUseStrict_lk h]) ?_) (fun _ => ?_) <;> up

instance up_parseDirectivePrologues [RecUp r] : Up (parseDirectivePrologues r) (parseDirectivePrologues r) :=
  up_budget (up_loop (F := directiveProloguesF r) (F' := directiveProloguesF r) rfl fun n ih => by unfold directiveProloguesF; up)

instance up_parseStatementList [RecUp r] : Up (parseStatementList r) (parseStatementList r) := by
  unfold parseStatementList; up

instance up_parseFunctionBodyBlock [RecUp r] : Up (parseFunctionBodyBlock r) (parseFunctionBodyBlock r) := by
  unfold parseFunctionBodyBlock; up

instance up_parseFunctionBody [RecUp r] : Up (parseFunctionBody r) (parseFunctionBody r) := by
  unfold parseFunctionBody; up

instance up_parseArrowBody [RecUp r] : Up (parseArrowBody r) (parseArrowBody r) := by
  unfold parseArrowBody; up

instance up_commaUnless {p} : Up (commaUnless p) (commaUnless p) := by unfold commaUnless; up

instance up_valueToKey {v v' : ValueOrExpr} [h : Leq v v'] {b sp} : Up (valueToKey v b sp) (valueToKey v' b sp) := by
  have g := h.out
  cases g with
  | expr g => unfold valueToKey; dsimp only; up
  | value => unfold valueToKey; dsimp only; up

instance up_objPatName [RecUp r] : Up (objPatName r) (objPatName r) := by unfold objPatName; up

instance up_shorthandName {v v' : ValueOrExpr} [h : Leq v v'] : Up (shorthandName v) (shorthandName v') := by
  have g := h.out
  cases g with
  | expr g => unfold shorthandName; up
  | @value v => cases v <;> (unfold shorthandName; up)

instance up_bindingToPropertyValue {l c} {b b' : Binding} [h : Leq b b'] : Up (bindingToPropertyValue l c b) (bindingToPropertyValue l c b') := by
  have g := h.out
  cases g <;> (unfold bindingToPropertyValue; up)

instance up_objPatValue [RecUp r] : Up (objPatValue r) (objPatValue r) := by unfold objPatValue; up

instance up_objPatItem [RecUp r] : Up (objPatItem r) (objPatItem r) := by
  unfold objPatItem; up
  refine up_pure ?_
  cases ‹EasedPropertyKey _ _› <;> ease

instance up_parseObjBindingPat [RecUp r] : Up (parseObjBindingPat r) (parseObjBindingPat r) := by
  unfold parseObjBindingPat; up

instance up_bindingToElement {l c} {b b' : Binding} [h : Leq b b'] : Up (bindingToElement l c b) (bindingToElement l c b') := by
  have g := h.out
  cases g <;> (unfold bindingToElement; up)

instance up_arrPatItem [RecUp r] : Up (arrPatItem r) (arrPatItem r) := by unfold arrPatItem; up

instance up_parseArrBindingPat [RecUp r] : Up (parseArrBindingPat r) (parseArrBindingPat r) := by
  unfold parseArrBindingPat; up

instance up_parseBindingIdOrPat [RecUp r] : Up (parseBindingIdOrPat r) (parseBindingIdOrPat r) := by
  unfold parseBindingIdOrPat; up

instance up_bindingToParam {l c} {b b' : Binding} [h : Leq b b'] : Up (bindingToParam l c b) (bindingToParam l c b') := by
  have g := h.out
  cases g <;> (unfold bindingToParam; up)

instance up_formalParam [RecUp r] : Up (formalParam r) (formalParam r) := by unfold formalParam; up

instance up_parseFormalParams [RecUp r] : Up (parseFormalParams r) (parseFormalParams r) := by
  unfold parseFormalParams; up

instance up_parseParamsAndBody [RecUp r] {g a} : Up (parseParamsAndBody r g a) (parseParamsAndBody r g a) := by
  unfold parseParamsAndBody; up

instance up_parseComputedPropertyName [RecUp r] : Up (parseComputedPropertyName r) (parseComputedPropertyName r) := by
  unfold parseComputedPropertyName; up

instance up_parsePropertyName [RecUp r] : Up (parsePropertyName r) (parsePropertyName r) := by
  unfold parsePropertyName; up

instance up_classGetter [RecUp r] {isStatic} : Up (classGetter r isStatic) (classGetter r isStatic) := by
  unfold classGetter; up

instance up_classSetter [RecUp r] {isStatic} : Up (classSetter r isStatic) (classSetter r isStatic) := by
  unfold classSetter; up

instance up_classAsync [RecUp r] {isStatic} : Up (classAsync r isStatic) (classAsync r isStatic) := by
  unfold classAsync; up

instance up_classGenerator [RecUp r] {isStatic} : Up (classGenerator r isStatic) (classGenerator r isStatic) := by
  unfold classGenerator; up

theorem methodKind_lk {k k' : PropertyKey} (h : EasedPropertyKey k k') : methodKind k' = methodKind k := by cases h <;> rfl

instance up_classMethod [RecUp r] {isStatic} : Up (classMethod r isStatic) (classMethod r isStatic) := by
  unfold classMethod
  up
  · refine up_pure ?_
    have e := methodKind_lk ‹EasedPropertyKey _ _›
    rw [e]
    ease

instance up_classItem [RecUp r] : Up (classItem r) (classItem r) := by
  unfold classItem; up

theorem eased_filter {l l' : List (Option MethodDefinition)} (h : EasedList (EasedOpt EasedMethodDefinition) l l') :
    EasedList EasedMethodDefinition (l.filterMap id) (l'.filterMap id) := by
  induction h with
  | nil => exact .nil
  | cons h1 _ ih =>
    cases h1 with
    | none => exact ih
    | some h => exact .cons h ih

instance up_parseClassBody [RecUp r] : Up (parseClassBody r) (parseClassBody r) := by
  unfold parseClassBody
  exact up_bind inferInstance fun l l' h => up_pure (eased_filter h)

instance up_parseClassTail [RecUp r] {id : Option Node} {id' : Option Node} [h : Leq id id'] : Up (parseClassTail r id) (parseClassTail r id') := by
  have gh := Leq.out (self := h); simp only [lk] at gh
  unfold parseClassTail; up

instance up_bindingIdNode {b b' : Binding} [h : Leq b b'] : Up (bindingIdNode b) (bindingIdNode b') := by
  have g := h.out
  cases g <;> (unfold bindingIdNode; up)

instance up_parseClassDclr [RecUp r] : Up (parseClassDclr r) (parseClassDclr r) := by
  unfold parseClassDclr; up

instance up_parseClassExpr [RecUp r] : Up (parseClassExpr r) (parseClassExpr r) := by
  unfold parseClassExpr; up

instance up_templateElementOf {t : Token} : Up (templateElementOf t) (templateElementOf t) := by
  unfold templateElementOf; up

instance up_parseTemplateHead : Up (parseTemplateHead ) (parseTemplateHead) := by
  unfold parseTemplateHead; up

instance up_parseTemplateElement : Up (parseTemplateElement ) (parseTemplateElement) := by
  unfold parseTemplateElement; up

theorem up_templateLoopF [RecUp r] (n : Nat) (b : Bool) : Up (templateLoopF r n b) (templateLoopF r n b) := by
  induction n generalizing b with
  | zero => unfold templateLoopF; up
  | succ n ih => unfold templateLoopF; up

instance up_parseTemplateParts [RecUp r] : Up (parseTemplateParts r) (parseTemplateParts r) := by
  unfold parseTemplateParts
  up1; up1
  refine up_bindEqPair (up_budget (F := fun n => templateLoopF r n _) (F' := fun n => templateLoopF r n _) (fun n => up_templateLoopF n _)) (fun _ _ _ h => ?_)
  keep h
  dsimp only
  up

instance up_parseTemplateLiteral [RecUp r] : Up (parseTemplateLiteral r) (parseTemplateLiteral r) := by
  unfold parseTemplateLiteral
  refine up_bindEqPair inferInstance (fun _ c c' h => ?_)
  obtain ⟨c, sp⟩ := c
  obtain ⟨c', sp'⟩ := c'
  obtain ⟨h1, h2⟩ := h
  cases (show sp = sp' from h2)
  keep h1
  up

instance up_parseTaggedTemplate [RecUp r] {n : Node} {n' : Node} [h : Leq n n'] :
    Up (parseTaggedTemplate r n) (parseTaggedTemplate r n') := by
  unfold parseTaggedTemplate
  refine up_bindEqPair inferInstance (fun _ c c' h => ?_)
  obtain ⟨c, sp⟩ := c
  obtain ⟨c', sp'⟩ := c'
  obtain ⟨h1, h2⟩ := h
  cases (show sp = sp' from h2)
  keep h1
  up

instance up_parseFunctionExpr [RecUp r] {a} : Up (parseFunctionExpr r a) (parseFunctionExpr r a) := by
  unfold parseFunctionExpr; up

instance up_argument [RecUp r] : Up (argument r) (argument r) := by
  unfold argument; up

instance up_parseArguments [RecUp r] : Up (parseArguments r) (parseArguments r) := by
  unfold parseArguments; up

instance up_seqItem [RecUp r] : Up (seqItem r) (seqItem r) := by
  unfold seqItem; up

instance up_nodeToParam {b : Bool} {n n' : Node} [h : Leq n n'] : Up (nodeToParam b n) (nodeToParam b n') := by
  unfold nodeToParam
  refine up_bind (up_ofExcept (ok2_toBindingPattern _ _ h.out)) fun p p' g => ?_
  keep g
  cases g <;> (dsimp only; up)

instance up_seqToArrowParams {l l' : List Node} [h : Leq l l'] : Up (seqToArrowParams l) (seqToArrowParams l') := by
  have g := h.out
  clear h
  induction g with
  | nil => exact up_pure EasedList.nil
  | @cons a a' l l' h1 h2 ih =>
    keep h1
    show Up (nodeToParam l.isEmpty a >>= _) (nodeToParam l'.isEmpty a' >>= _)
    rw [easedList_isEmpty h2]
    up

instance up_seqToArrow [RecUp r] {l : List Node} {l' : List Node} [h : Leq l l'] :
    Up (seqToArrow r l) (seqToArrow r l') := by
  unfold seqToArrow; up

theorem parenAtt_lk {l l' : List Node} (h : EasedList EasedNode l l') : EasedAtt (parenAtt l) (parenAtt l') := by
  cases h with
  | nil => exact .same
  | cons h1 h2 =>
    cases h2 with
    | nil => exact easedNode_att h1
    | cons => exact .same

theorem eased_unzip {l l' : List (Node × Bool)} (h : lk l l') :
    EasedList EasedNode (l.map Prod.fst) (l'.map Prod.fst) ∧ l'.any Prod.snd = l.any Prod.snd := by
  induction h with
  | nil => exact ⟨.nil, rfl⟩
  | cons h _ ih => exact ⟨.cons h.1 ih.1, by rw [List.any_cons, List.any_cons, ih.2, (h.2 : _ = _)]⟩

instance up_parseSeqOrArrow [RecUp r] : Up (parseSeqOrArrow r) (parseSeqOrArrow r) := by
  unfold parseSeqOrArrow
  up1; up1
  refine up_bind inferInstance (fun l l' h => ?_)
  obtain ⟨h1, h2⟩ := eased_unzip h
  have := Leq.mk (a := l.map Prod.fst) (a' := l'.map Prod.fst) h1
  have h3 := parenAtt_lk h1
  simp only [h2]
  up

instance up_arrayItem [RecUp r] : Up (arrayItem r) (arrayItem r) := by
  unfold arrayItem; up

instance up_parseArrayLitExpr [RecUp r] : Up (parseArrayLitExpr r) (parseArrayLitExpr r) := by
  unfold parseArrayLitExpr; up

instance up_parseMethodDefinition [RecUp r] {key key' : PropertyKey} [h : Leq key key'] {kind a g c} :
    Up (parseMethodDefinition r key kind a g c) (parseMethodDefinition r key' kind a g c) := by
  unfold parseMethodDefinition
  cases kind <;> (dsimp only; cases a <;> (try simp only [Bool.false_eq_true, if_false, if_true]) <;> up)

instance up_peekToken : Up peekToken peekToken := by
  unfold peekToken
  refine up_bindEq (up_liftScanner (fun _ => rfl)) fun _ => up_bindEq (up_liftScanner (fun _ => rfl)) fun _ => up_bindEq (up_liftScanner (fun _ => rfl)) fun _ => ?_
  up

instance up_accessorHead [RecUp r] {n k} : Up (accessorHead r n k) (accessorHead r n k) := by
  unfold accessorHead; up

instance up_asyncHead [RecUp r] : Up (asyncHead r) (asyncHead r) := by
  unfold asyncHead; up

instance up_propHead [RecUp r] : Up (propHead r) (propHead r) := by
  unfold propHead; up

instance up_propKey [RecUp r] : Up (propKey r) (propKey r) := by
  unfold propKey; up

instance up_propRest [RecUp r] {key : PropertyKey} {key' : PropertyKey} [h : Leq key key'] {c kind a g} :
    Up (propRest r key c kind a g) (propRest r key' c kind a g) := by
  have gh := Leq.out (self := h); simp only [lk] at gh
  unfold propRest; up

instance up_objectItem [RecUp r] : Up (objectItem r) (objectItem r) := by
  unfold objectItem
  up1; up1; up1
  · up
  · refine up_bind inferInstance (fun h h' hr => ?_)
    cases hr with
    | done h => exact up_pure h
    | more => dsimp only; up

instance up_parseObjectLitExpr [RecUp r] : Up (parseObjectLitExpr r) (parseObjectLitExpr r) := by
  unfold parseObjectLitExpr; up

instance up_identName {n n' : Node} [h : Leq n n'] : Up (identName n) (identName n') := by
  have g := h.out
  cases g <;> first
    | exact up_pure rfl
    | exact up_never (fun _ _ _ h => by cases h)

instance up_parseAsyncPrimaryExpr [RecUp r] : Up (parseAsyncPrimaryExpr r) (parseAsyncPrimaryExpr r) := by
  unfold parseAsyncPrimaryExpr; up

instance up_parseLiteral : Up (parseLiteral ) (parseLiteral) := by
  unfold parseLiteral; up

instance up_parseRegex : Up (parseRegex ) (parseRegex) := by
  unfold parseRegex; up

instance up_parseThis : Up (parseThis ) (parseThis) := by
  unfold parseThis; up

instance up_parsePrimaryExpr [RecUp r] : Up (parsePrimaryExpr r) (parsePrimaryExpr r) := by
  unfold parsePrimaryExpr; up

instance leq_varDecl {l l' : List VariableDeclarator} [h : Leq l l'] {k sp} : Leq (Node.variableDeclaration l k sp) (.variableDeclaration l' k sp) :=
  ⟨EasedNode.variableDeclaration h.out⟩
instance leq_seq {l l' : List Node} [h : Leq l l'] {k sp} : Leq (Node.sequenceExpression l k sp) (.sequenceExpression l' k sp) :=
  ⟨EasedNode.sequenceExpression h.out .same⟩
instance leq_cons {a a' : α} [h : Leq a a'] {l l' : List α} [h' : Leq l l'] : Leq (a :: l) (a' :: l') := ⟨EasedList.cons h.out h'.out⟩
instance leq_nil : Leq ([] : List α) [] := ⟨EasedList.nil⟩
instance leq_none : Leq (none : Option α) none := ⟨EasedOpt.none⟩
instance leq_some {a a' : α} [h : Leq a a'] : Leq (some a) (some a') := ⟨EasedOpt.some h.out⟩
instance leq_dclr {b b' : Binding} [h : Leq b b'] {n n' : Option Node} [h' : Leq n n'] : Leq (VariableDeclarator.mk b n) (.mk b' n') := ⟨EasedVariableDeclarator.mk h.out h'.out⟩
instance leq_bid {name sp} : Leq (Binding.bindingIdentifier name sp) (.bindingIdentifier name sp) := ⟨EasedBinding.bindingIdentifier⟩
instance leq_call {c c' : Node} [h : Leq c c'] {a a' : List ArgumentListElement} [h' : Leq a a'] {t sp} :
    Leq (Node.callExpression c a t sp) (.callExpression c' a' t sp) := ⟨EasedNode.callExpression h.out h'.out .same⟩
instance leq_new {c c' : Node} [h : Leq c c'] {a a' : List ArgumentListElement} [h' : Leq a a'] {t sp} :
    Leq (Node.newExpression c a t sp) (.newExpression c' a' t sp) := ⟨EasedNode.newExpression h.out h'.out .same⟩

instance up_parseComputedMemberExpr [RecUp r] {object : Node} {object' : Node} [h : Leq object object'] : Up (parseComputedMemberExpr r object) (parseComputedMemberExpr r object') := by
  have gh := Leq.out (self := h); simp only [lk] at gh
  unfold parseComputedMemberExpr; up

instance up_parseStaticMemberExpr {object : Node} {object' : Node} [h : Leq object object'] : Up (parseStaticMemberExpr object) (parseStaticMemberExpr object') := by
  have gh := Leq.out (self := h); simp only [lk] at gh
  unfold parseStaticMemberExpr; up

instance up_parseSuper : Up (parseSuper ) (parseSuper) := by
  unfold parseSuper; up

instance up_memberLoop [RecUp r] {x x' : Node} [h : Leq x x'] :
    Up (fun s => memberLoopF r (s.size + 1) x s) (fun s => memberLoopF r (s.size + 1) x' s) :=
  up_budget (F := fun n => memberLoopF r n x) (F' := fun n => memberLoopF r n x') fun n => by
    have := h.out
    clear h
    induction n generalizing x x' with
    | zero => unfold memberLoopF; up
    | succ n ih =>
      have ih : ∀ {x x' : Node} [h : Leq x x'], Up (memberLoopF r n x) (memberLoopF r n x') := by intro x x' h; exact ih h.out
      have := Leq.mk this
      unfold memberLoopF; up

instance up_parseMemberHead [RecUp r] : Up (parseMemberHead r) (parseMemberHead r) := by
  unfold parseMemberHead; up

instance up_parseMemberExpr [RecUp r] : Up (parseMemberExpr r) (parseMemberExpr r) := by
  unfold parseMemberExpr; up

instance up_callLoop [RecUp r] {x x' : Node} [h : Leq x x'] :
    Up (fun s => callLoopF r (s.size + 1) x s) (fun s => callLoopF r (s.size + 1) x' s) :=
  up_budget (F := fun n => callLoopF r n x) (F' := fun n => callLoopF r n x') fun n => by
    have := h.out
    clear h
    induction n generalizing x x' with
    | zero => unfold callLoopF; up
    | succ n ih =>
      have ih : ∀ {x x' : Node} [h : Leq x x'], Up (callLoopF r n x) (callLoopF r n x') := by intro x x' h; exact ih h.out
      have := Leq.mk this
      unfold callLoopF; up

instance up_parseCallExprTail [RecUp r] {n : Node} {n' : Node} [h : Leq n n'] :
    Up (parseCallExprTail r n) (parseCallExprTail r n') := by
  unfold parseCallExprTail; up

instance up_parseCallHead [RecUp r] : Up (parseCallHead r) (parseCallHead r) := by
  unfold parseCallHead; up

instance up_parseCallExpr [RecUp r] : Up (parseCallExpr r) (parseCallExpr r) := by
  unfold parseCallExpr; up

instance up_parseNewTarget {t : Token} {sp : Span} :
    Up (parseNewTarget t sp) (parseNewTarget t sp) := by
  unfold parseNewTarget; up

instance up_parseNewCallee [RecUp r] : Up (parseNewCallee r) (parseNewCallee r) := by
  unfold parseNewCallee; up

instance up_parseNewExpr [RecUp r] : Up (parseNewExpr r) (parseNewExpr r) := by
  unfold parseNewExpr; up

instance up_parseLeftHandSideExpr [RecUp r] : Up (parseLeftHandSideExpr r) (parseLeftHandSideExpr r) := by
  unfold parseLeftHandSideExpr; up

macro "never" : tactic => `(tactic| (intro s a s1 h; first | (cases h; done) | (obtain ⟨t, s', _, h⟩ := bind_ok_inv h; cases h)))

instance up_parsePrefixUpdate [RecUp r] : Up (parsePrefixUpdate r) (parsePrefixUpdate r) := by
  unfold parsePrefixUpdate
  up1; up1; up1
  refine up_bind inferInstance fun e e' h => ?_
  keep h
  exact up_check (by never) (easedAtt_ok (easedNode_att h)) (by up)

instance up_parsePostfix [RecUp r] : Up (parsePostfix r) (parsePostfix r) := by
  unfold parsePostfix
  up1; up1
  refine up_bind inferInstance fun e e' h => ?_
  keep h
  up1; up1
  · exact up_check (by never) (easedAtt_ok (easedNode_att h)) (by up)
  · up

instance up_parseUpdateExpr [RecUp r] : Up (parseUpdateExpr r) (parseUpdateExpr r) := by
  unfold parseUpdateExpr; up

instance up_parseUnaryOp [RecUp r] : Up (parseUnaryOp r) (parseUnaryOp r) := by
  unfold parseUnaryOp; up

instance up_parseUnaryExpr [RecUp r] : Up (parseUnaryExpr r) (parseUnaryExpr r) := by
  unfold parseUnaryExpr; up

instance up_parsePow [RecUp r] : Up (parsePow r) (parsePow r) := by
  unfold parsePow; up

instance up_parseExponentiationExpr [RecUp r] : Up (parseExponentiationExpr r) (parseExponentiationExpr r) := by
  unfold parseExponentiationExpr; up

instance up_climbInner [RecUp r] {p : Nat} {x x' : Node} [h : Leq x x'] :
    Up (fun s => climbInnerF r p (s.size + 1) x s) (fun s => climbInnerF r p (s.size + 1) x' s) :=
  up_budget (F := fun n => climbInnerF r p n x) (F' := fun n => climbInnerF r p n x') fun n => by
    have := h.out
    clear h
    induction n generalizing x x' with
    | zero => unfold climbInnerF; up
    | succ n ih =>
      have ih : ∀ {x x' : Node} [h : Leq x x'], Up (climbInnerF r p n x) (climbInnerF r p n x') := by intro x x' h; exact ih h.out
      have := Leq.mk this
      unfold climbInnerF; up

instance up_climbStep [RecUp r] {n n' : Node} [h : Leq n n'] : Up (climbStep r n) (climbStep r n') := by
  unfold climbStep; up

instance up_climb [RecUp r] {p : Nat} {x x' : Node} [h : Leq x x'] :
    Up (fun s => climbF r p (s.size + 1) x s) (fun s => climbF r p (s.size + 1) x' s) :=
  up_budget (F := fun n => climbF r p n x) (F' := fun n => climbF r p n x') fun n => by
    have := h.out
    clear h
    induction n generalizing x x' with
    | zero => unfold climbF; up
    | succ n ih =>
      have ih : ∀ {x x' : Node} [h : Leq x x'], Up (climbF r p n x) (climbF r p n x') := by intro x x' h; exact ih h.out
      have := Leq.mk this
      unfold climbF; up

instance up_precedenceClimbing [RecUp r] {n : Node} {n' : Node} [h : Leq n n'] {k} :
    Up (precedenceClimbing r n k) (precedenceClimbing r n' k) := by
  unfold precedenceClimbing; up

instance up_parseBinaryExpr [RecUp r] : Up (parseBinaryExpr r) (parseBinaryExpr r) := by
  unfold parseBinaryExpr; up

instance up_parseConditionalExpr [RecUp r] : Up (parseConditionalExpr r) (parseConditionalExpr r) := by
  unfold parseConditionalExpr; up

instance up_parseSingleParamArrow [RecUp r] {name} : Up (parseSingleParamArrow r name) (parseSingleParamArrow r name) := by
  unfold parseSingleParamArrow; up

instance up_parseYieldExpr [RecUp r] : Up (parseYieldExpr r) (parseYieldExpr r) := by
  unfold parseYieldExpr; up

instance up_arrowIfIdentifier [RecUp r] {n n' : Node} [h : Leq n n'] : Up (arrowIfIdentifier r n) (arrowIfIdentifier r n') := by
  have g := h.out
  have g' := g
  cases g' <;> first | exact up_pure g | (unfold arrowIfIdentifier; dsimp only; up)

instance up_toAssignmentPattern {n n' : Node} [h : Leq n n'] :
    Up (M.ofExcept (toAssignmentPattern n)) (M.ofExcept (toAssignmentPattern n')) := up_ofExcept (ok2_toAssignmentPattern _ _ h.out)

instance up_parseAssignTail [RecUp r] {n n' : Node} [h : Leq n n'] : Up (parseAssignTail r n) (parseAssignTail r n') := by
  unfold parseAssignTail
  up1
  refine up_bind inferInstance fun e e' h => ?_
  keep h
  exact up_check (by never) (fun hc => fun hc' => hc fun hs => hc' (easedAtt_simple (easedNode_att h) hs)) (by up)

instance up_parseOpAssignTail [RecUp r] {n n' : Node} [h : Leq n n'] : Up (parseOpAssignTail r n) (parseOpAssignTail r n') := by
  unfold parseOpAssignTail
  up1; up1
  exact up_check (by never) (fun hc => fun hc' => hc fun hs => hc' (easedAtt_simple (easedNode_att h.out) hs)) (by up)

instance up_parseAssignmentExpr [RecUp r] : Up (parseAssignmentExpr r) (parseAssignmentExpr r) := by
  unfold parseAssignmentExpr; up

instance up_toNode {b b' : Binding} [h : Leq b b'] : Up (M.ofExcept b.toNode) (M.ofExcept b'.toNode) := up_ofExcept (ok2_toNode h.out)

instance up_toId {b b' : Binding} [h : Leq b b'] : Up (M.ofExcept b.toId) (M.ofExcept b'.toId) := up_ofExcept (ok2_toId h.out)

instance up_parseBlockStmt [RecUp r] : Up (parseBlockStmt r) (parseBlockStmt r) := by
  unfold parseBlockStmt; up

instance up_parseVariableDclr [RecUp r] : Up (parseVariableDclr r) (parseVariableDclr r) := by
  unfold parseVariableDclr
  refine up_bind inferInstance fun id id' h => ?_
  keep h
  up1; up1
  · up
  · cases h <;> (dsimp only; up)

instance up_commaDclr [RecUp r] : Up (commaDclr r) (commaDclr r) := by
  unfold commaDclr; up

instance up_parseVarList [RecUp r] : Up (parseVarList r) (parseVarList r) := by
  unfold parseVarList; up

instance up_parseVariableStmt [RecUp r] : Up (parseVariableStmt r) (parseVariableStmt r) := by
  unfold parseVariableStmt; up

instance up_parseLexicalDclr [RecUp r] : Up (parseLexicalDclr r) (parseLexicalDclr r) := by
  unfold parseLexicalDclr; up

instance up_parseEmptyStmt : Up (parseEmptyStmt ) (parseEmptyStmt) := by
  unfold parseEmptyStmt; up

instance up_parseExpressionStmt {n : Node} {n' : Node} [h : Leq n n'] : Up (parseExpressionStmt n) (parseExpressionStmt n') := by
  have gh := Leq.out (self := h); simp only [lk] at gh
  unfold parseExpressionStmt; up

instance up_parseElse [RecUp r] : Up (parseElse r) (parseElse r) := by
  unfold parseElse; up

instance up_parseIfStmt [RecUp r] : Up (parseIfStmt r) (parseIfStmt r) := by
  unfold parseIfStmt; up

instance up_parseLoopBody [RecUp r] : Up (parseLoopBody r) (parseLoopBody r) := by
  unfold parseLoopBody; up

instance up_optExpr [RecUp r] {p} : Up (optExpr r p) (optExpr r p) := by
  unfold optExpr; up

instance up_parseForClassic [RecUp r] {n : Option Node} {n' : Option Node} [h : Leq n n'] : Up (parseForClassic r n) (parseForClassic r n') := by
  have gh := Leq.out (self := h); simp only [lk] at gh
  unfold parseForClassic; up

instance up_parseForIn [RecUp r] {left : Node} {left' : Node} [h : Leq left left'] : Up (parseForIn r left) (parseForIn r left') := by
  have gh := Leq.out (self := h); simp only [lk] at gh
  unfold parseForIn; up

instance up_parseForOf [RecUp r] {left : Node} {left' : Node} [h : Leq left left'] : Up (parseForOf r left) (parseForOf r left') := by
  have gh := Leq.out (self := h); simp only [lk] at gh
  unfold parseForOf; up

instance up_forCommaDclr [RecUp r] : Up (forCommaDclr r) (forCommaDclr r) := by
  unfold forCommaDclr; up

instance up_parseForDclrs [RecUp r] {k} {x : VariableDeclarator} {x' : VariableDeclarator} [Leq x x'] :
    Up (parseForDclrs r k x) (parseForDclrs r k x') := by
  unfold parseForDclrs; up

instance up_parseForInit [RecUp r] {k} {b : Binding} {b' : Binding} [Leq b b'] :
    Up (parseForInit r k b) (parseForInit r k b') := by
  unfold parseForInit; up

instance up_parseForVar [RecUp r] : Up (parseForVar r) (parseForVar r) := by
  unfold parseForVar
  up1; up1
  refine up_bind inferInstance fun id id' h => ?_
  keep h
  up1; up1
  · up
  up1
  · up
  up1
  · up
  cases h <;> (dsimp only; up)

instance up_parseForKind : Up (parseForKind ) (parseForKind) := by
  unfold parseForKind; up

instance up_parseForLexical [RecUp r] : Up (parseForLexical r) (parseForLexical r) := by
  unfold parseForLexical
  up1; up1; up1; up1
  refine up_bind inferInstance fun id id' h => ?_
  keep h
  up1; up1
  · up
  up1
  · up
  up1
  · up
  cases h <;> (dsimp only; up)

theorem ok2_forTarget {n n' : Node} (h : EasedNode n n') : Ok2 (forTarget n) (forTarget n') := by
  have := ok2_toAssignmentPattern n n' h
  have h' := h
  cases h' <;> first | exact this | exact ok2_pure h

instance up_parseForTarget {n n' : Node} [h : Leq n n'] : Up (parseForTarget n) (parseForTarget n') := by
  unfold parseForTarget
  up1
  refine up_bind (up_ofExcept (ok2_forTarget h.out)) (fun e e' h => ?_)
  keep h
  exact up_check (by never) (fun hc => fun hc' => hc fun hs => hc' (easedAtt_simple (easedNode_att h) hs)) (by up)

instance up_forCommaExpr [RecUp r] : Up (forCommaExpr r) (forCommaExpr r) := by
  unfold forCommaExpr; up

instance up_parseForExpr [RecUp r] : Up (parseForExpr r) (parseForExpr r) := by
  unfold parseForExpr; up

instance up_parseForStmt [RecUp r] : Up (parseForStmt r) (parseForStmt r) := by
  unfold parseForStmt; up

instance up_parseWhileStmt [RecUp r] : Up (parseWhileStmt r) (parseWhileStmt r) := by
  unfold parseWhileStmt; up

instance up_parseDoWhileStmt [RecUp r] : Up (parseDoWhileStmt r) (parseDoWhileStmt r) := by
  unfold parseDoWhileStmt; up

instance up_parseIterationStmt [RecUp r] : Up (parseIterationStmt r) (parseIterationStmt r) := by
  unfold parseIterationStmt; up

instance up_parseConsequent [RecUp r] : Up (parseConsequent r) (parseConsequent r) :=
  up_budget (up_loop (F := consequentF r) (F' := consequentF r) rfl fun n ih => by unfold consequentF; up)

instance up_parseCaseTest [RecUp r] {b} : Up (parseCaseTest r b) (parseCaseTest r b) := by
  unfold parseCaseTest; up

theorem up_casesF [RecUp r] (n : Nat) (b : Bool) : Up (casesF r n b) (casesF r n b) := by
  induction n generalizing b with
  | zero => unfold casesF; up
  | succ n ih => unfold casesF; up

instance up_cases [RecUp r] {b : Bool} : Up (fun s => casesF r (s.size + 1) b s) (fun s => casesF r (s.size + 1) b s) :=
  up_budget (F := fun n => casesF r n b) (F' := fun n => casesF r n b) (fun n => up_casesF n b)

instance up_parseSwitchInner [RecUp r] : Up (parseSwitchInner r) (parseSwitchInner r) := by
  unfold parseSwitchInner; up

instance up_parseSwitchStmt [RecUp r] : Up (parseSwitchStmt r) (parseSwitchStmt r) := by
  unfold parseSwitchStmt; up

instance up_parseLabelOpt : Up (parseLabelOpt ) (parseLabelOpt) := by
  unfold parseLabelOpt; up

instance up_parseContinueStmt : Up parseContinueStmt parseContinueStmt := by
  unfold parseContinueStmt
  up1; up1
  refine up_bind inferInstance fun l l' h => ?_
  cases h with
  | none => up
  | some h => keep h; up

instance up_parseBreakStmt : Up parseBreakStmt parseBreakStmt := by
  unfold parseBreakStmt
  up1; up1
  refine up_bind inferInstance fun l l' h => ?_
  cases h with
  | none => up
  | some h => keep h; up

instance up_parseReturnArg [RecUp r] : Up (parseReturnArg r) (parseReturnArg r) := by
  unfold parseReturnArg; up

instance up_parseReturnStmt [RecUp r] : Up (parseReturnStmt r) (parseReturnStmt r) := by
  unfold parseReturnStmt; up

instance up_parseReturn [RecUp r] : Up (parseReturn r) (parseReturn r) := by
  unfold parseReturn; up

instance up_parseWithStmt [RecUp r] : Up (parseWithStmt r) (parseWithStmt r) := by
  unfold parseWithStmt
  refine up_get fun s b hs => ?_
  dsimp only
  rw [if_pos hs]
  exact up_errorCurrent

instance up_parseThrowStmt [RecUp r] : Up (parseThrowStmt r) (parseThrowStmt r) := by
  unfold parseThrowStmt; up

instance up_parseCatchParam [RecUp r] : Up (parseCatchParam r) (parseCatchParam r) := by
  unfold parseCatchParam; up

instance up_parseCatchClause [RecUp r] : Up (parseCatchClause r) (parseCatchClause r) := by
  unfold parseCatchClause; up

instance up_parseFinallyClause [RecUp r] : Up (parseFinallyClause r) (parseFinallyClause r) := by
  unfold parseFinallyClause; up

instance up_parseTryStmt [RecUp r] : Up (parseTryStmt r) (parseTryStmt r) := by
  unfold parseTryStmt; up

instance up_parseDebuggerStmt : Up (parseDebuggerStmt ) (parseDebuggerStmt) := by
  unfold parseDebuggerStmt; up

instance up_parseGeneratorMark {b} : Up (parseGeneratorMark b) (parseGeneratorMark b) := by
  unfold parseGeneratorMark; up

instance up_parseFunctionName : Up parseFunctionName parseFunctionName := by
  unfold parseFunctionName
  up1; up1
  · up
  · refine up_bind inferInstance fun b b' h => ?_
    cases h <;> (dsimp only; up)

instance up_parseFunctionDclrRest [RecUp r] {a g} : Up (parseFunctionDclrRest r a g) (parseFunctionDclrRest r a g) := by
  unfold parseFunctionDclrRest; up

instance up_parseFunctionDclr [RecUp r] {a} {g} : Up (parseFunctionDclr r a g) (parseFunctionDclr r a g) := by
  unfold parseFunctionDclr; up

instance up_parseHoistableDclr [RecUp r] : Up (parseHoistableDclr r) (parseHoistableDclr r) := by
  unfold parseHoistableDclr; up

instance up_parseDeclaration [RecUp r] : Up (parseDeclaration r) (parseDeclaration r) := by
  unfold parseDeclaration; up

instance up_parseLabelBody [RecUp r] : Up (parseLabelBody r) (parseLabelBody r) := by
  unfold parseLabelBody
  refine up_get fun s b hs => ?_
  dsimp only
  up1
  · rw [if_pos hs]
    exact up_errorCurrent
  · up

instance up_parseLabelledStmt [RecUp r] {label : Identifier} : Up (parseLabelledStmt r label) (parseLabelledStmt r label) := by
  unfold parseLabelledStmt; up

instance up_parseExpressionOrLabelled [RecUp r] : Up (parseExpressionOrLabelled r) (parseExpressionOrLabelled r) := by
  unfold parseExpressionOrLabelled
  up1
  refine up_bind inferInstance fun e e' h => ?_
  keep h
  up1; up1
  · cases h <;> (dsimp only; up)
  · up

instance up_parseAsyncItem [RecUp r] : Up (parseAsyncItem r) (parseAsyncItem r) := by
  unfold parseAsyncItem; up

instance up_parseStmtListItem [RecUp r] : Up (parseStmtListItem r) (parseStmtListItem r) := by
  unfold parseStmtListItem; up

instance up_parseStatement [RecUp r] : Up (parseStatement r) (parseStatement r) := by
  unfold parseStatement; up

end Ease
end Giron

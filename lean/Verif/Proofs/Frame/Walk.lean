import Verif.Proofs.Frame.Basic
/-
Every parser method leaves the context and the parameters as they were.  (Generated: one instance per method.)
-/
namespace Giron
open M

namespace Parser
variable [Env] {α β : Type} {r : Rec}

instance fr_consume {p : Punctuator} {g : LexGoal} : Fr (consume p g) := by
  unfold consume; fr

instance fr_consumeKw {p : Str} {g : LexGoal} : Fr (consumeKw p g) := by
  unfold consumeKw; fr

instance fr_consumeId {p : Str} {g : LexGoal} : Fr (consumeId p g) := by
  unfold consumeId; fr

instance fr_consumeSemicolon {g : LexGoal} : Fr (consumeSemicolon g) := by
  unfold consumeSemicolon; fr

instance fr_withIn {b : Bool} {m : PM α} [Fr m]  : Fr (withIn b m) := by
  unfold withIn; fr

instance fr_withDefault {b : Bool} {m : PM α} [Fr m]  : Fr (withDefault b m) := by
  unfold withDefault; fr

instance fr_withReturn {b : Bool} {m : PM α} [Fr m]  : Fr (withReturn b m) := by
  unfold withReturn; fr

instance fr_withYield {b : Bool} {m : PM α} [Fr m]  : Fr (withYield b m) := by
  unfold withYield; fr

instance fr_withAwait {b : Bool} {m : PM α} [Fr m]  : Fr (withAwait b m) := by
  unfold withAwait; fr

instance fr_withYieldAwait {y a : Bool} {m : PM α} [Fr m]  : Fr (withYieldAwait y a m) := by
  unfold withYieldAwait; fr

instance fr_strictReservedCheck  : Fr (strictReservedCheck) := by
  unfold strictReservedCheck; fr

instance fr_advanceStr {goal : LexGoal}  : Fr (advanceStr goal) := by
  unfold advanceStr; fr

instance fr_parseIdName {goal : LexGoal}  : Fr (parseIdName goal) := by
  unfold parseIdName; fr

instance fr_parseIdReference  : Fr (parseIdReference) := by
  unfold parseIdReference; fr

instance fr_parseBindingId  : Fr (parseBindingId) := by
  unfold parseBindingId; fr

instance fr_commaExpr [RecFr r] : Fr (commaExpr r) := by
  unfold commaExpr; fr

instance fr_parseExpression [RecFr r] : Fr (parseExpression r) := by
  unfold parseExpression; fr

theorem frS_parseDirective [RecFr r] : FrS (parseDirective r) := by
  unfold parseDirective
  refine frS_bind (frS_of inferInstance) (fun _ => ?_)
  refine frS_bind (frS_of inferInstance) (fun _ => ?_)
  refine frS_bind ?_ (fun _ => ?_)
  · unfold M.when
    split
    · exact ⟨fun s a s' h => by cases h; exact ⟨rfl, fun _ => rfl, rfl, rfl⟩⟩
    · exact frS_of inferInstance
  · exact frS_of (by fr)

theorem frS_directiveProloguesF [RecFr r] (n : Nat) : FrS (directiveProloguesF r n) := by
  induction n with
  | zero => exact frS_of fr_fail
  | succ n ih =>
    unfold directiveProloguesF
    refine frS_bind (frS_of inferInstance) (fun _ => ?_)
    split
    · refine frS_bind frS_parseDirective (fun _ => ?_)
      exact frS_bind ih (fun _ => frS_of (by fr))
    · exact frS_of (by fr)

theorem frS_parseDirectivePrologues [RecFr r] : FrS (parseDirectivePrologues r) :=
  ⟨fun s => (frS_directiveProloguesF _).out s⟩

instance fr_parseStatementList [RecFr r] : Fr (parseStatementList r) := by
  unfold parseStatementList; fr

instance fr_parseFunctionBodyBlock [RecFr r] : Fr (parseFunctionBodyBlock r) := by
  unfold parseFunctionBodyBlock
  refine fr_bind inferInstance (fun _ => fr_bind inferInstance (fun _ => ?_))
  constructor
  intro s a s' h
  obtain ⟨_, _, h0, h⟩ := bind_ok_inv h; cases h0
  obtain ⟨_, s1, h1, h⟩ := bind_ok_inv h
  obtain ⟨_, _, h0, h⟩ := bind_ok_inv h; cases h0
  obtain ⟨_, s2, h2, h⟩ := bind_ok_inv h
  obtain ⟨_, s3, h3, h⟩ := bind_ok_inv h; cases h3
  obtain ⟨_, s4, h4, h⟩ := bind_ok_inv h
  obtain ⟨_, _, h5, h⟩ := bind_ok_inv h; cases h5
  obtain ⟨_, s6, h6, h⟩ := bind_ok_inv h; cases h
  obtain ⟨a1, -, b1, c1⟩ := frS_parseDirectivePrologues.out _ _ _ h1
  obtain ⟨a2, b2, c2⟩ := Fr.out _ _ _ h2
  obtain ⟨a4, b4, c4⟩ := Fr.out _ _ _ h4
  obtain ⟨a6, b6, c6⟩ := Fr.out _ _ _ h6
  refine ⟨?_, b6.trans (b4.trans (b2.trans b1)), c6.trans (c4.trans (c2.trans c1))⟩
  rw [a6]
  simp only
  rw [a4]
  simp only
  rw [a2, a1]

instance fr_parseFunctionBody [RecFr r] : Fr (parseFunctionBody r) := by
  unfold parseFunctionBody
  constructor
  intro s a s' h
  obtain ⟨_, _, h0, h⟩ := bind_ok_inv h; cases h0
  obtain ⟨_, s1, h1, h⟩ := bind_ok_inv h; cases h1
  obtain ⟨_, s2, h2, h⟩ := bind_ok_inv h
  obtain ⟨_, s3, h3, h⟩ := bind_ok_inv h; cases h3; cases h
  have f2 := Fr.out _ _ _ h2
  simp_all

instance fr_parseArrowBody [RecFr r] : Fr (parseArrowBody r) := by
  unfold parseArrowBody; fr

instance fr_commaUnless {close : Punctuator}  : Fr (commaUnless close) := by
  unfold commaUnless; fr

instance fr_valueToKey {v : ValueOrExpr} {literal : Bool} {span : Span}  : Fr (valueToKey v literal span) := by
  unfold valueToKey; fr

instance fr_objPatName [RecFr r] : Fr (objPatName r) := by
  unfold objPatName; fr

instance fr_shorthandName {v : ValueOrExpr}  : Fr (shorthandName v) := by
  unfold shorthandName; fr

instance fr_bindingToPropertyValue {line col : Nat} {x0 : Binding}  : Fr (bindingToPropertyValue line col x0) := by
  unfold bindingToPropertyValue; fr

instance fr_objPatValue [RecFr r] : Fr (objPatValue r) := by
  unfold objPatValue; fr

instance fr_objPatItem [RecFr r] : Fr (objPatItem r) := by
  unfold objPatItem; fr

instance fr_parseObjBindingPat [RecFr r] : Fr (parseObjBindingPat r) := by
  unfold parseObjBindingPat; fr

instance fr_bindingToElement {line col : Nat} {x0 : Binding}  : Fr (bindingToElement line col x0) := by
  unfold bindingToElement; fr

instance fr_arrPatItem [RecFr r] : Fr (arrPatItem r) := by
  unfold arrPatItem; fr

instance fr_parseArrBindingPat [RecFr r] : Fr (parseArrBindingPat r) := by
  unfold parseArrBindingPat; fr

instance fr_parseBindingIdOrPat [RecFr r] : Fr (parseBindingIdOrPat r) := by
  unfold parseBindingIdOrPat; fr

instance fr_bindingToParam {line col : Nat} {x0 : Binding}  : Fr (bindingToParam line col x0) := by
  unfold bindingToParam; fr

instance fr_formalParam [RecFr r] : Fr (formalParam r) := by
  unfold formalParam; fr

instance fr_parseFormalParams [RecFr r] : Fr (parseFormalParams r) := by
  unfold parseFormalParams; fr

instance fr_parseParamsAndBody {generator async : Bool} [RecFr r] : Fr (parseParamsAndBody r generator async) := by
  unfold parseParamsAndBody; fr

instance fr_parseComputedPropertyName [RecFr r] : Fr (parseComputedPropertyName r) := by
  unfold parseComputedPropertyName; fr

instance fr_parsePropertyName [RecFr r] : Fr (parsePropertyName r) := by
  unfold parsePropertyName; fr

instance fr_classGetter {isStatic : Bool} [RecFr r] : Fr (classGetter r isStatic) := by
  unfold classGetter; fr

instance fr_classSetter {isStatic : Bool} [RecFr r] : Fr (classSetter r isStatic) := by
  unfold classSetter; fr

instance fr_classAsync {isStatic : Bool} [RecFr r] : Fr (classAsync r isStatic) := by
  unfold classAsync; fr

instance fr_classGenerator {isStatic : Bool} [RecFr r] : Fr (classGenerator r isStatic) := by
  unfold classGenerator; fr

instance fr_classMethod {isStatic : Bool} [RecFr r] : Fr (classMethod r isStatic) := by
  unfold classMethod; fr

instance fr_classItem [RecFr r] : Fr (classItem r) := by
  unfold classItem; fr

instance fr_parseClassBody [RecFr r] : Fr (parseClassBody r) := by
  unfold parseClassBody; fr

instance fr_parseClassTail {id : Option Node} [RecFr r] : Fr (parseClassTail r id) := by
  unfold parseClassTail; fr

instance fr_bindingIdNode {x0 : Binding}  : Fr (bindingIdNode x0) := by
  unfold bindingIdNode; fr

instance fr_parseClassDclr [RecFr r] : Fr (parseClassDclr r) := by
  unfold parseClassDclr
  have := fr_inStrict (m := do
    startSpan
    let _ ← consumeKw cs!"class"
    let b ← parseBindingId
    let id ← bindingIdNode b
    parseClassTail r (some id)) (by fr)
  simp only [bind_assoc] at this
  exact this

instance fr_parseClassExpr [RecFr r] : Fr (parseClassExpr r) := by
  unfold parseClassExpr
  have := fr_inStrict (m := do
    startSpan
    let _ ← consumeKw cs!"class"
    let s ← get
    let id ← (
      if s.current.isIdOrKw then do
        let b ← parseBindingId
        let n ← bindingIdNode b
        pure (some n)
      else if s.params.hasDefault then pure none
      else unexpectedCurrent)
    parseClassTail r id) (by fr)
  simp only [bind_assoc] at this
  exact this

instance fr_templateElementOf {t : Token}  : Fr (templateElementOf t) := by
  unfold templateElementOf; fr

instance fr_parseTemplateHead  : Fr (parseTemplateHead) := by
  unfold parseTemplateHead; fr

instance fr_parseTemplateElement  : Fr (parseTemplateElement) := by
  unfold parseTemplateElement; fr

theorem fr_templateLoopF [RecFr r] (n : Nat) : ∀ (x1 : Bool), Fr (templateLoopF r n x1) := by
  induction n with
  | zero => intro x1; exact fr_fail
  | succ n ih => intro x1; unfold templateLoopF; fr

instance fr_templateLoopF' [RecFr r] {n : Nat} {x1 : Bool} : Fr (templateLoopF r n x1) := fr_templateLoopF n x1

instance fr_parseTemplateParts [RecFr r] : Fr (parseTemplateParts r) := by
  unfold parseTemplateParts; fr

instance fr_parseTemplateLiteral [RecFr r] : Fr (parseTemplateLiteral r) := by
  unfold parseTemplateLiteral; fr

instance fr_parseTaggedTemplate {tag : Node} [RecFr r] : Fr (parseTaggedTemplate r tag) := by
  unfold parseTaggedTemplate; fr

instance fr_parseFunctionExpr {async : Bool} [RecFr r] : Fr (parseFunctionExpr r async) := by
  unfold parseFunctionExpr; fr

instance fr_argument [RecFr r] : Fr (argument r) := by
  unfold argument; fr

instance fr_parseArguments [RecFr r] : Fr (parseArguments r) := by
  unfold parseArguments; fr

instance fr_seqItem [RecFr r] : Fr (seqItem r) := by
  unfold seqItem; fr

instance fr_nodeToParam {isLast : Bool} {expr : Node}  : Fr (nodeToParam isLast expr) := by
  unfold nodeToParam; fr

instance fr_seqToArrowParams {l : List Node} : Fr (seqToArrowParams l) := by
  induction l with
  | nil => unfold seqToArrowParams; fr
  | cons a l ih => unfold seqToArrowParams; fr

instance fr_seqToArrow {seq : List Node} [RecFr r] : Fr (seqToArrow r seq) := by
  unfold seqToArrow; fr

instance fr_parseSeqOrArrow [RecFr r] : Fr (parseSeqOrArrow r) := by
  unfold parseSeqOrArrow; fr

instance fr_arrayItem [RecFr r] : Fr (arrayItem r) := by
  unfold arrayItem; fr

instance fr_parseArrayLitExpr [RecFr r] : Fr (parseArrayLitExpr r) := by
  unfold parseArrayLitExpr; fr

instance fr_parseMethodDefinition {key : PropertyKey} {kind : PropKind} {async generator computed : Bool} [RecFr r] : Fr (parseMethodDefinition r key kind async generator computed) := by
  unfold parseMethodDefinition; fr

instance fr_peekToken  : Fr (peekToken) := by
  unfold peekToken; fr

instance fr_accessorHead {name : Str} {kind : PropKind} [RecFr r] : Fr (accessorHead r name kind) := by
  unfold accessorHead; fr

instance fr_asyncHead [RecFr r] : Fr (asyncHead r) := by
  unfold asyncHead; fr

instance fr_propHead [RecFr r] : Fr (propHead r) := by
  unfold propHead; fr

instance fr_propKey [RecFr r] : Fr (propKey r) := by
  unfold propKey; fr

instance fr_propRest {key : PropertyKey} {computed : Bool} {kind : PropKind} {async generator : Bool} [RecFr r] : Fr (propRest r key computed kind async generator) := by
  unfold propRest; fr

instance fr_objectItem [RecFr r] : Fr (objectItem r) := by
  unfold objectItem; fr

instance fr_parseObjectLitExpr [RecFr r] : Fr (parseObjectLitExpr r) := by
  unfold parseObjectLitExpr; fr

instance fr_identName {x0 : Node}  : Fr (identName x0) := by
  unfold identName; fr

instance fr_parseAsyncPrimaryExpr [RecFr r] : Fr (parseAsyncPrimaryExpr r) := by
  unfold parseAsyncPrimaryExpr; fr

instance fr_parseLiteral  : Fr (parseLiteral) := by
  unfold parseLiteral; fr

instance fr_parseRegex  : Fr (parseRegex) := by
  unfold parseRegex; fr

instance fr_parseThis  : Fr (parseThis) := by
  unfold parseThis; fr

instance fr_parsePrimaryExpr [RecFr r] : Fr (parsePrimaryExpr r) := by
  unfold parsePrimaryExpr; fr

instance fr_parseComputedMemberExpr {object : Node} [RecFr r] : Fr (parseComputedMemberExpr r object) := by
  unfold parseComputedMemberExpr; fr

instance fr_parseStaticMemberExpr {object : Node}  : Fr (parseStaticMemberExpr object) := by
  unfold parseStaticMemberExpr; fr

instance fr_parseSuper  : Fr (parseSuper) := by
  unfold parseSuper; fr

theorem fr_memberLoopF [RecFr r] (n : Nat) : ∀ (x1 : Node), Fr (memberLoopF r n x1) := by
  induction n with
  | zero => intro x1; exact fr_fail
  | succ n ih => intro x1; unfold memberLoopF; fr

instance fr_memberLoopF' [RecFr r] {n : Nat} {x1 : Node} : Fr (memberLoopF r n x1) := fr_memberLoopF n x1

instance fr_parseMemberHead [RecFr r] : Fr (parseMemberHead r) := by
  unfold parseMemberHead; fr

instance fr_parseMemberExpr [RecFr r] : Fr (parseMemberExpr r) := by
  unfold parseMemberExpr; fr

theorem fr_callLoopF [RecFr r] (n : Nat) : ∀ (x1 : Node), Fr (callLoopF r n x1) := by
  induction n with
  | zero => intro x1; exact fr_fail
  | succ n ih => intro x1; unfold callLoopF; fr

instance fr_callLoopF' [RecFr r] {n : Nat} {x1 : Node} : Fr (callLoopF r n x1) := fr_callLoopF n x1

instance fr_parseCallExprTail {callee : Node} [RecFr r] : Fr (parseCallExprTail r callee) := by
  unfold parseCallExprTail; fr

instance fr_parseCallHead [RecFr r] : Fr (parseCallHead r) := by
  unfold parseCallHead; fr

instance fr_parseCallExpr [RecFr r] : Fr (parseCallExpr r) := by
  unfold parseCallExpr; fr

instance fr_parseNewTarget {newTok : Token} {span : Span}  : Fr (parseNewTarget newTok span) := by
  unfold parseNewTarget; fr

instance fr_parseNewCallee [RecFr r] : Fr (parseNewCallee r) := by
  unfold parseNewCallee; fr

instance fr_parseNewExpr [RecFr r] : Fr (parseNewExpr r) := by
  unfold parseNewExpr; fr

instance fr_parseLeftHandSideExpr [RecFr r] : Fr (parseLeftHandSideExpr r) := by
  unfold parseLeftHandSideExpr; fr

instance fr_parsePrefixUpdate [RecFr r] : Fr (parsePrefixUpdate r) := by
  unfold parsePrefixUpdate; fr

instance fr_parsePostfix [RecFr r] : Fr (parsePostfix r) := by
  unfold parsePostfix; fr

instance fr_parseUpdateExpr [RecFr r] : Fr (parseUpdateExpr r) := by
  unfold parseUpdateExpr; fr

instance fr_parseUnaryOp [RecFr r] : Fr (parseUnaryOp r) := by
  unfold parseUnaryOp; fr

instance fr_parseUnaryExpr [RecFr r] : Fr (parseUnaryExpr r) := by
  unfold parseUnaryExpr; fr

instance fr_parsePow [RecFr r] : Fr (parsePow r) := by
  unfold parsePow; fr

instance fr_parseExponentiationExpr [RecFr r] : Fr (parseExponentiationExpr r) := by
  unfold parseExponentiationExpr; fr

theorem fr_climbInnerF {opPrec : Nat} [RecFr r] (n : Nat) : ∀ (x1 : Node), Fr (climbInnerF r opPrec n x1) := by
  induction n with
  | zero => intro x1; exact fr_fail
  | succ n ih => intro x1; unfold climbInnerF; fr

instance fr_climbInnerF' {opPrec : Nat} [RecFr r] {n : Nat} {x1 : Node} : Fr (climbInnerF r opPrec n x1) := fr_climbInnerF n x1

instance fr_climbStep {lhs : Node} [RecFr r] : Fr (climbStep r lhs) := by
  unfold climbStep; fr

theorem fr_climbF {prec : Nat} [RecFr r] (n : Nat) : ∀ (x1 : Node), Fr (climbF r prec n x1) := by
  induction n with
  | zero => intro x1; exact fr_fail
  | succ n ih => intro x1; unfold climbF; fr

instance fr_climbF' {prec : Nat} [RecFr r] {n : Nat} {x1 : Node} : Fr (climbF r prec n x1) := fr_climbF n x1

instance fr_precedenceClimbing {lhs : Node} {prec : Nat} [RecFr r] : Fr (precedenceClimbing r lhs prec) := by
  unfold precedenceClimbing; fr

instance fr_parseBinaryExpr [RecFr r] : Fr (parseBinaryExpr r) := by
  unfold parseBinaryExpr; fr

instance fr_parseConditionalExpr [RecFr r] : Fr (parseConditionalExpr r) := by
  unfold parseConditionalExpr; fr

instance fr_parseSingleParamArrow {name : Str} [RecFr r] : Fr (parseSingleParamArrow r name) := by
  unfold parseSingleParamArrow; fr

instance fr_parseYieldExpr [RecFr r] : Fr (parseYieldExpr r) := by
  unfold parseYieldExpr; fr

instance fr_arrowIfIdentifier {lhs : Node} [RecFr r] : Fr (arrowIfIdentifier r lhs) := by
  unfold arrowIfIdentifier; fr

instance fr_parseAssignTail {lhs : Node} [RecFr r] : Fr (parseAssignTail r lhs) := by
  unfold parseAssignTail; fr

instance fr_parseOpAssignTail {lhs : Node} [RecFr r] : Fr (parseOpAssignTail r lhs) := by
  unfold parseOpAssignTail; fr

instance fr_parseAssignmentExpr [RecFr r] : Fr (parseAssignmentExpr r) := by
  unfold parseAssignmentExpr; fr

instance fr_parseBlockStmt [RecFr r] : Fr (parseBlockStmt r) := by
  unfold parseBlockStmt; fr

instance fr_parseVariableDclr [RecFr r] : Fr (parseVariableDclr r) := by
  unfold parseVariableDclr; fr

instance fr_commaDclr [RecFr r] : Fr (commaDclr r) := by
  unfold commaDclr; fr

instance fr_parseVarList [RecFr r] : Fr (parseVarList r) := by
  unfold parseVarList; fr

instance fr_parseVariableStmt [RecFr r] : Fr (parseVariableStmt r) := by
  unfold parseVariableStmt; fr

instance fr_parseLexicalDclr [RecFr r] : Fr (parseLexicalDclr r) := by
  unfold parseLexicalDclr; fr

instance fr_parseEmptyStmt  : Fr (parseEmptyStmt) := by
  unfold parseEmptyStmt; fr

instance fr_parseExpressionStmt {expression : Node}  : Fr (parseExpressionStmt expression) := by
  unfold parseExpressionStmt; fr

instance fr_parseElse [RecFr r] : Fr (parseElse r) := by
  unfold parseElse; fr

instance fr_parseIfStmt [RecFr r] : Fr (parseIfStmt r) := by
  unfold parseIfStmt; fr

instance fr_parseLoopBody [RecFr r] : Fr (parseLoopBody r) := by
  unfold parseLoopBody
  constructor
  intro s a s' h
  obtain ⟨_, _, h0, h⟩ := bind_ok_inv h; cases h0
  obtain ⟨_, s1, h1, h⟩ := bind_ok_inv h; cases h1
  obtain ⟨_, s2, h2, h⟩ := bind_ok_inv h
  obtain ⟨_, s3, h3, h⟩ := bind_ok_inv h; cases h3; cases h
  have f2 := Fr.out _ _ _ h2
  simp_all

instance fr_optExpr {close : Punctuator} [RecFr r] : Fr (optExpr r close) := by
  unfold optExpr; fr

instance fr_parseForClassic {init : Option Node} [RecFr r] : Fr (parseForClassic r init) := by
  unfold parseForClassic; fr

instance fr_parseForIn {left : Node} [RecFr r] : Fr (parseForIn r left) := by
  unfold parseForIn; fr

instance fr_parseForOf {left : Node} [RecFr r] : Fr (parseForOf r left) := by
  unfold parseForOf; fr

instance fr_forCommaDclr [RecFr r] : Fr (forCommaDclr r) := by
  unfold forCommaDclr; fr

instance fr_parseForDclrs {kind : Str} {d : VariableDeclarator} [RecFr r] : Fr (parseForDclrs r kind d) := by
  unfold parseForDclrs; fr

instance fr_parseForInit {kind : Str} {id : Binding} [RecFr r] : Fr (parseForInit r kind id) := by
  unfold parseForInit; fr

instance fr_parseForVar [RecFr r] : Fr (parseForVar r) := by
  unfold parseForVar; fr

instance fr_parseForKind  : Fr (parseForKind) := by
  unfold parseForKind; fr

instance fr_parseForLexical [RecFr r] : Fr (parseForLexical r) := by
  unfold parseForLexical; fr

instance fr_parseForTarget {expr : Node}  : Fr (parseForTarget expr) := by
  unfold parseForTarget; fr

instance fr_forCommaExpr [RecFr r] : Fr (forCommaExpr r) := by
  unfold forCommaExpr; fr

instance fr_parseForExpr [RecFr r] : Fr (parseForExpr r) := by
  unfold parseForExpr; fr

instance fr_parseForStmt [RecFr r] : Fr (parseForStmt r) := by
  unfold parseForStmt; fr

instance fr_parseWhileStmt [RecFr r] : Fr (parseWhileStmt r) := by
  unfold parseWhileStmt; fr

instance fr_parseDoWhileStmt [RecFr r] : Fr (parseDoWhileStmt r) := by
  unfold parseDoWhileStmt; fr

instance fr_parseIterationStmt [RecFr r] : Fr (parseIterationStmt r) := by
  unfold parseIterationStmt; fr

instance fr_consequentF [RecFr r] {n : Nat} : Fr (consequentF r n) := by
  induction n with
  | zero => exact fr_fail
  | succ n ih => unfold consequentF; fr

instance fr_parseConsequent [RecFr r] : Fr (parseConsequent r) := by
  unfold parseConsequent; fr

instance fr_parseCaseTest {firstDefault : Bool} [RecFr r] : Fr (parseCaseTest r firstDefault) := by
  unfold parseCaseTest; fr

theorem fr_casesF [RecFr r] (n : Nat) : ∀ (x1 : Bool), Fr (casesF r n x1) := by
  induction n with
  | zero => intro x1; exact fr_fail
  | succ n ih => intro x1; unfold casesF; fr

instance fr_casesF' [RecFr r] {n : Nat} {x1 : Bool} : Fr (casesF r n x1) := fr_casesF n x1

instance fr_parseSwitchInner [RecFr r] : Fr (parseSwitchInner r) := by
  unfold parseSwitchInner; fr

instance fr_parseSwitchStmt [RecFr r] : Fr (parseSwitchStmt r) := by
  unfold parseSwitchStmt
  refine fr_bind inferInstance (fun _ => fr_bind inferInstance (fun _ => ?_))
  constructor
  intro s a s' h
  obtain ⟨_, _, h0, h⟩ := bind_ok_inv h; cases h0
  obtain ⟨_, s1, h1, h⟩ := bind_ok_inv h; cases h1
  obtain ⟨⟨_, _⟩, s2, h2, h⟩ := bind_ok_inv h
  obtain ⟨_, s3, h3, h⟩ := bind_ok_inv h; cases h3
  obtain ⟨_, s4, h4, h⟩ := bind_ok_inv h; cases h
  have f2 := Fr.out _ _ _ h2
  have f4 := Fr.out _ _ _ h4
  simp_all

instance fr_parseLabelOpt  : Fr (parseLabelOpt) := by
  unfold parseLabelOpt; fr

instance fr_parseContinueStmt  : Fr (parseContinueStmt) := by
  unfold parseContinueStmt; fr

instance fr_parseBreakStmt  : Fr (parseBreakStmt) := by
  unfold parseBreakStmt; fr

instance fr_parseReturnArg [RecFr r] : Fr (parseReturnArg r) := by
  unfold parseReturnArg; fr

instance fr_parseReturnStmt [RecFr r] : Fr (parseReturnStmt r) := by
  unfold parseReturnStmt; fr

instance fr_parseReturn [RecFr r] : Fr (parseReturn r) := by
  unfold parseReturn; fr

instance fr_parseWithStmt [RecFr r] : Fr (parseWithStmt r) := by
  unfold parseWithStmt; fr

instance fr_parseThrowStmt [RecFr r] : Fr (parseThrowStmt r) := by
  unfold parseThrowStmt; fr

instance fr_parseCatchParam [RecFr r] : Fr (parseCatchParam r) := by
  unfold parseCatchParam; fr

instance fr_parseCatchClause [RecFr r] : Fr (parseCatchClause r) := by
  unfold parseCatchClause; fr

instance fr_parseFinallyClause [RecFr r] : Fr (parseFinallyClause r) := by
  unfold parseFinallyClause; fr

instance fr_parseTryStmt [RecFr r] : Fr (parseTryStmt r) := by
  unfold parseTryStmt; fr

instance fr_parseDebuggerStmt  : Fr (parseDebuggerStmt) := by
  unfold parseDebuggerStmt; fr

instance fr_parseGeneratorMark {allowGenerator : Bool}  : Fr (parseGeneratorMark allowGenerator) := by
  unfold parseGeneratorMark; fr

instance fr_parseFunctionName  : Fr (parseFunctionName) := by
  unfold parseFunctionName; fr

instance fr_parseFunctionDclrRest {async allowGenerator : Bool} [RecFr r] : Fr (parseFunctionDclrRest r async allowGenerator) := by
  unfold parseFunctionDclrRest; fr

instance fr_parseFunctionDclr {async allowGenerator : Bool} [RecFr r] : Fr (parseFunctionDclr r async allowGenerator) := by
  unfold parseFunctionDclr; fr

instance fr_parseHoistableDclr [RecFr r] : Fr (parseHoistableDclr r) := by
  unfold parseHoistableDclr; fr

instance fr_parseDeclaration [RecFr r] : Fr (parseDeclaration r) := by
  unfold parseDeclaration; fr

instance fr_parseLabelBody [RecFr r] : Fr (parseLabelBody r) := by
  unfold parseLabelBody; fr

instance fr_parseLabelledStmt {label : Identifier} [RecFr r] : Fr (parseLabelledStmt r label) := by
  unfold parseLabelledStmt; fr

instance fr_parseExpressionOrLabelled [RecFr r] : Fr (parseExpressionOrLabelled r) := by
  unfold parseExpressionOrLabelled; fr

instance fr_parseAsyncItem [RecFr r] : Fr (parseAsyncItem r) := by
  unfold parseAsyncItem; fr

instance fr_parseStmtListItem [RecFr r] : Fr (parseStmtListItem r) := by
  unfold parseStmtListItem; fr

instance fr_parseStatement [RecFr r] : Fr (parseStatement r) := by
  unfold parseStatement; fr

instance fr_parseImportLocal  : Fr (parseImportLocal) := by
  unfold parseImportLocal; fr

instance fr_parseModuleSpecifier  : Fr (parseModuleSpecifier) := by
  unfold parseModuleSpecifier; fr

instance fr_parseImportFrom {specifiers : List ImportDeclarationSpecifier}  : Fr (parseImportFrom specifiers) := by
  unfold parseImportFrom; fr

instance fr_parseNamespaceImport  : Fr (parseNamespaceImport) := by
  unfold parseNamespaceImport; fr

instance fr_importSpec  : Fr (importSpec) := by
  unfold importSpec; fr

instance fr_parseNamedImports  : Fr (parseNamedImports) := by
  unfold parseNamedImports; fr

instance fr_parseImportDefault  : Fr (parseImportDefault) := by
  unfold parseImportDefault; fr

instance fr_parseImportDclr  : Fr (parseImportDclr) := by
  unfold parseImportDclr; fr

instance fr_exportSpec  : Fr (exportSpec) := by
  unfold exportSpec; fr

instance fr_parseNamedExports  : Fr (parseNamedExports) := by
  unfold parseNamedExports; fr

instance fr_parseExportDefault [RecFr r] : Fr (parseExportDefault r) := by
  unfold parseExportDefault; fr

instance fr_parseExportNamed  : Fr (parseExportNamed) := by
  unfold parseExportNamed; fr

instance fr_parseExportAll  : Fr (parseExportAll) := by
  unfold parseExportAll; fr

instance fr_parseExportDclr [RecFr r] : Fr (parseExportDclr r) := by
  unfold parseExportDclr; fr

instance fr_parseModuleItem [RecFr r] : Fr (parseModuleItem r) := by
  unfold parseModuleItem; fr

theorem frS_parseScriptBody [RecFr r] : FrS (parseScriptBody r) := by
  unfold parseScriptBody
  refine frS_bind (frS_of inferInstance) (fun _ => ?_)
  refine frS_bind frS_parseDirectivePrologues (fun _ => ?_)
  exact frS_of (by fr)



/-- the recursive entry points -/
instance recFr_run : ∀ n, RecFr (run n) := by
  intro n
  induction n with
  | zero => exact ⟨fr_fail, fr_fail, fr_fail, fr_fail, fr_fail, fr_fail, fun _ _ => fr_fail, fr_fail, fr_fail⟩
  | succ n ih =>
    exact ⟨fr_parseAssignmentExpr, fr_parseStmtListItem, fr_parseStatement, fr_parseUnaryExpr,
      fr_parseExponentiationExpr, fr_parseNewExpr, fun _ _ => fr_precedenceClimbing, fr_parseBindingIdOrPat,
      fr_parseLeftHandSideExpr⟩

end Parser
end Giron

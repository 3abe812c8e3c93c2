import Verif.Proofs.Shift.Primary
/-
Two runs: operators, statements, modules.
-/
namespace Giron
open M Spec

namespace Parser
variable [Env] {α β : Type} [Mv α] [Mv β] {μ : Mode} {r r' : Rec}

instance sim_parseComputedMemberExpr [RecSim μ r r'] {object : Node} : Sim μ (parseComputedMemberExpr r object) (parseComputedMemberExpr r' (mv μ.d μ.ℓ object)) := by
  unfold parseComputedMemberExpr; psim

instance sim_parseStaticMemberExpr {object : Node} : Sim μ (parseStaticMemberExpr object) (parseStaticMemberExpr (mv μ.d μ.ℓ object)) := by
  unfold parseStaticMemberExpr; psim

instance sim_parseSuper : Sim μ (parseSuper ) (parseSuper ) := by
  unfold parseSuper; psim

theorem sim_memberLoopF [RecSim μ r r'] (n : Nat) (e : Node) : Sim μ (memberLoopF r n e) (memberLoopF r' n (mv μ.d μ.ℓ e)) := by
  induction n generalizing e with
  | zero => exact sim_fuelL
  | succ n ih =>
    unfold memberLoopF
    psim1
    psim1
    · exact sim_bind inferInstance (fun _ => ih _)
    psim1
    · exact sim_bind inferInstance (fun _ => ih _)
    psim1
    · exact sim_bind inferInstance (fun _ => ih _)
    psim

instance sim_parseMemberHead [RecSim μ r r'] : Sim μ (parseMemberHead r) (parseMemberHead r') := by
  unfold parseMemberHead; psim

instance sim_parseMemberExpr [RecSim μ r r'] : Sim μ (parseMemberExpr r) (parseMemberExpr r') :=
  sim_bind inferInstance (fun _ => sim_budget (fun n => sim_memberLoopF n _))

theorem sim_callLoopF [RecSim μ r r'] (n : Nat) (e : Node) : Sim μ (callLoopF r n e) (callLoopF r' n (mv μ.d μ.ℓ e)) := by
  induction n generalizing e with
  | zero => exact sim_fuelL
  | succ n ih =>
    unfold callLoopF
    psim1
    psim1
    · psim1; psim1
      rename_i a sp
      have := ih (.callExpression e a .invalid sp)
      simp only [mv, moveNode, moveListArgumentListElement_eq] at this
      exact this
    psim1
    · exact sim_bind inferInstance (fun _ => ih _)
    psim1
    · exact sim_bind inferInstance (fun _ => ih _)
    psim1
    · exact sim_bind inferInstance (fun _ => ih _)
    psim

instance sim_parseCallExprTail [RecSim μ r r'] {n : Node} :
    Sim μ (parseCallExprTail r n) (parseCallExprTail r' (mv μ.d μ.ℓ n)) := by
  unfold parseCallExprTail
  refine sim_bind (sim_budget (fun k => sim_callLoopF k n)) (fun _ => ?_)
  psim

instance sim_parseCallHead [RecSim μ r r'] : Sim μ (parseCallHead r) (parseCallHead r') := by
  unfold parseCallHead; psim

instance sim_parseCallExpr [RecSim μ r r'] : Sim μ (parseCallExpr r) (parseCallExpr r') := by
  unfold parseCallExpr; psim

instance sim_parseNewTarget {t : Token} {sp : Span} : Sim μ (parseNewTarget t sp) (parseNewTarget (mv μ.d μ.ℓ t) (mv μ.d μ.ℓ sp)) := by
  unfold parseNewTarget; psim

instance sim_parseNewCallee [RecSim μ r r'] : Sim μ (parseNewCallee r) (parseNewCallee r') := by
  unfold parseNewCallee
  psim1; psim1; psim1
  · psim
  · psim1
    rename_i c _ a sp
    have := sim_parseCallExprTail (μ := μ) (r := r) (r' := r') (n := .newExpression c a .invalid sp)
    simp only [mv, moveNode, moveListArgumentListElement_eq] at this
    exact this

instance sim_parseNewExpr [RecSim μ r r'] : Sim μ (parseNewExpr r) (parseNewExpr r') := by
  unfold parseNewExpr; psim

instance sim_parseLeftHandSideExpr [RecSim μ r r'] : Sim μ (parseLeftHandSideExpr r) (parseLeftHandSideExpr r') := by
  unfold parseLeftHandSideExpr; psim

instance sim_parsePrefixUpdate [RecSim μ r r'] : Sim μ (parsePrefixUpdate r) (parsePrefixUpdate r') := by
  unfold parsePrefixUpdate
  psim1; psim1; psim1; psim1
  rename_i e
  refine sim_ite ?_ (fun _ => ?_) (fun _ => ?_)
  · show _ ↔ (moveNode _ _ e).assignTargetType = _ ∨ (moveNode _ _ e).assignTargetType = _
    rw [assignTargetType_mv]
  · exact sim_fail rfl
  · psim

instance sim_parsePostfix [RecSim μ r r'] : Sim μ (parsePostfix r) (parsePostfix r') := by
  unfold parsePostfix
  psim1; psim1; psim1
  rename_i e
  psim1; psim1
  · refine sim_ite ?_ (fun _ => ?_) (fun _ => ?_)
    · show _ ↔ (moveNode _ _ e).assignTargetType = _ ∨ (moveNode _ _ e).assignTargetType = _
      rw [assignTargetType_mv]
    · exact sim_fail rfl
    · psim
  · psim

instance sim_parseUpdateExpr [RecSim μ r r'] : Sim μ (parseUpdateExpr r) (parseUpdateExpr r') := by
  unfold parseUpdateExpr; psim

instance sim_parseUnaryOp [RecSim μ r r'] : Sim μ (parseUnaryOp r) (parseUnaryOp r') := by
  unfold parseUnaryOp; psim

instance sim_parseUnaryExpr [RecSim μ r r'] : Sim μ (parseUnaryExpr r) (parseUnaryExpr r') := by
  unfold parseUnaryExpr; psim

instance sim_parsePow [RecSim μ r r'] : Sim μ (parsePow r) (parsePow r') := by
  unfold parsePow; psim

instance sim_parseExponentiationExpr [RecSim μ r r'] : Sim μ (parseExponentiationExpr r) (parseExponentiationExpr r') := by
  unfold parseExponentiationExpr; psim

theorem sim_climbInnerF [h : RecSim μ r r'] (p n : Nat) (e : Node) :
    Sim μ (climbInnerF r p n e) (climbInnerF r' p n (mv μ.d μ.ℓ e)) := by
  induction n generalizing e with
  | zero => exact sim_fuelL
  | succ n ih =>
    unfold climbInnerF
    psim1
    psim1
    · exact sim_bind (h.precedenceClimbing _ _) (fun _ => ih _)
    · psim

instance sim_climbStep [h : RecSim μ r r'] {n : Node} : Sim μ (climbStep r n) (climbStep r' (mv μ.d μ.ℓ n)) := by
  unfold climbStep
  psim1; psim1; psim1
  refine sim_bind (sim_budget (fun k => sim_climbInnerF _ k _)) (fun _ => ?_)
  psim

theorem sim_climbF [h : RecSim μ r r'] (p n : Nat) (e : Node) : Sim μ (climbF r p n e) (climbF r' p n (mv μ.d μ.ℓ e)) := by
  induction n generalizing e with
  | zero => exact sim_fuelL
  | succ n ih =>
    unfold climbF
    psim1
    psim1
    · exact sim_bind inferInstance (fun _ => ih _)
    · psim

instance sim_precedenceClimbing [h : RecSim μ r r'] {n : Node} {k} :
    Sim μ (precedenceClimbing r n k) (precedenceClimbing r' (mv μ.d μ.ℓ n) k) := by
  unfold precedenceClimbing
  refine sim_bind (sim_budget (fun j => sim_climbF k j n)) (fun _ => ?_)
  psim

instance sim_parseBinaryExpr [RecSim μ r r'] : Sim μ (parseBinaryExpr r) (parseBinaryExpr r') := by
  unfold parseBinaryExpr; psim

instance sim_parseConditionalExpr [RecSim μ r r'] : Sim μ (parseConditionalExpr r) (parseConditionalExpr r') := by
  unfold parseConditionalExpr; psim

instance sim_parseSingleParamArrow [RecSim μ r r'] {name} : Sim μ (parseSingleParamArrow r name) (parseSingleParamArrow r' name) := by
  unfold parseSingleParamArrow; psim

instance sim_parseYieldExpr [RecSim μ r r'] : Sim μ (parseYieldExpr r) (parseYieldExpr r') := by
  unfold parseYieldExpr; psim

instance sim_arrowIfIdentifier [RecSim μ r r'] {n : Node} :
    Sim μ (arrowIfIdentifier r n) (arrowIfIdentifier r' (mv μ.d μ.ℓ n)) := by
  cases n <;> first
    | exact sim_pure rfl
    | exact sim_bind inferInstance (fun _ => sim_ite Iff.rfl (fun _ => inferInstance) (fun _ => sim_pure rfl))

instance sim_parseAssignTail [RecSim μ r r'] {n : Node} : Sim μ (parseAssignTail r n) (parseAssignTail r' (mv μ.d μ.ℓ n)) := by
  unfold parseAssignTail
  psim1
  refine sim_bind (sim_ofExcept (toAssignmentPattern_mv n)) (fun e => ?_)
  refine sim_ite ?_ (fun _ => ?_) (fun _ => ?_)
  · show _ ↔ (moveNode _ _ e).assignTargetType ≠ _
    rw [assignTargetType_mv]
  · exact sim_fail rfl
  · psim

instance sim_parseOpAssignTail [RecSim μ r r'] {n : Node} : Sim μ (parseOpAssignTail r n) (parseOpAssignTail r' (mv μ.d μ.ℓ n)) := by
  unfold parseOpAssignTail
  psim1
  psim1
  · psim1
  · refine sim_ite ?_ (fun _ => ?_) (fun _ => ?_)
    · show _ ↔ (moveNode _ _ n).assignTargetType ≠ _
      rw [assignTargetType_mv]
    · exact sim_fail rfl
    · psim

instance sim_parseAssignmentExpr [RecSim μ r r'] : Sim μ (parseAssignmentExpr r) (parseAssignmentExpr r') := by
  unfold parseAssignmentExpr; psim

/-! ### statements -/

instance sim_parseBlockStmt [RecSim μ r r'] : Sim μ (parseBlockStmt r) (parseBlockStmt r') := by
  unfold parseBlockStmt; psim

instance sim_parseVariableDclr [RecSim μ r r'] : Sim μ (parseVariableDclr r) (parseVariableDclr r') := by
  unfold parseVariableDclr
  psim1
  rename_i id
  psim1; psim1
  · psim
  · cases id <;> first
      | exact sim_pure rfl
      | exact sim_bind inferInstance (fun _ => sim_fail rfl)

instance sim_commaDclr [RecSim μ r r'] : Sim μ (commaDclr r) (commaDclr r') := by
  unfold commaDclr; psim

instance sim_parseVarList [RecSim μ r r'] : Sim μ (parseVarList r) (parseVarList r') := by
  unfold parseVarList; psim

instance sim_parseVariableStmt [RecSim μ r r'] : Sim μ (parseVariableStmt r) (parseVariableStmt r') := by
  unfold parseVariableStmt; psim

instance sim_parseLexicalDclr [RecSim μ r r'] : Sim μ (parseLexicalDclr r) (parseLexicalDclr r') := by
  unfold parseLexicalDclr; psim

instance sim_parseEmptyStmt : Sim μ (parseEmptyStmt ) (parseEmptyStmt ) := by
  unfold parseEmptyStmt; psim

instance sim_parseExpressionStmt {n : Node} : Sim μ (parseExpressionStmt n) (parseExpressionStmt (mv μ.d μ.ℓ n)) := by
  unfold parseExpressionStmt; psim

instance sim_parseElse [RecSim μ r r'] : Sim μ (parseElse r) (parseElse r') := by
  unfold parseElse; psim

instance sim_parseIfStmt [RecSim μ r r'] : Sim μ (parseIfStmt r) (parseIfStmt r') := by
  unfold parseIfStmt; psim

instance sim_parseLoopBody [RecSim μ r r'] : Sim μ (parseLoopBody r) (parseLoopBody r') := by
  unfold parseLoopBody; psim

instance sim_optExpr [RecSim μ r r'] {p} : Sim μ (optExpr r p) (optExpr r' p) := by
  unfold optExpr; psim

instance sim_parseForClassic [RecSim μ r r'] {n : Option Node} : Sim μ (parseForClassic r n) (parseForClassic r' (mv μ.d μ.ℓ n)) := by
  unfold parseForClassic; psim

instance sim_parseForIn [RecSim μ r r'] {left : Node} : Sim μ (parseForIn r left) (parseForIn r' (mv μ.d μ.ℓ left)) := by
  unfold parseForIn; psim

instance sim_parseForOf [RecSim μ r r'] {left : Node} : Sim μ (parseForOf r left) (parseForOf r' (mv μ.d μ.ℓ left)) := by
  unfold parseForOf; psim

instance sim_forCommaDclr [RecSim μ r r'] : Sim μ (forCommaDclr r) (forCommaDclr r') := by
  unfold forCommaDclr; psim

instance sim_parseForDclrs [RecSim μ r r'] {k} {x : VariableDeclarator} :
    Sim μ (parseForDclrs r k x) (parseForDclrs r' k (mv μ.d μ.ℓ x)) := by
  unfold parseForDclrs
  psim1; psim1
  rename_i l sp
  have := sim_parseForClassic (μ := μ) (r := r) (r' := r') (n := some (.variableDeclaration (x :: l) k sp))
  simp only [mv, Option.map, moveNode, moveListVariableDeclarator_eq, List.map] at this
  exact this

instance sim_parseForInit [RecSim μ r r'] {k} {b : Binding} : Sim μ (parseForInit r k b) (parseForInit r' k (mv μ.d μ.ℓ b)) := by
  unfold parseForInit
  psim1; psim1
  rename_i i
  exact sim_parseForDclrs (x := .mk b (some i))

instance sim_parseForVar [RecSim μ r r'] : Sim μ (parseForVar r) (parseForVar r') := by
  unfold parseForVar
  psim1; psim1; psim1
  rename_i id
  psim1; psim1
  · psim
  psim1
  · psim
  psim1
  · psim
  cases id <;> first
    | exact sim_parseForDclrs (x := .mk (.bindingIdentifier _ _) none)
    | exact sim_errorCurrent

instance sim_parseForKind : Sim μ (parseForKind ) (parseForKind ) := by
  unfold parseForKind; psim

instance sim_parseForLexical [RecSim μ r r'] : Sim μ (parseForLexical r) (parseForLexical r') := by
  unfold parseForLexical
  psim1; psim1; psim1; psim1; psim1
  rename_i id
  psim1; psim1
  · psim
  psim1
  · psim
  psim1
  · psim
  cases id <;> first
    | exact sim_parseForDclrs (x := .mk (.bindingIdentifier _ _) none)
    | exact sim_fail rfl

theorem forTarget_mv (n : Node) : forTarget (moveNode d ℓ n) = mvEx d ℓ (forTarget n) := by
  have := toAssignmentPattern_mv (d := d) (ℓ := ℓ) n
  cases n <;> first | rfl | exact this

instance sim_parseForTarget {n : Node} : Sim μ (parseForTarget n) (parseForTarget (mv μ.d μ.ℓ n)) := by
  unfold parseForTarget
  psim1
  refine sim_bind (sim_ofExcept (forTarget_mv n)) (fun e => ?_)
  refine sim_ite ?_ (fun _ => ?_) (fun _ => ?_)
  · show _ ↔ (moveNode _ _ e).assignTargetType ≠ _
    rw [assignTargetType_mv]
  · exact sim_bind inferInstance (fun _ => sim_fail rfl)
  · psim

instance sim_forCommaExpr [RecSim μ r r'] : Sim μ (forCommaExpr r) (forCommaExpr r') := by
  unfold forCommaExpr; psim

instance sim_parseForExpr [RecSim μ r r'] : Sim μ (parseForExpr r) (parseForExpr r') := by
  unfold parseForExpr
  psim1; psim1; psim1
  · exact sim_parseForClassic (n := none)
  psim1; psim1; psim1
  · psim
  psim1
  · psim
  psim1; psim1
  rename_i e _ _ _ l sp
  have := sim_parseForClassic (μ := μ) (r := r) (r' := r') (n := some (.sequenceExpression (e :: l) .invalid sp))
  simp only [mv, Option.map, moveNode, moveListNode_eq, List.map] at this
  exact this

instance sim_parseForStmt [RecSim μ r r'] : Sim μ (parseForStmt r) (parseForStmt r') := by
  unfold parseForStmt; psim

instance sim_parseWhileStmt [RecSim μ r r'] : Sim μ (parseWhileStmt r) (parseWhileStmt r') := by
  unfold parseWhileStmt; psim

instance sim_parseDoWhileStmt [RecSim μ r r'] : Sim μ (parseDoWhileStmt r) (parseDoWhileStmt r') := by
  unfold parseDoWhileStmt; psim

instance sim_parseIterationStmt [RecSim μ r r'] : Sim μ (parseIterationStmt r) (parseIterationStmt r') := by
  unfold parseIterationStmt; psim

theorem sim_consequentF [RecSim μ r r'] (n : Nat) : Sim μ (consequentF r n) (consequentF r' n) := by
  induction n with
  | zero => exact sim_fuelL
  | succ n ih => unfold consequentF; psim

instance sim_parseConsequent [RecSim μ r r'] : Sim μ (parseConsequent r) (parseConsequent r') :=
  sim_budget (fun n => sim_consequentF n)

instance sim_parseCaseTest [RecSim μ r r'] {b} : Sim μ (parseCaseTest r b) (parseCaseTest r' b) := by
  unfold parseCaseTest; psim

theorem sim_casesF [RecSim μ r r'] (n : Nat) (b : Bool) : Sim μ (casesF r n b) (casesF r' n b) := by
  induction n generalizing b with
  | zero => exact sim_fuelL
  | succ n ih =>
    unfold casesF
    psim1
    rename_i p
    obtain ⟨t, b⟩ := p
    show Sim μ (consume _ >>= _) (consume _ >>= _)
    psim1; psim1; psim1; psim1
    · psim
    · refine sim_bind (ih _) (fun _ => ?_)
      psim

instance sim_parseSwitchInner [RecSim μ r r'] : Sim μ (parseSwitchInner r) (parseSwitchInner r') := by
  unfold parseSwitchInner
  psim1; psim1; psim1; psim1
  refine sim_bind (sim_budget (fun n => sim_casesF n _)) (fun _ => ?_)
  psim

instance sim_parseSwitchStmt [RecSim μ r r'] : Sim μ (parseSwitchStmt r) (parseSwitchStmt r') := by
  unfold parseSwitchStmt; psim

instance sim_parseLabelOpt : Sim μ (parseLabelOpt ) (parseLabelOpt ) := by
  unfold parseLabelOpt; psim

instance sim_parseContinueStmt : Sim μ parseContinueStmt parseContinueStmt := by
  unfold parseContinueStmt
  psim1; psim1; psim1
  rename_i l
  psim1
  refine sim_ite ?_ (fun _ => ?_) (fun _ => ?_)
  · show _ ↔ (Option.map _ l).isNone = true ∧ _
    cases l <;> rfl
  · psim
  · psim

instance sim_parseBreakStmt : Sim μ parseBreakStmt parseBreakStmt := by
  unfold parseBreakStmt
  psim1; psim1; psim1
  rename_i l
  psim1
  refine sim_ite ?_ (fun _ => ?_) (fun _ => ?_)
  · show _ ↔ (Option.map _ l).isNone = true ∧ _
    cases l <;> rfl
  · psim
  · psim

instance sim_parseReturnArg [RecSim μ r r'] : Sim μ (parseReturnArg r) (parseReturnArg r') := by
  unfold parseReturnArg; psim

instance sim_parseReturnStmt [RecSim μ r r'] : Sim μ (parseReturnStmt r) (parseReturnStmt r') := by
  unfold parseReturnStmt; psim

instance sim_parseReturn [RecSim μ r r'] : Sim μ (parseReturn r) (parseReturn r') := by
  unfold parseReturn; psim

instance sim_parseWithStmt [RecSim μ r r'] : Sim μ (parseWithStmt r) (parseWithStmt r') := by
  unfold parseWithStmt; psim

instance sim_parseThrowStmt [RecSim μ r r'] : Sim μ (parseThrowStmt r) (parseThrowStmt r') := by
  unfold parseThrowStmt; psim

instance sim_parseCatchParam [RecSim μ r r'] : Sim μ (parseCatchParam r) (parseCatchParam r') := by
  unfold parseCatchParam; psim

instance sim_parseCatchClause [RecSim μ r r'] : Sim μ (parseCatchClause r) (parseCatchClause r') := by
  unfold parseCatchClause; psim

instance sim_parseFinallyClause [RecSim μ r r'] : Sim μ (parseFinallyClause r) (parseFinallyClause r') := by
  unfold parseFinallyClause; psim

instance sim_parseTryStmt [RecSim μ r r'] : Sim μ (parseTryStmt r) (parseTryStmt r') := by
  unfold parseTryStmt; psim

instance sim_parseDebuggerStmt : Sim μ (parseDebuggerStmt ) (parseDebuggerStmt ) := by
  unfold parseDebuggerStmt; psim

instance sim_parseGeneratorMark {b} : Sim μ (parseGeneratorMark b) (parseGeneratorMark b) := by
  unfold parseGeneratorMark; psim

instance sim_parseFunctionName : Sim μ parseFunctionName parseFunctionName := by
  unfold parseFunctionName
  psim1; psim1
  · psim
  · psim1
    rename_i b
    cases b <;> first | exact sim_pure rfl | exact sim_unexpectedCurrent

instance sim_parseFunctionDclrRest [RecSim μ r r'] {a g} : Sim μ (parseFunctionDclrRest r a g) (parseFunctionDclrRest r' a g) := by
  unfold parseFunctionDclrRest
  refine sim_bind (sim_when Iff.rfl inferInstance) (fun _ => ?_)
  psim

instance sim_parseFunctionDclr [RecSim μ r r'] {a} {g} : Sim μ (parseFunctionDclr r a g) (parseFunctionDclr r' a g) := by
  unfold parseFunctionDclr; psim

instance sim_parseHoistableDclr [RecSim μ r r'] : Sim μ (parseHoistableDclr r) (parseHoistableDclr r') := by
  unfold parseHoistableDclr; psim

instance sim_parseDeclaration [RecSim μ r r'] : Sim μ (parseDeclaration r) (parseDeclaration r') := by
  unfold parseDeclaration; psim

instance sim_parseLabelBody [RecSim μ r r'] : Sim μ (parseLabelBody r) (parseLabelBody r') := by
  unfold parseLabelBody; psim

instance sim_parseLabelledStmt [RecSim μ r r'] {label : Identifier} : Sim μ (parseLabelledStmt r label) (parseLabelledStmt r' (mv μ.d μ.ℓ label)) := by
  unfold parseLabelledStmt; psim

instance sim_parseExpressionOrLabelled [RecSim μ r r'] : Sim μ (parseExpressionOrLabelled r) (parseExpressionOrLabelled r') := by
  unfold parseExpressionOrLabelled
  psim1; psim1
  rename_i e
  psim1; psim1
  · cases e <;> first
      | exact sim_parseExpressionStmt
      | exact sim_parseLabelledStmt (label := ⟨_, _⟩)
  · psim

instance sim_parseAsyncItem [RecSim μ r r'] : Sim μ (parseAsyncItem r) (parseAsyncItem r') := by
  unfold parseAsyncItem
  psim1; psim1; psim1
  rename_i t n
  refine sim_ite ?_ (fun _ => ?_) (fun _ => ?_)
  · show _ ↔ n.isKw _ = true ∧ t.lineNum + μ.ℓ = n.lineNum + μ.ℓ
    rw [Nat.add_right_cancel_iff]
  · psim
  · psim

instance sim_parseStmtListItem [RecSim μ r r'] : Sim μ (parseStmtListItem r) (parseStmtListItem r') := by
  unfold parseStmtListItem; psim

instance sim_parseStatement [RecSim μ r r'] : Sim μ (parseStatement r) (parseStatement r') := by
  unfold parseStatement; psim

/-- the recursive entry points are related, whatever the depth -/
instance recSim_run : ∀ n n', RecSim μ (run n) (run n') := by
  intro n
  induction n with
  | zero =>
    intro n'
    exact ⟨sim_fuelL, sim_fuelL, sim_fuelL, sim_fuelL, sim_fuelL, sim_fuelL, fun _ _ => sim_fuelL, sim_fuelL, sim_fuelL⟩
  | succ n ih =>
    intro n'
    cases n' with
    | zero => exact ⟨sim_fuelR, sim_fuelR, sim_fuelR, sim_fuelR, sim_fuelR, sim_fuelR, fun _ _ => sim_fuelR, sim_fuelR, sim_fuelR⟩
    | succ n' =>
      have := ih n'
      exact ⟨sim_parseAssignmentExpr, sim_parseStmtListItem, sim_parseStatement, sim_parseUnaryExpr,
        sim_parseExponentiationExpr, sim_parseNewExpr, fun _ _ => sim_precedenceClimbing, sim_parseBindingIdOrPat,
        sim_parseLeftHandSideExpr⟩

/-! ### modules -/

instance sim_parseImportLocal : Sim μ (parseImportLocal ) (parseImportLocal ) := by
  unfold parseImportLocal; psim

instance sim_parseModuleSpecifier : Sim μ (parseModuleSpecifier ) (parseModuleSpecifier ) := by
  unfold parseModuleSpecifier; psim

instance sim_parseImportFrom {l : List ImportDeclarationSpecifier} :
    Sim μ (parseImportFrom l) (parseImportFrom (mv μ.d μ.ℓ l)) := by
  unfold parseImportFrom; psim

instance sim_parseNamespaceImport : Sim μ (parseNamespaceImport ) (parseNamespaceImport ) := by
  unfold parseNamespaceImport; psim

instance sim_importSpec : Sim μ (importSpec ) (importSpec ) := by
  unfold importSpec; psim

instance sim_parseNamedImports : Sim μ (parseNamedImports ) (parseNamedImports ) := by
  unfold parseNamedImports; psim

instance sim_importFromCons {a : Identifier} {l : List ImportDeclarationSpecifier} :
    Sim μ (parseImportFrom (.importSpecifier a a :: l))
      (parseImportFrom (.importSpecifier (mv μ.d μ.ℓ a) (mv μ.d μ.ℓ a) :: mv μ.d μ.ℓ l)) :=
  sim_parseImportFrom (l := .importSpecifier a a :: l)

instance sim_importFromOne {a : Identifier} : Sim μ (parseImportFrom [.importSpecifier a a])
      (parseImportFrom [.importSpecifier (mv μ.d μ.ℓ a) (mv μ.d μ.ℓ a)]) :=
  sim_parseImportFrom (l := [.importSpecifier a a])

instance sim_parseImportDefault : Sim μ (parseImportDefault ) (parseImportDefault ) := by
  unfold parseImportDefault; psim

instance sim_parseImportDclr : Sim μ (parseImportDclr ) (parseImportDclr ) := by
  unfold parseImportDclr; psim

instance sim_exportSpec : Sim μ (exportSpec ) (exportSpec ) := by
  unfold exportSpec; psim

instance sim_parseNamedExports : Sim μ (parseNamedExports ) (parseNamedExports ) := by
  unfold parseNamedExports; psim

instance sim_parseExportDefault [RecSim μ r r'] : Sim μ (parseExportDefault r) (parseExportDefault r') := by
  unfold parseExportDefault; psim

instance sim_parseExportNamed : Sim μ (parseExportNamed ) (parseExportNamed ) := by
  unfold parseExportNamed; psim

instance sim_parseExportAll : Sim μ (parseExportAll ) (parseExportAll ) := by
  unfold parseExportAll; psim

instance sim_parseExportDclr [RecSim μ r r'] : Sim μ (parseExportDclr r) (parseExportDclr r') := by
  unfold parseExportDclr; psim

instance sim_parseModuleItem [RecSim μ r r'] : Sim μ (parseModuleItem r) (parseModuleItem r') := by
  unfold parseModuleItem; psim

instance sim_parseScriptBody [RecSim μ r r'] : Sim μ (parseScriptBody r) (parseScriptBody r') := by
  unfold parseScriptBody; psim

instance sim_parseModuleBody [RecSim μ r r'] : Sim μ (parseModuleBody r) (parseModuleBody r') := by
  unfold parseModuleBody; psim

end Parser
end Giron

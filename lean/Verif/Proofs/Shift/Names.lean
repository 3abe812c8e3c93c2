import Verif.Proofs.Shift.Sim
/-
Two runs: utility methods, names, patterns, classes.
-/
namespace Giron
open M Spec

namespace Parser
variable [Env] {α β : Type} [Mv α] [Mv β] {μ : Mode} {r r' : Rec}

omit [Env] in
theorem methodKind_mv {d ℓ : Nat} (k : PropertyKey) : methodKind (movePropertyKey d ℓ k) = methodKind k := by cases k <;> rfl

/-- moved values, computed -/
macro "mvsimp" : tactic => `(tactic| simp [mv, moveNode, moveBinding, moveArrayExpressionElement, moveArrayPatternElement,
  moveArrayAssignmentPatternElement, movePropertyKey, moveFnExpr, movePropertyValue, moveObjectPatternProperty,
  moveBindingPattern, moveFunctionParameter, moveArgumentListElement, moveObjectExpressionProperty, moveMethodDefinition,
  moveSwitchCase, moveVariableDeclarator, moveCatchClause, moveIdentifier, moveLiteral, moveExportSpecifier,
  moveImportSpecifier, moveVoE, keyAsNode_mv, methodKind_mv])

/-- one step -/
macro "psim1" : tactic => `(tactic| first
  | exact inferInstance
  | ((with_reducible refine sim_ite ?_ (fun _ => ?_) (fun _ => ?_)); exact Iff.rfl)
  | (with_reducible refine sim_get (fun _ _ _ _ => ?_))
  | (with_reducible exact sim_panic)
  | ((with_reducible refine sim_pure ?_); first | rfl | focus (mvsimp; done))
  | ((with_reducible refine sim_fail ?_); rfl)
  | ((with_reducible refine sim_unwrapId ?_ (fun _ => ?_)) <;> rfl)
  | (refine sim_bind inferInstance (fun _ => ?_))
  | (with_reducible exact sim_modify (fun _ _ h => by cases h with | mk h => exact .mk h) (fun _ => rfl) (fun _ => rfl))
  | ((with_reducible refine sim_when ?_ ?_); exact Iff.rfl)
  | ((with_reducible refine sim_ofExcept ?_); first | exact toNode_mv _ | exact toId_mv _ | exact toBindingPattern_mv _ | exact toAssignmentPattern_mv _)
  | (with_reducible refine sim_bind ?_ (fun _ => ?_))
  | ((refine sim_pure ?_); focus (mvsimp; done)))

/-- all of them -/
macro "psim" : tactic => `(tactic| repeat psim1)

/-- the recursive entry points are related -/
class RecSim (μ : Mode) (r r' : Rec) : Prop where
  assignmentExpr : Sim μ r.assignmentExpr r'.assignmentExpr
  stmtListItem : Sim μ r.stmtListItem r'.stmtListItem
  statement : Sim μ r.statement r'.statement
  unaryExpr : Sim μ r.unaryExpr r'.unaryExpr
  exponentiationExpr : Sim μ r.exponentiationExpr r'.exponentiationExpr
  newExpr : Sim μ r.newExpr r'.newExpr
  precedenceClimbing : ∀ n k, Sim μ (r.precedenceClimbing n k) (r'.precedenceClimbing (moveNode μ.d μ.ℓ n) k)
  bindingIdOrPat : Sim μ r.bindingIdOrPat r'.bindingIdOrPat
  leftHandSideExpr : Sim μ r.leftHandSideExpr r'.leftHandSideExpr

instance sim_rAssign [h : RecSim μ r r'] : Sim μ r.assignmentExpr r'.assignmentExpr := h.assignmentExpr
instance sim_rItem [h : RecSim μ r r'] : Sim μ r.stmtListItem r'.stmtListItem := h.stmtListItem
instance sim_rStatement [h : RecSim μ r r'] : Sim μ r.statement r'.statement := h.statement
instance sim_rUnary [h : RecSim μ r r'] : Sim μ r.unaryExpr r'.unaryExpr := h.unaryExpr
instance sim_rExp [h : RecSim μ r r'] : Sim μ r.exponentiationExpr r'.exponentiationExpr := h.exponentiationExpr
instance sim_rNew [h : RecSim μ r r'] : Sim μ r.newExpr r'.newExpr := h.newExpr
instance sim_rBinding [h : RecSim μ r r'] : Sim μ r.bindingIdOrPat r'.bindingIdOrPat := h.bindingIdOrPat
instance sim_rLhs [h : RecSim μ r r'] : Sim μ r.leftHandSideExpr r'.leftHandSideExpr := h.leftHandSideExpr

instance sim_consume {p g} : Sim μ (consume p g) (consume p g) := by unfold consume; psim
instance sim_consumeKw {p g} : Sim μ (consumeKw p g) (consumeKw p g) := by unfold consumeKw; psim
instance sim_consumeId {p g} : Sim μ (consumeId p g) (consumeId p g) := by unfold consumeId; psim
instance sim_consumeSemicolon {g} : Sim μ (consumeSemicolon g) (consumeSemicolon g) := by unfold consumeSemicolon; psim

instance sim_withIn {b} {m m' : PM α} [Sim μ m m'] : Sim μ (withIn b m) (withIn b m') := by unfold withIn; psim
instance sim_withDefault {b} {m m' : PM α} [Sim μ m m'] : Sim μ (withDefault b m) (withDefault b m') := by unfold withDefault; psim
instance sim_withReturn {b} {m m' : PM α} [Sim μ m m'] : Sim μ (withReturn b m) (withReturn b m') := by unfold withReturn; psim
instance sim_withYield {b} {m m' : PM α} [Sim μ m m'] : Sim μ (withYield b m) (withYield b m') := by unfold withYield; psim
instance sim_withAwait {b} {m m' : PM α} [Sim μ m m'] : Sim μ (withAwait b m) (withAwait b m') := by unfold withAwait; psim
instance sim_withYieldAwait {b c} {m m' : PM α} [Sim μ m m'] : Sim μ (withYieldAwait b c m) (withYieldAwait b c m') := by
  unfold withYieldAwait; psim

theorem sim_whilePuncF {p} {m m' : PM α} [h : Sim μ m m'] (n : Nat) : Sim μ (whilePuncF p m n) (whilePuncF p m' n) := by
  induction n with
  | zero => exact sim_fuelL
  | succ n ih => unfold whilePuncF; psim

instance sim_whilePunc {p} {m m' : PM α} [Sim μ m m'] : Sim μ (whilePunc p m) (whilePunc p m') :=
  sim_budget (fun n => sim_whilePuncF n)

theorem sim_untilPuncF {p} {m m' : PM α} [h : Sim μ m m'] (n : Nat) : Sim μ (untilPuncF p m n) (untilPuncF p m' n) := by
  induction n with
  | zero => exact sim_fuelL
  | succ n ih => unfold untilPuncF; psim

instance sim_untilPunc {p} {m m' : PM α} [Sim μ m m'] : Sim μ (untilPunc p m) (untilPunc p m') :=
  sim_budget (fun n => sim_untilPuncF n)

theorem sim_untilPuncOrRestF {p} {m m' : PM α} [h : Sim μ m m'] (n : Nat) :
    Sim μ (untilPuncOrRestF p m n) (untilPuncOrRestF p m' n) := by
  induction n with
  | zero => exact sim_fuelL
  | succ n ih => unfold untilPuncOrRestF; psim

instance sim_untilPuncOrRest {p} {m m' : PM α} [Sim μ m m'] : Sim μ (untilPuncOrRest p m) (untilPuncOrRest p m') :=
  sim_budget (fun n => sim_untilPuncOrRestF n)

theorem sim_untilEofF {m m' : PM Node} [h : Sim μ m m'] (n : Nat) : Sim μ (untilEofF m n) (untilEofF m' n) := by
  induction n with
  | zero => exact sim_fuelL
  | succ n ih => unfold untilEofF; psim

instance sim_untilEof {m m' : PM Node} [Sim μ m m'] : Sim μ (untilEof m) (untilEof m') :=
  sim_budget (fun n => sim_untilEofF n)

instance sim_strictReservedCheck : Sim μ strictReservedCheck strictReservedCheck := by unfold strictReservedCheck; psim

instance sim_advanceStr {g} : Sim μ (advanceStr g) (advanceStr g) := by unfold advanceStr; psim

instance sim_parseIdName {g} : Sim μ (parseIdName g) (parseIdName g) := by unfold parseIdName; psim

instance sim_parseIdReference : Sim μ parseIdReference parseIdReference := by unfold parseIdReference; psim

instance sim_parseBindingId : Sim μ parseBindingId parseBindingId := by unfold parseBindingId; psim

instance sim_commaExpr [RecSim μ r r'] : Sim μ (commaExpr r) (commaExpr r') := by unfold commaExpr; psim

instance sim_parseExpression [RecSim μ r r'] : Sim μ (parseExpression r) (parseExpression r') := by
  unfold parseExpression; psim

theorem isUseStrictLiteral_mv (n : Node) : isUseStrictLiteral (moveNode d ℓ n) = isUseStrictLiteral n := by cases n <;> rfl

instance sim_parseDirective [RecSim μ r r'] : Sim μ (parseDirective r) (parseDirective r') := by
  unfold parseDirective
  psim1; psim1
  rename_i e
  refine sim_bind (sim_when ?_ ?_) (fun _ => ?_)
  · show _ ↔ isUseStrictLiteral (moveNode _ _ e) = true
    rw [isUseStrictLiteral_mv]
  all_goals psim

theorem sim_directiveProloguesF [RecSim μ r r'] (n : Nat) : Sim μ (directiveProloguesF r n) (directiveProloguesF r' n) := by
  induction n with
  | zero => exact sim_fuelL
  | succ n ih => unfold directiveProloguesF; psim

instance sim_parseDirectivePrologues [RecSim μ r r'] : Sim μ (parseDirectivePrologues r) (parseDirectivePrologues r') :=
  sim_budget (fun n => sim_directiveProloguesF n)

instance sim_parseStatementList [RecSim μ r r'] : Sim μ (parseStatementList r) (parseStatementList r') := by
  unfold parseStatementList; psim

instance sim_parseFunctionBodyBlock [RecSim μ r r'] : Sim μ (parseFunctionBodyBlock r) (parseFunctionBodyBlock r') := by
  unfold parseFunctionBodyBlock; psim

instance sim_parseFunctionBody [RecSim μ r r'] : Sim μ (parseFunctionBody r) (parseFunctionBody r') := by
  unfold parseFunctionBody; psim

instance sim_parseArrowBody [RecSim μ r r'] : Sim μ (parseArrowBody r) (parseArrowBody r') := by
  unfold parseArrowBody; psim

instance sim_commaUnless {p} : Sim μ (commaUnless p) (commaUnless p) := by unfold commaUnless; psim

/-! ### patterns -/

instance sim_valueToKey {v : ValueOrExpr} {b sp} : Sim μ (valueToKey v b sp) (valueToKey (mv μ.d μ.ℓ v) b (mv μ.d μ.ℓ sp)) := by
  cases v with
  | expr e =>
    show Sim μ (if b then _ else _) (if b then _ else _)
    psim
  | value v =>
    show Sim μ (if b then _ else _) (if b then _ else _)
    psim

instance sim_objPatName [RecSim μ r r'] : Sim μ (objPatName r) (objPatName r') := by unfold objPatName; psim

instance sim_shorthandName {v : ValueOrExpr} : Sim μ (shorthandName v) (shorthandName (mv μ.d μ.ℓ v)) := by
  cases v with
  | expr e => exact sim_unexpectedCurrent
  | value v => cases v <;> first | exact sim_unexpectedCurrent | exact sim_pure rfl

instance sim_bindingToPropertyValue {t : Token} {b : Binding} : Sim μ (bindingToPropertyValue t.lineNum t.col b)
    (bindingToPropertyValue (mv μ.d μ.ℓ t).lineNum (mv μ.d μ.ℓ t).col (mv μ.d μ.ℓ b)) := by
  cases b <;> first | exact sim_pure rfl | exact sim_fail rfl

instance sim_objPatValue [RecSim μ r r'] : Sim μ (objPatValue r) (objPatValue r') := by unfold objPatValue; psim

instance sim_objPatItem [RecSim μ r r'] : Sim μ (objPatItem r) (objPatItem r') := by
  unfold objPatItem; psim
  · rename_i k v
    cases k <;> exact sim_pure rfl
  all_goals psim

instance sim_parseObjBindingPat [RecSim μ r r'] : Sim μ (parseObjBindingPat r) (parseObjBindingPat r') := by
  unfold parseObjBindingPat; psim

instance sim_bindingToElement {t : Token} {b : Binding} : Sim μ (bindingToElement t.lineNum t.col b)
    (bindingToElement (mv μ.d μ.ℓ t).lineNum (mv μ.d μ.ℓ t).col (mv μ.d μ.ℓ b)) := by
  cases b <;> first | exact sim_pure rfl | exact sim_fail rfl

instance sim_arrPatItem [RecSim μ r r'] : Sim μ (arrPatItem r) (arrPatItem r') := by unfold arrPatItem; psim

instance sim_parseArrBindingPat [RecSim μ r r'] : Sim μ (parseArrBindingPat r) (parseArrBindingPat r') := by
  unfold parseArrBindingPat; psim

instance sim_parseBindingIdOrPat [RecSim μ r r'] : Sim μ (parseBindingIdOrPat r) (parseBindingIdOrPat r') := by
  unfold parseBindingIdOrPat; psim

instance sim_bindingToParam {t : Token} {b : Binding} : Sim μ (bindingToParam t.lineNum t.col b)
    (bindingToParam (mv μ.d μ.ℓ t).lineNum (mv μ.d μ.ℓ t).col (mv μ.d μ.ℓ b)) := by
  cases b <;> first | exact sim_pure rfl | exact sim_fail rfl

instance sim_formalParam [RecSim μ r r'] : Sim μ (formalParam r) (formalParam r') := by unfold formalParam; psim

instance sim_parseFormalParams [RecSim μ r r'] : Sim μ (parseFormalParams r) (parseFormalParams r') := by
  unfold parseFormalParams; psim

instance sim_parseParamsAndBody [RecSim μ r r'] {g a} : Sim μ (parseParamsAndBody r g a) (parseParamsAndBody r' g a) := by
  unfold parseParamsAndBody; psim

end Parser
end Giron

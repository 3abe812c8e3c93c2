import Verif.Proofs.Build.Scan
import Verif.Proofs.Build.Tree
/-
Two builds of the parser do the same.  (Partly generated: one instance per method.)
-/
namespace Giron
open M

namespace Build
variable {e o : Env} {st ct : Char → Bool} {ck : Bool} {um : Nat} {pr : Char → Bool}
local notation "e'" => other e st ct ck um pr
variable {α β : Type}

/-- the recursive entry points do the same -/
class RecAg (e o : Env) (r r' : Parser.Rec) : Prop where
  assignmentExpr : Ag e o r.assignmentExpr r'.assignmentExpr
  stmtListItem : Ag e o r.stmtListItem r'.stmtListItem
  statement : Ag e o r.statement r'.statement
  unaryExpr : Ag e o r.unaryExpr r'.unaryExpr
  exponentiationExpr : Ag e o r.exponentiationExpr r'.exponentiationExpr
  newExpr : Ag e o r.newExpr r'.newExpr
  precedenceClimbing : ∀ n k, Ag e o (r.precedenceClimbing n k) (r'.precedenceClimbing n k)
  bindingIdOrPat : Ag e o r.bindingIdOrPat r'.bindingIdOrPat
  leftHandSideExpr : Ag e o r.leftHandSideExpr r'.leftHandSideExpr

section
variable {r r' : Parser.Rec}
instance [h : RecAg e o r r'] : Ag e o r.assignmentExpr r'.assignmentExpr := h.assignmentExpr
instance [h : RecAg e o r r'] : Ag e o r.stmtListItem r'.stmtListItem := h.stmtListItem
instance [h : RecAg e o r r'] : Ag e o r.statement r'.statement := h.statement
instance [h : RecAg e o r r'] : Ag e o r.unaryExpr r'.unaryExpr := h.unaryExpr
instance [h : RecAg e o r r'] : Ag e o r.exponentiationExpr r'.exponentiationExpr := h.exponentiationExpr
instance [h : RecAg e o r r'] : Ag e o r.newExpr r'.newExpr := h.newExpr
instance [h : RecAg e o r r'] {n k} : Ag e o (r.precedenceClimbing n k) (r'.precedenceClimbing n k) := h.precedenceClimbing n k
instance [h : RecAg e o r r'] : Ag e o r.bindingIdOrPat r'.bindingIdOrPat := h.bindingIdOrPat
instance [h : RecAg e o r r'] : Ag e o r.leftHandSideExpr r'.leftHandSideExpr := h.leftHandSideExpr
end

theorem eqx_forTarget (h : Calm e e') (x : Node) : Eqx e e' (@Parser.forTarget e x) (@Parser.forTarget e' x) := by
  unfold Parser.forTarget
  split
  · exact eqx_toAssignmentPattern h _
  · exact eqx_toAssignmentPattern h _
  · exact .inr rfl

set_option hygiene false in
/-- one step -/
macro "agp1" : tactic => `(tactic| first
  | ag1
  | ((with_reducible refine ag_ofExcept (fun h => ?_)); first
      | exact eqx_toAssignmentPattern h _
      | exact eqx_toBindingPattern h _
      | exact eqx_forTarget h _
      | exact eqx_toBinding h _
      | exact eqx_toStrictBinding h _ _)
  | exact ⟨fun s => (ag_p_whilePuncF (s.size + 1)).out s⟩
  | exact ⟨fun s => (ag_p_untilPuncF (s.size + 1)).out s⟩
  | exact ⟨fun s => (ag_p_untilPuncOrRestF (s.size + 1)).out s⟩
  | exact ⟨fun s => (ag_p_untilEofF (s.size + 1)).out s⟩
  | exact ⟨fun s => (ag_p_directiveProloguesF (s.size + 1)).out s⟩
  | exact ⟨fun s => (ag_p_templateLoopF (s.size + 1) _).out s⟩
  | exact ⟨fun s => (ag_p_memberLoopF (s.size + 1) _).out s⟩
  | exact ⟨fun s => (ag_p_callLoopF (s.size + 1) _).out s⟩
  | exact ⟨fun s => (ag_p_climbInnerF (s.size + 1) _).out s⟩
  | exact ⟨fun s => (ag_p_climbF (s.size + 1) _).out s⟩
  | exact ⟨fun s => (ag_p_consequentF (s.size + 1)).out s⟩
  | exact ⟨fun s => (ag_p_casesF (s.size + 1) _).out s⟩)

macro "agp" : tactic => `(tactic| repeat agp1)

instance ag_cur : Ag e o Parser.cur Parser.cur := ⟨fun _ _ => .inr ⟨rfl, fun _ h => h⟩⟩

instance ag_liftScanner {m m' : SM α} [h : Ag e o m m'] : Ag e o (Parser.liftScanner m) (Parser.liftScanner m') := by
  constructor
  intro s hs
  rcases h.out s.scanner hs with h1 | ⟨h1, h2⟩
  · left
    unfold Parser.liftScanner
    cases hm : m s.scanner with
    | error f => rw [hm] at h1; cases f with
      | panic p => exact h1
      | _ => exact h1.elim
    | ok x => rw [hm] at h1; exact h1.elim
  · right
    unfold Parser.liftScanner
    rw [h1]
    cases hm : m s.scanner with
    | error f => exact ⟨rfl, trivial⟩
    | ok x => rw [hm] at h2; exact ⟨rfl, h2⟩

instance ag_advance {goal : LexGoal} : Ag e e' (@Parser.advance e goal) (@Parser.advance e' goal) := by
  constructor
  intro s hs
  rcases (ag_next (e := e) (st := st) (ct := ct) (ck := ck) (um := um) (pr := pr) (goal := goal)).out s.scanner hs with h1 | ⟨h1, h2⟩
  · left
    unfold Parser.advance
    cases hm : @Scanner.next e goal s.scanner with
    | error f => rw [hm] at h1; cases f with
      | panic p => exact h1
      | _ => exact h1.elim
    | ok x => rw [hm] at h1; exact h1.elim
  · right
    unfold Parser.advance
    rw [h1]
    cases hm : @Scanner.next e goal s.scanner with
    | error f => exact ⟨rfl, trivial⟩
    | ok x => rw [hm] at h2; exact ⟨rfl, h2⟩

instance ag_saveParams : Ag e o Parser.saveParams Parser.saveParams := ⟨fun _ _ => .inr ⟨rfl, fun _ h => h⟩⟩
instance ag_startSpan : Ag e o Parser.startSpan Parser.startSpan := ⟨fun _ _ => .inr ⟨rfl, fun _ h => h⟩⟩

instance ag_restoreParams : Ag e o Parser.restoreParams Parser.restoreParams := by
  refine ⟨fun s _ => .inr ⟨rfl, ?_⟩⟩
  unfold Parser.restoreParams
  split
  · exact fun _ h => h
  · trivial

instance ag_endSpan : Ag e o Parser.endSpan Parser.endSpan := by
  refine ⟨fun s _ => .inr ⟨rfl, ?_⟩⟩
  unfold Parser.endSpan
  split
  · exact fun _ h => h
  · trivial

instance ag_peekSpan : Ag e o Parser.peekSpan Parser.peekSpan := by
  refine ⟨fun s _ => .inr ⟨rfl, ?_⟩⟩
  unfold Parser.peekSpan
  split
  · exact fun _ h => h
  · trivial

instance ag_p_error {t : Token} {ty : ErrorType} : Ag (α := α) e o (Parser.error t ty) (Parser.error t ty) := by
  unfold Parser.error; agp

instance ag_p_errorCurrent {ty : ErrorType} : Ag (α := α) e e' (@Parser.errorCurrent e α ty) (@Parser.errorCurrent e' α ty) := by
  unfold Parser.errorCurrent; agp

instance ag_p_unexpected {t : Token} : Ag (α := α) e e' (@Parser.unexpected e α t) (@Parser.unexpected e' α t) := by
  unfold Parser.unexpected Parser.error; exact ag_fail rfl

instance ag_p_unexpectedCurrent : Ag (α := α) e e' (@Parser.unexpectedCurrent e α) (@Parser.unexpectedCurrent e' α) := by
  unfold Parser.unexpectedCurrent; agp

instance ag_p_consume {p : Punctuator} {goal : LexGoal} : Ag e e' (@Parser.consume e p goal) (@Parser.consume e' p goal) := by
  unfold Parser.consume; agp

instance ag_p_consumeKw {kw : Str} {goal : LexGoal} : Ag e e' (@Parser.consumeKw e kw goal) (@Parser.consumeKw e' kw goal) := by
  unfold Parser.consumeKw; agp

instance ag_p_consumeId {id : Str} {goal : LexGoal} : Ag e e' (@Parser.consumeId e id goal) (@Parser.consumeId e' id goal) := by
  unfold Parser.consumeId; agp

instance ag_p_consumeSemicolon {goal : LexGoal} : Ag e e' (@Parser.consumeSemicolon e goal) (@Parser.consumeSemicolon e' goal) := by
  unfold Parser.consumeSemicolon; agp

instance ag_p_withParams {f : Params → Params} {m m' : PM α} [Ag e o m m'] : Ag e o (Parser.withParams f m) (Parser.withParams f m') := by
  unfold Parser.withParams; agp

instance ag_p_withIn {b : Bool} {m m' : PM α} [Ag e o m m'] : Ag e o (Parser.withIn b m) (Parser.withIn b m') := by
  unfold Parser.withIn; agp

instance ag_p_withDefault {b : Bool} {m m' : PM α} [Ag e o m m'] : Ag e o (Parser.withDefault b m) (Parser.withDefault b m') := by
  unfold Parser.withDefault; agp

instance ag_p_withReturn {b : Bool} {m m' : PM α} [Ag e o m m'] : Ag e o (Parser.withReturn b m) (Parser.withReturn b m') := by
  unfold Parser.withReturn; agp

instance ag_p_withYield {b : Bool} {m m' : PM α} [Ag e o m m'] : Ag e o (Parser.withYield b m) (Parser.withYield b m') := by
  unfold Parser.withYield; agp

instance ag_p_withAwait {b : Bool} {m m' : PM α} [Ag e o m m'] : Ag e o (Parser.withAwait b m) (Parser.withAwait b m') := by
  unfold Parser.withAwait; agp

instance ag_p_withYieldAwait {y : Bool} {a : Bool} {m m' : PM α} [Ag e o m m'] : Ag e o (Parser.withYieldAwait y a m) (Parser.withYieldAwait y a m') := by
  unfold Parser.withYieldAwait; agp

instance ag_p_whilePuncF {p : Punctuator} {m m' : PM α} [Ag e o m m'] (n : Nat) : Ag e o (Parser.whilePuncF p m n) (Parser.whilePuncF p m' n) := by
  induction n with
  | zero => exact ag_fail rfl
  | succ n ih => unfold Parser.whilePuncF; agp

instance ag_p_whilePunc {p : Punctuator} {m m' : PM α} [Ag e o m m'] : Ag e o (Parser.whilePunc p m) (Parser.whilePunc p m') := by
  unfold Parser.whilePunc; agp

instance ag_p_untilPuncF {p : Punctuator} {m m' : PM α} [Ag e o m m'] (n : Nat) : Ag e o (Parser.untilPuncF p m n) (Parser.untilPuncF p m' n) := by
  induction n with
  | zero => exact ag_fail rfl
  | succ n ih => unfold Parser.untilPuncF; agp

instance ag_p_untilPunc {p : Punctuator} {m m' : PM α} [Ag e o m m'] : Ag e o (Parser.untilPunc p m) (Parser.untilPunc p m') := by
  unfold Parser.untilPunc; agp

instance ag_p_untilPuncOrRestF {p : Punctuator} {m m' : PM α} [Ag e o m m'] (n : Nat) : Ag e o (Parser.untilPuncOrRestF p m n) (Parser.untilPuncOrRestF p m' n) := by
  induction n with
  | zero => exact ag_fail rfl
  | succ n ih => unfold Parser.untilPuncOrRestF; agp

instance ag_p_untilPuncOrRest {p : Punctuator} {m m' : PM α} [Ag e o m m'] : Ag e o (Parser.untilPuncOrRest p m) (Parser.untilPuncOrRest p m') := by
  unfold Parser.untilPuncOrRest; agp

instance ag_p_untilEofF {m m' : PM Node} [Ag e o m m'] (n : Nat) : Ag e o (Parser.untilEofF m n) (Parser.untilEofF m' n) := by
  induction n with
  | zero => exact ag_fail rfl
  | succ n ih => unfold Parser.untilEofF; agp

instance ag_p_untilEof {m m' : PM Node} [Ag e o m m'] : Ag e o (Parser.untilEof m) (Parser.untilEof m') := by
  unfold Parser.untilEof; agp

instance ag_p_strictReservedCheck : Ag e e' (@Parser.strictReservedCheck e) (@Parser.strictReservedCheck e') := by
  unfold Parser.strictReservedCheck; agp

instance ag_p_advanceStr {goal : LexGoal} : Ag e e' (@Parser.advanceStr e goal) (@Parser.advanceStr e' goal) := by
  unfold Parser.advanceStr; agp

instance ag_p_parseIdName {goal : LexGoal} : Ag e e' (@Parser.parseIdName e goal) (@Parser.parseIdName e' goal) := by
  unfold Parser.parseIdName; agp

instance ag_p_parseIdReference : Ag e e' (@Parser.parseIdReference e) (@Parser.parseIdReference e') := by
  unfold Parser.parseIdReference; agp

instance ag_p_parseBindingId : Ag e e' (@Parser.parseBindingId e) (@Parser.parseBindingId e') := by
  unfold Parser.parseBindingId; agp

instance ag_p_commaExpr {r r' : Parser.Rec} [RecAg e e' r r'] : Ag e e' (@Parser.commaExpr e r) (@Parser.commaExpr e' r') := by
  unfold Parser.commaExpr; agp

instance ag_p_parseExpression {r r' : Parser.Rec} [RecAg e e' r r'] : Ag e e' (@Parser.parseExpression e r) (@Parser.parseExpression e' r') := by
  unfold Parser.parseExpression; agp

instance ag_p_parseDirective {r r' : Parser.Rec} [RecAg e e' r r'] : Ag e e' (@Parser.parseDirective e r) (@Parser.parseDirective e' r') := by
  unfold Parser.parseDirective; agp

instance ag_p_directiveProloguesF {r r' : Parser.Rec} [RecAg e e' r r'] (n : Nat) : Ag e e' (@Parser.directiveProloguesF e r n) (@Parser.directiveProloguesF e' r' n) := by
  induction n with
  | zero => exact ag_fail rfl
  | succ n ih => unfold Parser.directiveProloguesF; agp

instance ag_p_parseDirectivePrologues {r r' : Parser.Rec} [RecAg e e' r r'] : Ag e e' (@Parser.parseDirectivePrologues e r) (@Parser.parseDirectivePrologues e' r') := by
  unfold Parser.parseDirectivePrologues; agp

instance ag_p_parseStatementList {r r' : Parser.Rec} [RecAg e e' r r'] : Ag e e' (Parser.parseStatementList r) (Parser.parseStatementList r') := by
  unfold Parser.parseStatementList; agp

instance ag_p_parseFunctionBodyBlock {r r' : Parser.Rec} [RecAg e e' r r'] : Ag e e' (@Parser.parseFunctionBodyBlock e r) (@Parser.parseFunctionBodyBlock e' r') := by
  unfold Parser.parseFunctionBodyBlock; agp

instance ag_p_parseFunctionBody {r r' : Parser.Rec} [RecAg e e' r r'] : Ag e e' (@Parser.parseFunctionBody e r) (@Parser.parseFunctionBody e' r') := by
  unfold Parser.parseFunctionBody; agp

instance ag_p_parseArrowBody {r r' : Parser.Rec} [RecAg e e' r r'] : Ag e e' (@Parser.parseArrowBody e r) (@Parser.parseArrowBody e' r') := by
  unfold Parser.parseArrowBody; agp

instance ag_p_commaUnless {close : Punctuator} : Ag e e' (@Parser.commaUnless e close) (@Parser.commaUnless e' close) := by
  unfold Parser.commaUnless; agp

instance ag_p_valueToKey {v : ValueOrExpr} {literal : Bool} {span : Span} : Ag e e' (@Parser.valueToKey e v literal span) (@Parser.valueToKey e' v literal span) := by
  unfold Parser.valueToKey; agp

instance ag_p_objPatName {r r' : Parser.Rec} [RecAg e e' r r'] : Ag e e' (@Parser.objPatName e r) (@Parser.objPatName e' r') := by
  unfold Parser.objPatName; agp

instance ag_p_shorthandName {v : ValueOrExpr} : Ag e e' (@Parser.shorthandName e v) (@Parser.shorthandName e' v) := by
  unfold Parser.shorthandName; agp

instance ag_p_bindingToPropertyValue {line : Nat} {col : Nat} {z : Binding} : Ag e o (Parser.bindingToPropertyValue line col z) (Parser.bindingToPropertyValue line col z) := by
  unfold Parser.bindingToPropertyValue; agp

instance ag_p_objPatValue {r r' : Parser.Rec} [RecAg e e' r r'] : Ag e e' (@Parser.objPatValue e r) (@Parser.objPatValue e' r') := by
  unfold Parser.objPatValue; agp

instance ag_p_objPatItem {r r' : Parser.Rec} [RecAg e e' r r'] : Ag e e' (@Parser.objPatItem e r) (@Parser.objPatItem e' r') := by
  unfold Parser.objPatItem; agp

instance ag_p_parseObjBindingPat {r r' : Parser.Rec} [RecAg e e' r r'] : Ag e e' (@Parser.parseObjBindingPat e r) (@Parser.parseObjBindingPat e' r') := by
  unfold Parser.parseObjBindingPat; agp

instance ag_p_bindingToElement {line : Nat} {col : Nat} {z : Binding} : Ag e o (Parser.bindingToElement line col z) (Parser.bindingToElement line col z) := by
  unfold Parser.bindingToElement; agp

instance ag_p_arrPatItem {r r' : Parser.Rec} [RecAg e e' r r'] : Ag e e' (@Parser.arrPatItem e r) (@Parser.arrPatItem e' r') := by
  unfold Parser.arrPatItem; agp

instance ag_p_parseArrBindingPat {r r' : Parser.Rec} [RecAg e e' r r'] : Ag e e' (@Parser.parseArrBindingPat e r) (@Parser.parseArrBindingPat e' r') := by
  unfold Parser.parseArrBindingPat; agp

instance ag_p_parseBindingIdOrPat {r r' : Parser.Rec} [RecAg e e' r r'] : Ag e e' (@Parser.parseBindingIdOrPat e r) (@Parser.parseBindingIdOrPat e' r') := by
  unfold Parser.parseBindingIdOrPat; agp

instance ag_p_bindingToParam {line : Nat} {col : Nat} {z : Binding} : Ag e o (Parser.bindingToParam line col z) (Parser.bindingToParam line col z) := by
  unfold Parser.bindingToParam; agp

instance ag_p_formalParam {r r' : Parser.Rec} [RecAg e e' r r'] : Ag e e' (@Parser.formalParam e r) (@Parser.formalParam e' r') := by
  unfold Parser.formalParam; agp

instance ag_p_parseFormalParams {r r' : Parser.Rec} [RecAg e e' r r'] : Ag e e' (@Parser.parseFormalParams e r) (@Parser.parseFormalParams e' r') := by
  unfold Parser.parseFormalParams; agp

instance ag_p_parseParamsAndBody {r r' : Parser.Rec} [RecAg e e' r r'] {generator : Bool} {async : Bool} : Ag e e' (@Parser.parseParamsAndBody e r generator async) (@Parser.parseParamsAndBody e' r' generator async) := by
  unfold Parser.parseParamsAndBody; agp

instance ag_p_parseComputedPropertyName {r r' : Parser.Rec} [RecAg e e' r r'] : Ag e e' (@Parser.parseComputedPropertyName e r) (@Parser.parseComputedPropertyName e' r') := by
  unfold Parser.parseComputedPropertyName; agp

instance ag_p_parsePropertyName {r r' : Parser.Rec} [RecAg e e' r r'] : Ag e e' (@Parser.parsePropertyName e r) (@Parser.parsePropertyName e' r') := by
  unfold Parser.parsePropertyName; agp

instance ag_p_classGetter {r r' : Parser.Rec} [RecAg e e' r r'] {isStatic : Bool} : Ag e e' (@Parser.classGetter e r isStatic) (@Parser.classGetter e' r' isStatic) := by
  unfold Parser.classGetter; agp

instance ag_p_classSetter {r r' : Parser.Rec} [RecAg e e' r r'] {isStatic : Bool} : Ag e e' (@Parser.classSetter e r isStatic) (@Parser.classSetter e' r' isStatic) := by
  unfold Parser.classSetter; agp

instance ag_p_classAsync {r r' : Parser.Rec} [RecAg e e' r r'] {isStatic : Bool} : Ag e e' (@Parser.classAsync e r isStatic) (@Parser.classAsync e' r' isStatic) := by
  unfold Parser.classAsync; agp

instance ag_p_classGenerator {r r' : Parser.Rec} [RecAg e e' r r'] {isStatic : Bool} : Ag e e' (@Parser.classGenerator e r isStatic) (@Parser.classGenerator e' r' isStatic) := by
  unfold Parser.classGenerator; agp

instance ag_p_classMethod {r r' : Parser.Rec} [RecAg e e' r r'] {isStatic : Bool} : Ag e e' (@Parser.classMethod e r isStatic) (@Parser.classMethod e' r' isStatic) := by
  unfold Parser.classMethod; agp

instance ag_p_classItem {r r' : Parser.Rec} [RecAg e e' r r'] : Ag e e' (@Parser.classItem e r) (@Parser.classItem e' r') := by
  unfold Parser.classItem; agp

instance ag_p_parseClassBody {r r' : Parser.Rec} [RecAg e e' r r'] : Ag e e' (@Parser.parseClassBody e r) (@Parser.parseClassBody e' r') := by
  unfold Parser.parseClassBody; agp

instance ag_p_parseClassTail {r r' : Parser.Rec} [RecAg e e' r r'] {id : Option Node} : Ag e e' (@Parser.parseClassTail e r id) (@Parser.parseClassTail e' r' id) := by
  unfold Parser.parseClassTail; agp

instance ag_p_bindingIdNode {z : Binding} : Ag e o (Parser.bindingIdNode z) (Parser.bindingIdNode z) := by
  unfold Parser.bindingIdNode; agp

instance ag_p_parseClassDclr {r r' : Parser.Rec} [RecAg e e' r r'] : Ag e e' (@Parser.parseClassDclr e r) (@Parser.parseClassDclr e' r') := by
  unfold Parser.parseClassDclr; agp

instance ag_p_parseClassExpr {r r' : Parser.Rec} [RecAg e e' r r'] : Ag e e' (@Parser.parseClassExpr e r) (@Parser.parseClassExpr e' r') := by
  unfold Parser.parseClassExpr; agp

instance ag_p_templateElementOf {t : Token} : Ag e e' (@Parser.templateElementOf e t) (@Parser.templateElementOf e' t) := by
  unfold Parser.templateElementOf; agp

instance ag_p_parseTemplateHead : Ag e e' (@Parser.parseTemplateHead e) (@Parser.parseTemplateHead e') := by
  unfold Parser.parseTemplateHead; agp

instance ag_p_parseTemplateElement : Ag e e' (@Parser.parseTemplateElement e) (@Parser.parseTemplateElement e') := by
  unfold Parser.parseTemplateElement; agp

instance ag_p_templateLoopF {r r' : Parser.Rec} [RecAg e e' r r'] (n : Nat) (z : Bool) : Ag e e' (@Parser.templateLoopF e r n z) (@Parser.templateLoopF e' r' n z) := by
  induction n generalizing z with
  | zero => exact ag_fail rfl
  | succ n ih => unfold Parser.templateLoopF; agp

instance ag_p_parseTemplateParts {r r' : Parser.Rec} [RecAg e e' r r'] : Ag e e' (@Parser.parseTemplateParts e r) (@Parser.parseTemplateParts e' r') := by
  unfold Parser.parseTemplateParts; agp

instance ag_p_parseTemplateLiteral {r r' : Parser.Rec} [RecAg e e' r r'] : Ag e e' (@Parser.parseTemplateLiteral e r) (@Parser.parseTemplateLiteral e' r') := by
  unfold Parser.parseTemplateLiteral; agp

instance ag_p_parseTaggedTemplate {r r' : Parser.Rec} [RecAg e e' r r'] {tag : Node} : Ag e e' (@Parser.parseTaggedTemplate e r tag) (@Parser.parseTaggedTemplate e' r' tag) := by
  unfold Parser.parseTaggedTemplate; agp

instance ag_p_parseFunctionExpr {r r' : Parser.Rec} [RecAg e e' r r'] {async : Bool} : Ag e e' (@Parser.parseFunctionExpr e r async) (@Parser.parseFunctionExpr e' r' async) := by
  unfold Parser.parseFunctionExpr; agp

instance ag_p_argument {r r' : Parser.Rec} [RecAg e e' r r'] : Ag e e' (@Parser.argument e r) (@Parser.argument e' r') := by
  unfold Parser.argument; agp

instance ag_p_parseArguments {r r' : Parser.Rec} [RecAg e e' r r'] : Ag e e' (@Parser.parseArguments e r) (@Parser.parseArguments e' r') := by
  unfold Parser.parseArguments; agp

instance ag_p_seqItem {r r' : Parser.Rec} [RecAg e e' r r'] : Ag e e' (@Parser.seqItem e r) (@Parser.seqItem e' r') := by
  unfold Parser.seqItem; agp

instance ag_p_nodeToParam {isLast : Bool} {expr : Node} : Ag e e' (@Parser.nodeToParam e isLast expr) (@Parser.nodeToParam e' isLast expr) := by
  unfold Parser.nodeToParam; agp

instance ag_p_seqToArrowParams {z : List Node} : Ag e e' (@Parser.seqToArrowParams e z) (@Parser.seqToArrowParams e' z) := by
  induction z with
  | nil => unfold Parser.seqToArrowParams; agp
  | cons a l ih => unfold Parser.seqToArrowParams; cases l <;> agp

instance ag_p_seqToArrow {r r' : Parser.Rec} [RecAg e e' r r'] {seq : List Node} : Ag e e' (@Parser.seqToArrow e r seq) (@Parser.seqToArrow e' r' seq) := by
  unfold Parser.seqToArrow; agp

instance ag_p_parseSeqOrArrow {r r' : Parser.Rec} [RecAg e e' r r'] : Ag e e' (@Parser.parseSeqOrArrow e r) (@Parser.parseSeqOrArrow e' r') := by
  unfold Parser.parseSeqOrArrow; agp

instance ag_p_arrayItem {r r' : Parser.Rec} [RecAg e e' r r'] : Ag e e' (@Parser.arrayItem e r) (@Parser.arrayItem e' r') := by
  unfold Parser.arrayItem; agp

instance ag_p_parseArrayLitExpr {r r' : Parser.Rec} [RecAg e e' r r'] : Ag e e' (@Parser.parseArrayLitExpr e r) (@Parser.parseArrayLitExpr e' r') := by
  unfold Parser.parseArrayLitExpr; agp

instance ag_p_parseMethodDefinition {r r' : Parser.Rec} [RecAg e e' r r'] {key : PropertyKey} {kind : Parser.PropKind} {async : Bool} {generator : Bool} {computed : Bool} : Ag e e' (@Parser.parseMethodDefinition e r key kind async generator computed) (@Parser.parseMethodDefinition e' r' key kind async generator computed) := by
  unfold Parser.parseMethodDefinition; agp

instance ag_p_peekToken : Ag e e' (@Parser.peekToken e) (@Parser.peekToken e') := by
  unfold Parser.peekToken; agp

instance ag_p_accessorHead {r r' : Parser.Rec} [RecAg e e' r r'] {name : Str} {kind : Parser.PropKind} : Ag e e' (@Parser.accessorHead e r name kind) (@Parser.accessorHead e' r' name kind) := by
  unfold Parser.accessorHead; agp

instance ag_p_asyncHead {r r' : Parser.Rec} [RecAg e e' r r'] : Ag e e' (@Parser.asyncHead e r) (@Parser.asyncHead e' r') := by
  unfold Parser.asyncHead; agp

instance ag_p_propHead {r r' : Parser.Rec} [RecAg e e' r r'] : Ag e e' (@Parser.propHead e r) (@Parser.propHead e' r') := by
  unfold Parser.propHead; agp

instance ag_p_propKey {r r' : Parser.Rec} [RecAg e e' r r'] : Ag e e' (@Parser.propKey e r) (@Parser.propKey e' r') := by
  unfold Parser.propKey; agp

instance ag_p_propRest {r r' : Parser.Rec} [RecAg e e' r r'] {key : PropertyKey} {computed : Bool} {kind : Parser.PropKind} {async : Bool} {generator : Bool} : Ag e e' (@Parser.propRest e r key computed kind async generator) (@Parser.propRest e' r' key computed kind async generator) := by
  unfold Parser.propRest; agp

instance ag_p_objectItem {r r' : Parser.Rec} [RecAg e e' r r'] : Ag e e' (@Parser.objectItem e r) (@Parser.objectItem e' r') := by
  unfold Parser.objectItem; agp

instance ag_p_parseObjectLitExpr {r r' : Parser.Rec} [RecAg e e' r r'] : Ag e e' (@Parser.parseObjectLitExpr e r) (@Parser.parseObjectLitExpr e' r') := by
  unfold Parser.parseObjectLitExpr; agp

instance ag_p_identName {z : Node} : Ag e o (Parser.identName z) (Parser.identName z) := by
  unfold Parser.identName; agp

instance ag_p_parseAsyncPrimaryExpr {r r' : Parser.Rec} [RecAg e e' r r'] : Ag e e' (@Parser.parseAsyncPrimaryExpr e r) (@Parser.parseAsyncPrimaryExpr e' r') := by
  unfold Parser.parseAsyncPrimaryExpr; agp

instance ag_p_parseLiteral : Ag e e' (@Parser.parseLiteral e) (@Parser.parseLiteral e') := by
  unfold Parser.parseLiteral; agp

instance ag_p_parseRegex : Ag e e' (@Parser.parseRegex e) (@Parser.parseRegex e') := by
  unfold Parser.parseRegex; agp

instance ag_p_parseThis : Ag e e' (@Parser.parseThis e) (@Parser.parseThis e') := by
  unfold Parser.parseThis; agp

instance ag_p_parsePrimaryExpr {r r' : Parser.Rec} [RecAg e e' r r'] : Ag e e' (@Parser.parsePrimaryExpr e r) (@Parser.parsePrimaryExpr e' r') := by
  unfold Parser.parsePrimaryExpr; agp

instance ag_p_parseComputedMemberExpr {r r' : Parser.Rec} [RecAg e e' r r'] {object : Node} : Ag e e' (@Parser.parseComputedMemberExpr e r object) (@Parser.parseComputedMemberExpr e' r' object) := by
  unfold Parser.parseComputedMemberExpr; agp

instance ag_p_parseStaticMemberExpr {object : Node} : Ag e e' (@Parser.parseStaticMemberExpr e object) (@Parser.parseStaticMemberExpr e' object) := by
  unfold Parser.parseStaticMemberExpr; agp

instance ag_p_parseSuper : Ag e e' (@Parser.parseSuper e) (@Parser.parseSuper e') := by
  unfold Parser.parseSuper; agp

instance ag_p_memberLoopF {r r' : Parser.Rec} [RecAg e e' r r'] (n : Nat) (z : Node) : Ag e e' (@Parser.memberLoopF e r n z) (@Parser.memberLoopF e' r' n z) := by
  induction n generalizing z with
  | zero => exact ag_fail rfl
  | succ n ih => unfold Parser.memberLoopF; agp

instance ag_p_parseMemberHead {r r' : Parser.Rec} [RecAg e e' r r'] : Ag e e' (@Parser.parseMemberHead e r) (@Parser.parseMemberHead e' r') := by
  unfold Parser.parseMemberHead; agp

instance ag_p_parseMemberExpr {r r' : Parser.Rec} [RecAg e e' r r'] : Ag e e' (@Parser.parseMemberExpr e r) (@Parser.parseMemberExpr e' r') := by
  unfold Parser.parseMemberExpr; agp

instance ag_p_callLoopF {r r' : Parser.Rec} [RecAg e e' r r'] (n : Nat) (z : Node) : Ag e e' (@Parser.callLoopF e r n z) (@Parser.callLoopF e' r' n z) := by
  induction n generalizing z with
  | zero => exact ag_fail rfl
  | succ n ih => unfold Parser.callLoopF; agp

instance ag_p_parseCallExprTail {r r' : Parser.Rec} [RecAg e e' r r'] {callee : Node} : Ag e e' (@Parser.parseCallExprTail e r callee) (@Parser.parseCallExprTail e' r' callee) := by
  unfold Parser.parseCallExprTail; agp

instance ag_p_parseCallHead {r r' : Parser.Rec} [RecAg e e' r r'] : Ag e e' (@Parser.parseCallHead e r) (@Parser.parseCallHead e' r') := by
  unfold Parser.parseCallHead; agp

instance ag_p_parseCallExpr {r r' : Parser.Rec} [RecAg e e' r r'] : Ag e e' (@Parser.parseCallExpr e r) (@Parser.parseCallExpr e' r') := by
  unfold Parser.parseCallExpr; agp

instance ag_p_parseNewTarget {newTok : Token} {span : Span} : Ag e e' (@Parser.parseNewTarget e newTok span) (@Parser.parseNewTarget e' newTok span) := by
  unfold Parser.parseNewTarget; agp

instance ag_p_parseNewCallee {r r' : Parser.Rec} [RecAg e e' r r'] : Ag e e' (@Parser.parseNewCallee e r) (@Parser.parseNewCallee e' r') := by
  unfold Parser.parseNewCallee; agp

instance ag_p_parseNewExpr {r r' : Parser.Rec} [RecAg e e' r r'] : Ag e e' (@Parser.parseNewExpr e r) (@Parser.parseNewExpr e' r') := by
  unfold Parser.parseNewExpr; agp

instance ag_p_parseLeftHandSideExpr {r r' : Parser.Rec} [RecAg e e' r r'] : Ag e e' (@Parser.parseLeftHandSideExpr e r) (@Parser.parseLeftHandSideExpr e' r') := by
  unfold Parser.parseLeftHandSideExpr; agp

instance ag_p_parsePrefixUpdate {r r' : Parser.Rec} [RecAg e e' r r'] : Ag e e' (@Parser.parsePrefixUpdate e r) (@Parser.parsePrefixUpdate e' r') := by
  unfold Parser.parsePrefixUpdate; agp

instance ag_p_parsePostfix {r r' : Parser.Rec} [RecAg e e' r r'] : Ag e e' (@Parser.parsePostfix e r) (@Parser.parsePostfix e' r') := by
  unfold Parser.parsePostfix; agp

instance ag_p_parseUpdateExpr {r r' : Parser.Rec} [RecAg e e' r r'] : Ag e e' (@Parser.parseUpdateExpr e r) (@Parser.parseUpdateExpr e' r') := by
  unfold Parser.parseUpdateExpr; agp

instance ag_p_parseUnaryOp {r r' : Parser.Rec} [RecAg e e' r r'] : Ag e e' (@Parser.parseUnaryOp e r) (@Parser.parseUnaryOp e' r') := by
  unfold Parser.parseUnaryOp; agp

instance ag_p_parseUnaryExpr {r r' : Parser.Rec} [RecAg e e' r r'] : Ag e e' (@Parser.parseUnaryExpr e r) (@Parser.parseUnaryExpr e' r') := by
  unfold Parser.parseUnaryExpr; agp

instance ag_p_parsePow {r r' : Parser.Rec} [RecAg e e' r r'] : Ag e e' (@Parser.parsePow e r) (@Parser.parsePow e' r') := by
  unfold Parser.parsePow; agp

instance ag_p_parseExponentiationExpr {r r' : Parser.Rec} [RecAg e e' r r'] : Ag e e' (@Parser.parseExponentiationExpr e r) (@Parser.parseExponentiationExpr e' r') := by
  unfold Parser.parseExponentiationExpr; agp

instance ag_p_climbInnerF {r r' : Parser.Rec} [RecAg e e' r r'] {opPrec : Nat} (n : Nat) (z : Node) : Ag e e' (Parser.climbInnerF r opPrec n z) (Parser.climbInnerF r' opPrec n z) := by
  induction n generalizing z with
  | zero => exact ag_fail rfl
  | succ n ih => unfold Parser.climbInnerF; agp

instance ag_p_climbStep {r r' : Parser.Rec} [RecAg e e' r r'] {lhs : Node} : Ag e e' (@Parser.climbStep e r lhs) (@Parser.climbStep e' r' lhs) := by
  unfold Parser.climbStep; agp

instance ag_p_climbF {r r' : Parser.Rec} [RecAg e e' r r'] {prec : Nat} (n : Nat) (z : Node) : Ag e e' (@Parser.climbF e r prec n z) (@Parser.climbF e' r' prec n z) := by
  induction n generalizing z with
  | zero => exact ag_fail rfl
  | succ n ih => unfold Parser.climbF; agp

instance ag_p_precedenceClimbing {r r' : Parser.Rec} [RecAg e e' r r'] {lhs : Node} {prec : Nat} : Ag e e' (@Parser.precedenceClimbing e r lhs prec) (@Parser.precedenceClimbing e' r' lhs prec) := by
  unfold Parser.precedenceClimbing; agp

instance ag_p_parseBinaryExpr {r r' : Parser.Rec} [RecAg e e' r r'] : Ag e e' (@Parser.parseBinaryExpr e r) (@Parser.parseBinaryExpr e' r') := by
  unfold Parser.parseBinaryExpr; agp

instance ag_p_parseConditionalExpr {r r' : Parser.Rec} [RecAg e e' r r'] : Ag e e' (@Parser.parseConditionalExpr e r) (@Parser.parseConditionalExpr e' r') := by
  unfold Parser.parseConditionalExpr; agp

instance ag_p_parseSingleParamArrow {r r' : Parser.Rec} [RecAg e e' r r'] {name : Str} : Ag e e' (@Parser.parseSingleParamArrow e r name) (@Parser.parseSingleParamArrow e' r' name) := by
  unfold Parser.parseSingleParamArrow; agp

instance ag_p_parseYieldExpr {r r' : Parser.Rec} [RecAg e e' r r'] : Ag e e' (@Parser.parseYieldExpr e r) (@Parser.parseYieldExpr e' r') := by
  unfold Parser.parseYieldExpr; agp

instance ag_p_arrowIfIdentifier {r r' : Parser.Rec} [RecAg e e' r r'] {lhs : Node} : Ag e e' (@Parser.arrowIfIdentifier e r lhs) (@Parser.arrowIfIdentifier e' r' lhs) := by
  unfold Parser.arrowIfIdentifier; agp

instance ag_p_parseAssignTail {r r' : Parser.Rec} [RecAg e e' r r'] {lhs : Node} : Ag e e' (@Parser.parseAssignTail e r lhs) (@Parser.parseAssignTail e' r' lhs) := by
  unfold Parser.parseAssignTail; agp

instance ag_p_parseOpAssignTail {r r' : Parser.Rec} [RecAg e e' r r'] {lhs : Node} : Ag e e' (@Parser.parseOpAssignTail e r lhs) (@Parser.parseOpAssignTail e' r' lhs) := by
  unfold Parser.parseOpAssignTail; agp

instance ag_p_parseAssignmentExpr {r r' : Parser.Rec} [RecAg e e' r r'] : Ag e e' (@Parser.parseAssignmentExpr e r) (@Parser.parseAssignmentExpr e' r') := by
  unfold Parser.parseAssignmentExpr; agp

instance ag_p_parseBlockStmt {r r' : Parser.Rec} [RecAg e e' r r'] : Ag e e' (@Parser.parseBlockStmt e r) (@Parser.parseBlockStmt e' r') := by
  unfold Parser.parseBlockStmt; agp

instance ag_p_parseVariableDclr {r r' : Parser.Rec} [RecAg e e' r r'] : Ag e e' (@Parser.parseVariableDclr e r) (@Parser.parseVariableDclr e' r') := by
  unfold Parser.parseVariableDclr; agp

instance ag_p_commaDclr {r r' : Parser.Rec} [RecAg e e' r r'] : Ag e e' (@Parser.commaDclr e r) (@Parser.commaDclr e' r') := by
  unfold Parser.commaDclr; agp

instance ag_p_parseVarList {r r' : Parser.Rec} [RecAg e e' r r'] : Ag e e' (@Parser.parseVarList e r) (@Parser.parseVarList e' r') := by
  unfold Parser.parseVarList; agp

instance ag_p_parseVariableStmt {r r' : Parser.Rec} [RecAg e e' r r'] : Ag e e' (@Parser.parseVariableStmt e r) (@Parser.parseVariableStmt e' r') := by
  unfold Parser.parseVariableStmt; agp

instance ag_p_parseLexicalDclr {r r' : Parser.Rec} [RecAg e e' r r'] : Ag e e' (@Parser.parseLexicalDclr e r) (@Parser.parseLexicalDclr e' r') := by
  unfold Parser.parseLexicalDclr; agp

instance ag_p_parseEmptyStmt : Ag e e' (@Parser.parseEmptyStmt e) (@Parser.parseEmptyStmt e') := by
  unfold Parser.parseEmptyStmt; agp

instance ag_p_parseExpressionStmt {expression : Node} : Ag e e' (@Parser.parseExpressionStmt e expression) (@Parser.parseExpressionStmt e' expression) := by
  unfold Parser.parseExpressionStmt; agp

instance ag_p_parseElse {r r' : Parser.Rec} [RecAg e e' r r'] : Ag e e' (@Parser.parseElse e r) (@Parser.parseElse e' r') := by
  unfold Parser.parseElse; agp

instance ag_p_parseIfStmt {r r' : Parser.Rec} [RecAg e e' r r'] : Ag e e' (@Parser.parseIfStmt e r) (@Parser.parseIfStmt e' r') := by
  unfold Parser.parseIfStmt; agp

instance ag_p_parseLoopBody {r r' : Parser.Rec} [RecAg e e' r r'] : Ag e e' (Parser.parseLoopBody r) (Parser.parseLoopBody r') := by
  unfold Parser.parseLoopBody; agp

instance ag_p_optExpr {r r' : Parser.Rec} [RecAg e e' r r'] {close : Punctuator} : Ag e e' (@Parser.optExpr e r close) (@Parser.optExpr e' r' close) := by
  unfold Parser.optExpr; agp

instance ag_p_parseForClassic {r r' : Parser.Rec} [RecAg e e' r r'] {init : Option Node} : Ag e e' (@Parser.parseForClassic e r init) (@Parser.parseForClassic e' r' init) := by
  unfold Parser.parseForClassic; agp

instance ag_p_parseForIn {r r' : Parser.Rec} [RecAg e e' r r'] {left : Node} : Ag e e' (@Parser.parseForIn e r left) (@Parser.parseForIn e' r' left) := by
  unfold Parser.parseForIn; agp

instance ag_p_parseForOf {r r' : Parser.Rec} [RecAg e e' r r'] {left : Node} : Ag e e' (@Parser.parseForOf e r left) (@Parser.parseForOf e' r' left) := by
  unfold Parser.parseForOf; agp

instance ag_p_forCommaDclr {r r' : Parser.Rec} [RecAg e e' r r'] : Ag e e' (@Parser.forCommaDclr e r) (@Parser.forCommaDclr e' r') := by
  unfold Parser.forCommaDclr; agp

instance ag_p_parseForDclrs {r r' : Parser.Rec} [RecAg e e' r r'] {kind : Str} {d : VariableDeclarator} : Ag e e' (@Parser.parseForDclrs e r kind d) (@Parser.parseForDclrs e' r' kind d) := by
  unfold Parser.parseForDclrs; agp

instance ag_p_parseForInit {r r' : Parser.Rec} [RecAg e e' r r'] {kind : Str} {id : Binding} : Ag e e' (@Parser.parseForInit e r kind id) (@Parser.parseForInit e' r' kind id) := by
  unfold Parser.parseForInit; agp

instance ag_p_parseForVar {r r' : Parser.Rec} [RecAg e e' r r'] : Ag e e' (@Parser.parseForVar e r) (@Parser.parseForVar e' r') := by
  unfold Parser.parseForVar; agp

instance ag_p_parseForKind : Ag e e' (@Parser.parseForKind e) (@Parser.parseForKind e') := by
  unfold Parser.parseForKind; agp

instance ag_p_parseForLexical {r r' : Parser.Rec} [RecAg e e' r r'] : Ag e e' (@Parser.parseForLexical e r) (@Parser.parseForLexical e' r') := by
  unfold Parser.parseForLexical; agp

instance ag_p_parseForTarget {expr : Node} : Ag e e' (@Parser.parseForTarget e expr) (@Parser.parseForTarget e' expr) := by
  unfold Parser.parseForTarget; agp

instance ag_p_forCommaExpr {r r' : Parser.Rec} [RecAg e e' r r'] : Ag e e' (@Parser.forCommaExpr e r) (@Parser.forCommaExpr e' r') := by
  unfold Parser.forCommaExpr; agp

instance ag_p_parseForExpr {r r' : Parser.Rec} [RecAg e e' r r'] : Ag e e' (@Parser.parseForExpr e r) (@Parser.parseForExpr e' r') := by
  unfold Parser.parseForExpr; agp

instance ag_p_parseForStmt {r r' : Parser.Rec} [RecAg e e' r r'] : Ag e e' (@Parser.parseForStmt e r) (@Parser.parseForStmt e' r') := by
  unfold Parser.parseForStmt; agp

instance ag_p_parseWhileStmt {r r' : Parser.Rec} [RecAg e e' r r'] : Ag e e' (@Parser.parseWhileStmt e r) (@Parser.parseWhileStmt e' r') := by
  unfold Parser.parseWhileStmt; agp

instance ag_p_parseDoWhileStmt {r r' : Parser.Rec} [RecAg e e' r r'] : Ag e e' (@Parser.parseDoWhileStmt e r) (@Parser.parseDoWhileStmt e' r') := by
  unfold Parser.parseDoWhileStmt; agp

instance ag_p_parseIterationStmt {r r' : Parser.Rec} [RecAg e e' r r'] : Ag e e' (@Parser.parseIterationStmt e r) (@Parser.parseIterationStmt e' r') := by
  unfold Parser.parseIterationStmt; agp

instance ag_p_consequentF {r r' : Parser.Rec} [RecAg e e' r r'] (n : Nat) : Ag e e' (Parser.consequentF r n) (Parser.consequentF r' n) := by
  induction n with
  | zero => exact ag_fail rfl
  | succ n ih => unfold Parser.consequentF; agp

instance ag_p_parseConsequent {r r' : Parser.Rec} [RecAg e e' r r'] : Ag e e' (Parser.parseConsequent r) (Parser.parseConsequent r') := by
  unfold Parser.parseConsequent; agp

instance ag_p_parseCaseTest {r r' : Parser.Rec} [RecAg e e' r r'] {firstDefault : Bool} : Ag e e' (@Parser.parseCaseTest e r firstDefault) (@Parser.parseCaseTest e' r' firstDefault) := by
  unfold Parser.parseCaseTest; agp

instance ag_p_casesF {r r' : Parser.Rec} [RecAg e e' r r'] (n : Nat) (z : Bool) : Ag e e' (@Parser.casesF e r n z) (@Parser.casesF e' r' n z) := by
  induction n generalizing z with
  | zero => exact ag_fail rfl
  | succ n ih => unfold Parser.casesF; agp

instance ag_p_parseSwitchInner {r r' : Parser.Rec} [RecAg e e' r r'] : Ag e e' (@Parser.parseSwitchInner e r) (@Parser.parseSwitchInner e' r') := by
  unfold Parser.parseSwitchInner; agp

instance ag_p_parseSwitchStmt {r r' : Parser.Rec} [RecAg e e' r r'] : Ag e e' (@Parser.parseSwitchStmt e r) (@Parser.parseSwitchStmt e' r') := by
  unfold Parser.parseSwitchStmt; agp

instance ag_p_parseLabelOpt : Ag e e' (@Parser.parseLabelOpt e) (@Parser.parseLabelOpt e') := by
  unfold Parser.parseLabelOpt; agp

instance ag_p_parseContinueStmt : Ag e e' (@Parser.parseContinueStmt e) (@Parser.parseContinueStmt e') := by
  unfold Parser.parseContinueStmt; agp

instance ag_p_parseBreakStmt : Ag e e' (@Parser.parseBreakStmt e) (@Parser.parseBreakStmt e') := by
  unfold Parser.parseBreakStmt; agp

instance ag_p_parseReturnArg {r r' : Parser.Rec} [RecAg e e' r r'] : Ag e e' (@Parser.parseReturnArg e r) (@Parser.parseReturnArg e' r') := by
  unfold Parser.parseReturnArg; agp

instance ag_p_parseReturnStmt {r r' : Parser.Rec} [RecAg e e' r r'] : Ag e e' (@Parser.parseReturnStmt e r) (@Parser.parseReturnStmt e' r') := by
  unfold Parser.parseReturnStmt; agp

instance ag_p_parseReturn {r r' : Parser.Rec} [RecAg e e' r r'] : Ag e e' (@Parser.parseReturn e r) (@Parser.parseReturn e' r') := by
  unfold Parser.parseReturn; agp

instance ag_p_parseWithStmt {r r' : Parser.Rec} [RecAg e e' r r'] : Ag e e' (@Parser.parseWithStmt e r) (@Parser.parseWithStmt e' r') := by
  unfold Parser.parseWithStmt; agp

instance ag_p_parseThrowStmt {r r' : Parser.Rec} [RecAg e e' r r'] : Ag e e' (@Parser.parseThrowStmt e r) (@Parser.parseThrowStmt e' r') := by
  unfold Parser.parseThrowStmt; agp

instance ag_p_parseCatchParam {r r' : Parser.Rec} [RecAg e e' r r'] : Ag e e' (@Parser.parseCatchParam e r) (@Parser.parseCatchParam e' r') := by
  unfold Parser.parseCatchParam; agp

instance ag_p_parseCatchClause {r r' : Parser.Rec} [RecAg e e' r r'] : Ag e e' (@Parser.parseCatchClause e r) (@Parser.parseCatchClause e' r') := by
  unfold Parser.parseCatchClause; agp

instance ag_p_parseFinallyClause {r r' : Parser.Rec} [RecAg e e' r r'] : Ag e e' (@Parser.parseFinallyClause e r) (@Parser.parseFinallyClause e' r') := by
  unfold Parser.parseFinallyClause; agp

instance ag_p_parseTryStmt {r r' : Parser.Rec} [RecAg e e' r r'] : Ag e e' (@Parser.parseTryStmt e r) (@Parser.parseTryStmt e' r') := by
  unfold Parser.parseTryStmt; agp

instance ag_p_parseDebuggerStmt : Ag e e' (@Parser.parseDebuggerStmt e) (@Parser.parseDebuggerStmt e') := by
  unfold Parser.parseDebuggerStmt; agp

instance ag_p_parseGeneratorMark {allowGenerator : Bool} : Ag e e' (@Parser.parseGeneratorMark e allowGenerator) (@Parser.parseGeneratorMark e' allowGenerator) := by
  unfold Parser.parseGeneratorMark; agp

instance ag_p_parseFunctionName : Ag e e' (@Parser.parseFunctionName e) (@Parser.parseFunctionName e') := by
  unfold Parser.parseFunctionName; agp

instance ag_p_parseFunctionDclrRest {r r' : Parser.Rec} [RecAg e e' r r'] {async : Bool} {allowGenerator : Bool} : Ag e e' (@Parser.parseFunctionDclrRest e r async allowGenerator) (@Parser.parseFunctionDclrRest e' r' async allowGenerator) := by
  unfold Parser.parseFunctionDclrRest; agp

instance ag_p_parseFunctionDclr {r r' : Parser.Rec} [RecAg e e' r r'] {async : Bool} {allowGenerator : Bool} : Ag e e' (@Parser.parseFunctionDclr e r async allowGenerator) (@Parser.parseFunctionDclr e' r' async allowGenerator) := by
  unfold Parser.parseFunctionDclr; agp

instance ag_p_parseHoistableDclr {r r' : Parser.Rec} [RecAg e e' r r'] : Ag e e' (@Parser.parseHoistableDclr e r) (@Parser.parseHoistableDclr e' r') := by
  unfold Parser.parseHoistableDclr; agp

instance ag_p_parseDeclaration {r r' : Parser.Rec} [RecAg e e' r r'] : Ag e e' (@Parser.parseDeclaration e r) (@Parser.parseDeclaration e' r') := by
  unfold Parser.parseDeclaration; agp

instance ag_p_parseLabelBody {r r' : Parser.Rec} [RecAg e e' r r'] : Ag e e' (@Parser.parseLabelBody e r) (@Parser.parseLabelBody e' r') := by
  unfold Parser.parseLabelBody; agp

instance ag_p_parseLabelledStmt {r r' : Parser.Rec} [RecAg e e' r r'] {label : Identifier} : Ag e e' (@Parser.parseLabelledStmt e r label) (@Parser.parseLabelledStmt e' r' label) := by
  unfold Parser.parseLabelledStmt; agp

instance ag_p_parseExpressionOrLabelled {r r' : Parser.Rec} [RecAg e e' r r'] : Ag e e' (@Parser.parseExpressionOrLabelled e r) (@Parser.parseExpressionOrLabelled e' r') := by
  unfold Parser.parseExpressionOrLabelled; agp

instance ag_p_parseAsyncItem {r r' : Parser.Rec} [RecAg e e' r r'] : Ag e e' (@Parser.parseAsyncItem e r) (@Parser.parseAsyncItem e' r') := by
  unfold Parser.parseAsyncItem; agp

instance ag_p_parseStmtListItem {r r' : Parser.Rec} [RecAg e e' r r'] : Ag e e' (@Parser.parseStmtListItem e r) (@Parser.parseStmtListItem e' r') := by
  unfold Parser.parseStmtListItem; agp

instance ag_p_parseStatement {r r' : Parser.Rec} [RecAg e e' r r'] : Ag e e' (@Parser.parseStatement e r) (@Parser.parseStatement e' r') := by
  unfold Parser.parseStatement; agp

instance ag_p_parseImportLocal : Ag e e' (@Parser.parseImportLocal e) (@Parser.parseImportLocal e') := by
  unfold Parser.parseImportLocal; agp

instance ag_p_parseModuleSpecifier : Ag e e' (@Parser.parseModuleSpecifier e) (@Parser.parseModuleSpecifier e') := by
  unfold Parser.parseModuleSpecifier; agp

instance ag_p_parseImportFrom {specifiers : List ImportDeclarationSpecifier} : Ag e e' (@Parser.parseImportFrom e specifiers) (@Parser.parseImportFrom e' specifiers) := by
  unfold Parser.parseImportFrom; agp

instance ag_p_parseNamespaceImport : Ag e e' (@Parser.parseNamespaceImport e) (@Parser.parseNamespaceImport e') := by
  unfold Parser.parseNamespaceImport; agp

instance ag_p_importSpec : Ag e e' (@Parser.importSpec e) (@Parser.importSpec e') := by
  unfold Parser.importSpec; agp

instance ag_p_parseNamedImports : Ag e e' (@Parser.parseNamedImports e) (@Parser.parseNamedImports e') := by
  unfold Parser.parseNamedImports; agp

instance ag_p_parseImportDefault : Ag e e' (@Parser.parseImportDefault e) (@Parser.parseImportDefault e') := by
  unfold Parser.parseImportDefault; agp

instance ag_p_parseImportDclr : Ag e e' (@Parser.parseImportDclr e) (@Parser.parseImportDclr e') := by
  unfold Parser.parseImportDclr; agp

instance ag_p_exportSpec : Ag e e' (@Parser.exportSpec e) (@Parser.exportSpec e') := by
  unfold Parser.exportSpec; agp

instance ag_p_parseNamedExports : Ag e e' (@Parser.parseNamedExports e) (@Parser.parseNamedExports e') := by
  unfold Parser.parseNamedExports; agp

instance ag_p_parseExportDefault {r r' : Parser.Rec} [RecAg e e' r r'] : Ag e e' (@Parser.parseExportDefault e r) (@Parser.parseExportDefault e' r') := by
  unfold Parser.parseExportDefault; agp

instance ag_p_parseExportNamed : Ag e e' (@Parser.parseExportNamed e) (@Parser.parseExportNamed e') := by
  unfold Parser.parseExportNamed; agp

instance ag_p_parseExportAll : Ag e e' (@Parser.parseExportAll e) (@Parser.parseExportAll e') := by
  unfold Parser.parseExportAll; agp

instance ag_p_parseExportDclr {r r' : Parser.Rec} [RecAg e e' r r'] : Ag e e' (@Parser.parseExportDclr e r) (@Parser.parseExportDclr e' r') := by
  unfold Parser.parseExportDclr; agp

instance ag_p_parseModuleItem {r r' : Parser.Rec} [RecAg e e' r r'] : Ag e e' (@Parser.parseModuleItem e r) (@Parser.parseModuleItem e' r') := by
  unfold Parser.parseModuleItem; agp

instance ag_p_parseScriptBody {r r' : Parser.Rec} [RecAg e e' r r'] : Ag e e' (@Parser.parseScriptBody e r) (@Parser.parseScriptBody e' r') := by
  unfold Parser.parseScriptBody; agp

instance ag_p_parseModuleBody {r r' : Parser.Rec} [RecAg e e' r r'] : Ag e e' (@Parser.parseModuleBody e r) (@Parser.parseModuleBody e' r') := by
  unfold Parser.parseModuleBody; agp

/-- all levels of the recursion do the same -/
instance recAg_run {n : Nat} : RecAg e e' (@Parser.run e n) (@Parser.run e' n) := by
  induction n with
  | zero => exact ⟨ag_fail rfl, ag_fail rfl, ag_fail rfl, ag_fail rfl, ag_fail rfl, ag_fail rfl, fun _ _ => ag_fail rfl, ag_fail rfl, ag_fail rfl⟩
  | succ n ih =>
    exact ⟨ag_p_parseAssignmentExpr, ag_p_parseStmtListItem, ag_p_parseStatement, ag_p_parseUnaryExpr, ag_p_parseExponentiationExpr,
      ag_p_parseNewExpr, fun _ _ => ag_p_precedenceClimbing, ag_p_parseBindingIdOrPat, ag_p_parseLeftHandSideExpr⟩

theorem new_agree {source : Str} (h : Agree e e' source) :
    Burst e e' (@Parser.new e source) ∨
      (@Parser.new e' source = @Parser.new e source ∧ ∀ p, @Parser.new e source = .ok p → p.scanner.rest ⊆ source) := by
  rcases (ag_next (e := e) (st := st) (ct := ct) (ck := ck) (um := um) (pr := pr) (goal := .regExp)).out (Scanner.new source) h with h1 | ⟨h1, h2⟩
  · left
    unfold Parser.new
    cases hm : @Scanner.next e .regExp (Scanner.new source) with
    | error f => rw [hm] at h1; cases f with
      | panic p => exact h1
      | _ => exact h1.elim
    | ok x => rw [hm] at h1; exact h1.elim
  · right
    unfold Parser.new
    rw [h1]
    refine ⟨rfl, ?_⟩
    intro p
    cases hm : @Scanner.next e .regExp (Scanner.new source) with
    | error f => cases f <;> exact fun h => by cases h
    | ok x => intro hp; cases hp; rw [hm] at h2; exact h2

theorem scriptState_agree {source : Str} (h : Agree e e' source) :
    Burst e e' (@parseScriptState e source) ∨ @parseScriptState e' source = @parseScriptState e source := by
  unfold parseScriptState
  rcases new_agree h with h1 | ⟨h1, h2⟩
  · left
    cases hm : @Parser.new e source with
    | error f => rw [hm] at h1; cases f with
      | panic p => exact h1
      | _ => exact h1.elim
    | ok x => rw [hm] at h1; exact h1.elim
  · rw [h1]
    cases hm : @Parser.new e source with
    | error f => exact .inr rfl
    | ok p =>
      have := (ag_p_parseScriptBody (e := e) (st := st) (ct := ct) (ck := ck) (um := um) (pr := pr)
        (r := @Parser.run e (Parser.depth source)) (r' := @Parser.run e' (Parser.depth source))).out p (h.mono (h2 p hm))
      rcases this with h3 | h3
      · exact .inl h3
      · exact .inr h3.1

theorem moduleState_agree {source : Str} (h : Agree e e' source) :
    Burst e e' (@parseModuleState e source) ∨ @parseModuleState e' source = @parseModuleState e source := by
  unfold parseModuleState
  rcases new_agree h with h1 | ⟨h1, h2⟩
  · left
    cases hm : @Parser.new e source with
    | error f => rw [hm] at h1; cases f with
      | panic p => exact h1
      | _ => exact h1.elim
    | ok x => rw [hm] at h1; exact h1.elim
  · rw [h1]
    cases hm : @Parser.new e source with
    | error f => exact .inr rfl
    | ok p =>
      have := (ag_p_parseModuleBody (e := e) (st := st) (ct := ct) (ck := ck) (um := um) (pr := pr)
        (r := @Parser.run e (Parser.depth source)) (r' := @Parser.run e' (Parser.depth source))).out p (h.mono (h2 p hm))
      rcases this with h3 | h3
      · exact .inl h3
      · exact .inr h3.1

end Build
end Giron

import Verif.Proofs.Shift.Sim
import Verif.Model.Parser.Module
/-
The directive `use strict`: the parser's steps at a string which nothing continues.
-/
set_option maxRecDepth 20000
namespace Giron
open M Spec

/-- Nothing of an expression that begins with a string goes on at this token: it is a semicolon, or neither a
punctuator, nor a template, nor the operators `in` and `instanceof`. -/
def Spec.endsDirective (t : Token) : Prop :=
  t.tokentype = .punctuator ∧ t.value = .punc .semicolon ∨
  t.tokentype ≠ .punctuator ∧ t.tokentype ≠ .template ∧ (∀ p, t.value ≠ .punc p) ∧
    ¬ (t.tokentype = .keyword ∧ (t.value = .str cs!"in" ∨ t.value = .str cs!"instanceof"))

instance (t : Token) : Decidable (endsDirective t) := by
  have : Decidable (∀ p, t.value ≠ .punc p) :=
    match h : t.value with
    | .punc p => isFalse (fun h' => h' p rfl)
    | .null | .num _ | .str _ => isTrue (fun p h' => by cases h')
  unfold endsDirective
  infer_instance

namespace Parser
variable [Env]

/-- none of the parser's tests for a continuation succeeds -/
structure Stops (t : Token) : Prop where
  isP : ∀ p, p ≠ .semicolon → t.isP p = false
  matchesPunc : ∀ p, p ≠ .semicolon → t.matchesPunc p = false
  template : t.tokentype ≠ .template
  update : t.isUpdateOp = false
  bin : t.isBinOp = false
  assign : t.isAssignOp = false

theorem stops {t : Token} (h : endsDirective t) : Stops t := by
  rcases h with ⟨h1, h2⟩ | ⟨h1, h2, h3, h4⟩
  · constructor
    · intro p hp; simp [Token.isP, Token.matchesPunc, h2, Ne.symm hp]
    · intro p hp; simp [Token.matchesPunc, h2, Ne.symm hp]
    · rw [h1]; decide
    · simp [Token.isUpdateOp, h2]
    · simp [Token.isBinOp, h1, h2, Token.matchesPunc]
    · simp [Token.isAssignOp, h2]
  · constructor
    · intro p hp; simp [Token.isP, h1]
    · intro p hp; simp [Token.matchesPunc, h3]
    · exact h2
    · unfold Token.isUpdateOp; split <;> simp_all
    · unfold Token.isBinOp; split <;> simp_all [Token.matchesStr]
    · unfold Token.isAssignOp; split <;> simp_all

/-- the parser at a string token -/
structure AtString (sc sc2 : Scanner) (t t2 : Token) : Prop where
  str : t.tokentype = .stringLiteral
  val : ∃ v, t.value = .str v
  next : sc.next .div = .ok (t2, sc2)
  stops : Stops t2

variable {sc sc2 : Scanner} {t t2 : Token} {h : Bool} {ctx : Context} {ps : Params} {st : List Params} {ms : List Marker} {r : Rec}

/-- the marker of the string -/
def mark (t : Token) : Marker := ⟨t.lineNum, t.col, t.start⟩

/-- the literal -/
def lit (t : Token) (sc2 : Scanner) : Node :=
  .literal t.value t.value.toString .invalid ⟨mark t, ⟨sc2.line, sc2.col, sc2.current⟩⟩

/-- the state after the string -/
def after (sc2 : Scanner) (t t2 : Token) (ctx : Context) (ps : Params) (st : List Params) (ms : List Marker) : Parser :=
  ⟨sc2, decide (t2.lineNum > t.lineNum), t2, ctx, ps, st, ms⟩

variable (H : AtString sc sc2 t t2)
include H

theorem primary_string : parsePrimaryExpr r ⟨sc, h, t, ctx, ps, st, ms⟩ = .ok (lit t sc2, after sc2 t t2 ctx ps st ms) := by
  unfold parsePrimaryExpr
  rw [M.bind_ok (show cur _ = .ok (t, _) from rfl)]
  have e := H.str
  simp only [Token.isKw, Token.isId, Token.isIdOrKw, isLiteralToken, e, reduceCtorEq, decide_false, Bool.false_and,
    Bool.or_self, Bool.false_eq_true, if_false, if_true]
  have ha : advance .div ⟨sc, h, t, ctx, ps, st, mark t :: ms⟩ = .ok (t, after sc2 t t2 ctx ps st (mark t :: ms)) := by
    unfold advance; simp only [H.next]; rfl
  unfold parseLiteral
  rw [M.bind_ok (show startSpan _ = .ok ((), ⟨sc, h, t, ctx, ps, st, mark t :: ms⟩) from rfl), M.bind_ok ha]
  rfl

theorem call_string : parseCallExpr r ⟨sc, h, t, ctx, ps, st, ms⟩ = .ok (lit t sc2, after sc2 t t2 ctx ps st ms) := by
  have e := H.str
  have hm : parseMemberExpr r ⟨sc, h, t, ctx, ps, st, mark t :: ms⟩ = .ok (lit t sc2, after sc2 t t2 ctx ps st (mark t :: ms)) := by
    have hh : parseMemberHead r ⟨sc, h, t, ctx, ps, st, mark t :: ms⟩ = .ok (lit t sc2, after sc2 t t2 ctx ps st (mark t :: ms)) := by
      unfold parseMemberHead
      rw [M.bind_ok (show cur _ = .ok (t, _) from rfl)]
      simp only [Token.isKw, e, reduceCtorEq, decide_false, Bool.false_and, Bool.false_eq_true, if_false, primary_string H]
    unfold parseMemberExpr
    refine (M.bind_ok hh).trans ?_
    show memberLoopF _ _ _ _ = _
    unfold memberLoopF
    rw [M.bind_ok (show cur _ = .ok (t2, _) from rfl)]
    simp only [H.stops.isP _ (show Punctuator.lBracket ≠ .semicolon by decide), H.stops.isP _ (show Punctuator.dot ≠ .semicolon by decide), H.stops.template,
      false_and, Bool.false_eq_true, if_false]
    rfl
  have hh : parseCallHead r ⟨sc, h, t, ctx, ps, st, mark t :: ms⟩ = .ok (lit t sc2, after sc2 t t2 ctx ps st (mark t :: ms)) := by
    unfold parseCallHead
    rw [M.bind_ok (show cur _ = .ok (t, _) from rfl)]
    simp only [Token.isKw, e, reduceCtorEq, decide_false, Bool.false_and, Bool.false_eq_true, if_false, hm]
  have hl : ∀ n, callLoopF r (n + 1) (lit t sc2) (after sc2 t t2 ctx ps st (mark t :: ms)) =
      .ok (lit t sc2, after sc2 t t2 ctx ps st (mark t :: ms)) := by
    intro n
    unfold callLoopF
    rw [M.bind_ok (show cur _ = .ok (t2, _) from rfl)]
    simp only [H.stops.isP _ (show Punctuator.lBracket ≠ .semicolon by decide), H.stops.isP _ (show Punctuator.dot ≠ .semicolon by decide),
      H.stops.isP _ (show Punctuator.lParen ≠ .semicolon by decide), H.stops.template,
      false_and, Bool.false_eq_true, if_false]
    rfl
  unfold parseCallExpr
  rw [M.bind_ok (show startSpan _ = .ok ((), ⟨sc, h, t, ctx, ps, st, mark t :: ms⟩) from rfl), M.bind_ok hh]
  unfold parseCallExprTail
  exact (M.bind_ok (m := fun s => callLoopF r (s.size + 1) (lit t sc2) s) (hl _)).trans rfl

theorem pow_string : parsePow r ⟨sc, h, t, ctx, ps, st, ms⟩ = .ok (lit t sc2, after sc2 t t2 ctx ps st (mark t :: ms)) := by
  have e := H.str
  obtain ⟨v, hv⟩ := H.val
  unfold parsePow
  rw [M.bind_ok (show startSpan _ = .ok ((), ⟨sc, h, t, ctx, ps, st, mark t :: ms⟩) from rfl)]
  have hu : parseUpdateExpr r ⟨sc, h, t, ctx, ps, st, mark t :: ms⟩ = .ok (lit t sc2, after sc2 t t2 ctx ps st (mark t :: mark t :: ms)) := by
    unfold parseUpdateExpr
    rw [M.bind_ok (show cur _ = .ok (t, _) from rfl)]
    simp only [Token.isUpdateOp, hv, Bool.false_eq_true, if_false]
    unfold parsePostfix
    rw [M.bind_ok (show startSpan _ = .ok ((), ⟨sc, h, t, ctx, ps, st, mark t :: mark t :: ms⟩) from rfl),
      M.bind_ok (show cur _ = .ok (t, _) from rfl)]
    have hh : parseLeftHandSideExpr r ⟨sc, h, t, ctx, ps, st, mark t :: mark t :: ms⟩ =
        .ok (lit t sc2, after sc2 t t2 ctx ps st (mark t :: mark t :: ms)) := by
      unfold parseLeftHandSideExpr
      rw [M.bind_ok (show cur _ = .ok (t, _) from rfl)]
      simp only [Token.isKw, e, reduceCtorEq, decide_false, Bool.false_and, Bool.false_eq_true, if_false, call_string H]
    rw [M.bind_ok hh]
    rw [M.bind_ok (show M.get _ = .ok (after sc2 t t2 ctx ps st (mark t :: mark t :: ms), _) from rfl)]
    rw [if_neg (by intro h; have h := h.2; rw [show (after sc2 t t2 ctx ps st (mark t :: mark t :: ms)).current = t2 from rfl, H.stops.update] at h; cases h)]
    rfl
  rw [M.bind_ok hu, M.bind_ok (show cur _ = .ok (t2, _) from rfl)]
  simp only [H.stops.isP _ (show Punctuator.pow ≠ .semicolon by decide), Bool.false_eq_true, if_false]
  rfl

theorem conditional_string : parseConditionalExpr r ⟨sc, h, t, ctx, ps, st, ms⟩ =
    .ok (lit t sc2, after sc2 t t2 ctx ps st (mark t :: mark t :: ms)) := by
  have e := H.str
  obtain ⟨v, hv⟩ := H.val
  unfold parseConditionalExpr
  rw [M.bind_ok (show startSpan _ = .ok ((), ⟨sc, h, t, ctx, ps, st, mark t :: ms⟩) from rfl)]
  have hb : parseBinaryExpr r ⟨sc, h, t, ctx, ps, st, mark t :: ms⟩ = .ok (lit t sc2, after sc2 t t2 ctx ps st (mark t :: mark t :: ms)) := by
    unfold parseBinaryExpr
    rw [M.bind_ok (show startSpan _ = .ok ((), ⟨sc, h, t, ctx, ps, st, mark t :: mark t :: ms⟩) from rfl)]
    have hx : parseExponentiationExpr r ⟨sc, h, t, ctx, ps, st, mark t :: mark t :: ms⟩ =
        .ok (lit t sc2, after sc2 t t2 ctx ps st (mark t :: mark t :: mark t :: ms)) := by
      unfold parseExponentiationExpr
      rw [M.bind_ok (show M.get _ = .ok (_, _) from rfl)]
      have : Token.isUnaryOp t ps.hasAwait = some false := by
        simp [Token.isUnaryOp, Token.isUnaryKeyword, Token.isUnaryPunc, Token.toStr?, hv, e, Token.matchesPunc, Token.matchesStr]
      simp only [this]
      exact pow_string H
    rw [M.bind_ok hx]
    have hl : ∀ n, climbF r 1 (n + 1) (lit t sc2) (after sc2 t t2 ctx ps st (mark t :: mark t :: mark t :: ms)) =
        .ok (lit t sc2, after sc2 t t2 ctx ps st (mark t :: mark t :: mark t :: ms)) := by
      intro n
      unfold climbF
      rw [M.bind_ok (show M.get _ = .ok (after sc2 t t2 ctx ps st (mark t :: mark t :: mark t :: ms), _) from rfl)]
      rw [if_neg (by intro h; have h := h.1; rw [show (after sc2 t t2 ctx ps st (mark t :: mark t :: mark t :: ms)).current = t2 from rfl, H.stops.bin] at h; cases h)]
      rfl
    unfold precedenceClimbing
    exact (M.bind_ok (m := fun s => climbF r 1 (s.size + 1) (lit t sc2) s) (hl _)).trans rfl
  rw [M.bind_ok hb, M.bind_ok (show cur _ = .ok (t2, _) from rfl)]
  simp only [H.stops.matchesPunc _ (show Punctuator.question ≠ .semicolon by decide), Bool.false_eq_true, if_false]
  rfl

theorem expression_string {n : Nat} (hy : ps.hasYield = false) : parseExpression (run (n + 1)) ⟨sc, h, t, ctx, ps, st, ms⟩ =
    .ok (lit t sc2, after sc2 t t2 ctx ps st (mark t :: mark t :: mark t :: ms)) := by
  unfold parseExpression
  rw [M.bind_ok (show startSpan _ = .ok ((), ⟨sc, h, t, ctx, ps, st, mark t :: ms⟩) from rfl)]
  have ha : (run (n + 1)).assignmentExpr ⟨sc, h, t, ctx, ps, st, mark t :: ms⟩ =
      .ok (lit t sc2, after sc2 t t2 ctx ps st (mark t :: mark t :: mark t :: ms)) := by
    show parseAssignmentExpr (run n) _ = _
    unfold parseAssignmentExpr
    rw [M.bind_ok (show M.get _ = .ok (_, _) from rfl)]
    simp only [hy, Bool.false_and, Bool.false_eq_true, if_false]
    rw [M.bind_ok (show startSpan _ = .ok ((), ⟨sc, h, t, ctx, ps, st, mark t :: mark t :: ms⟩) from rfl)]
    rw [M.bind_ok (conditional_string H)]
    rw [M.bind_ok (show arrowIfIdentifier _ (lit t sc2) _ = .ok (lit t sc2, _) from rfl)]
    rw [M.bind_ok (show cur _ = .ok (t2, _) from rfl)]
    simp only [H.stops.isP _ (show Punctuator.assign ≠ .semicolon by decide), H.stops.assign, Bool.false_eq_true, and_false, if_false]
    rfl
  rw [M.bind_ok ha, M.bind_ok (show cur _ = .ok (t2, _) from rfl)]
  simp only [H.stops.matchesPunc _ (show Punctuator.comma ≠ .semicolon by decide), Bool.false_eq_true, if_false]
  rfl

/-- the directive makes the context strict -/
theorem directive_string {n : Nat} (hy : ps.hasYield = false) (hv : t.value = .str cs!"use strict") (ctx ctx' : Context)
    (hc : { ctx with strict := true } = { ctx' with strict := true }) :
    parseDirective (run (n + 1)) ⟨sc, h, t, ctx, ps, st, ms⟩ = parseDirective (run (n + 1)) ⟨sc, h, t, ctx', ps, st, ms⟩ := by
  unfold parseDirective
  rw [M.bind_ok (show startSpan _ = .ok ((), ⟨sc, h, t, ctx, ps, st, mark t :: ms⟩) from rfl),
    M.bind_ok (show startSpan _ = .ok ((), ⟨sc, h, t, ctx', ps, st, mark t :: ms⟩) from rfl),
    M.bind_ok (expression_string H hy), M.bind_ok (expression_string H hy)]
  have hl : isUseStrictLiteral (lit t sc2) = true := by unfold lit isUseStrictLiteral; rw [hv]; rfl
  rw [hl]
  unfold M.when
  rw [if_pos rfl]
  rw [M.bind_ok (show (M.modify _) (after sc2 t t2 ctx ps st _) = .ok ((), after sc2 t t2 { ctx with strict := true } ps st _) from rfl),
    M.bind_ok (show (M.modify _) (after sc2 t t2 ctx' ps st _) = .ok ((), after sc2 t t2 { ctx' with strict := true } ps st _) from rfl),
    hc]
  rfl

theorem prologues_string {n : Nat} (hy : ps.hasYield = false) (hv : t.value = .str cs!"use strict") (ctx ctx' : Context)
    (hc : { ctx with strict := true } = { ctx' with strict := true }) :
    parseDirectivePrologues (run (n + 1)) ⟨sc, h, t, ctx, ps, st, ms⟩ =
      parseDirectivePrologues (run (n + 1)) ⟨sc, h, t, ctx', ps, st, ms⟩ := by
  unfold parseDirectivePrologues
  show directiveProloguesF _ (Parser.size ⟨sc, h, t, ctx, ps, st, ms⟩ + 1) _ = directiveProloguesF _ (Parser.size ⟨sc, h, t, ctx, ps, st, ms⟩ + 1) _
  unfold directiveProloguesF
  rw [M.bind_ok (show cur ⟨sc, h, t, ctx, ps, st, ms⟩ = .ok (t, _) from rfl), M.bind_ok (show cur ⟨sc, h, t, ctx', ps, st, ms⟩ = .ok (t, _) from rfl),
    if_pos H.str]
  rw [M.bind_apply, M.bind_apply, directive_string H hy hv ctx ctx' hc]

theorem script_string {n : Nat} (hy : ps.hasYield = false) (hv : t.value = .str cs!"use strict") (ctx ctx' : Context)
    (hc : { ctx with strict := true } = { ctx' with strict := true }) :
    parseScriptBody (run (n + 1)) ⟨sc, h, t, ctx, ps, st, ms⟩ = parseScriptBody (run (n + 1)) ⟨sc, h, t, ctx', ps, st, ms⟩ := by
  unfold parseScriptBody
  rw [M.bind_ok (show startSpan _ = .ok ((), ⟨sc, h, t, ctx, ps, st, mark t :: ms⟩) from rfl),
    M.bind_ok (show startSpan _ = .ok ((), ⟨sc, h, t, ctx', ps, st, mark t :: ms⟩) from rfl)]
  rw [M.bind_apply, M.bind_apply, prologues_string H hy hv ctx ctx' hc]

end Parser
end Giron

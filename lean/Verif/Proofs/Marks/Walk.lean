import Verif.Proofs.Marks.Basic
import Verif.Proofs.Why.Expr
/-
How many positions each parser method puts on the span stack and takes off it.  (Partly generated: one instance per method.)
-/
namespace Giron
namespace Marks
open M Giron.Parser Layout Spec
variable [Env] {α β : Type}

/-- the recursive entry points -/
class RecAt (src : Str) (r : Rec) : Prop where
  assignmentExpr : At src 0 r.assignmentExpr 0
  stmtListItem : At src 0 r.stmtListItem 0
  statement : At src 0 r.statement 0
  unaryExpr : At src 0 r.unaryExpr 1
  exponentiationExpr : At src 0 r.exponentiationExpr 1
  precedenceClimbing : ∀ n k, At src 1 (r.precedenceClimbing n k) 0
  climb : ∀ n k s, Near src s → s.current.isBinOp = true → s.current.precedence s.params.hasIn ≥ k →
    Good src 0 (r.precedenceClimbing n k) 0 s
  bindingIdOrPat : At src 0 r.bindingIdOrPat 0
  leftHandSideExpr : At src 0 r.leftHandSideExpr 0

variable {src : Str} {r : Rec} {n j a b : Nat} {s : Parser}
instance [h : RecAt src r] : At src 0 r.assignmentExpr 0 := h.assignmentExpr
instance [h : RecAt src r] : At src 0 r.stmtListItem 0 := h.stmtListItem
instance [h : RecAt src r] : At src 0 r.statement 0 := h.statement
instance [h : RecAt src r] : At src 0 r.unaryExpr 1 := h.unaryExpr
instance [h : RecAt src r] : At src 0 r.exponentiationExpr 1 := h.exponentiationExpr
instance [h : RecAt src r] {n k} : At src 1 (r.precedenceClimbing n k) 0 := h.precedenceClimbing n k
instance [h : RecAt src r] : At src 0 r.bindingIdOrPat 0 := h.bindingIdOrPat
instance [h : RecAt src r] : At src 0 r.leftHandSideExpr 0 := h.leftHandSideExpr

instance at_when_f [Decidable (false = false)] : At src 0 (M.when (false = false) startSpan) 1 := by
  unfold M.when; rw [if_pos rfl]; infer_instance
instance at_when_t [Decidable (true = false)] : At src 0 (M.when (true = false) startSpan) 0 := by
  unfold M.when; rw [if_neg (fun h => by cases h)]; exact at_pure (Nat.le_refl _)

theorem at_when {c : Prop} [Decidable c] {m : PM Unit} (h : At src n m n) : At src n (M.when c m) n := by
  unfold M.when
  exact at_ite h (at_pure (Nat.le_refl _))

theorem at_callX {x : Except Fail α} {k : α → PM β} (h : Nx x) (hk : ∀ y, At src n (k y) j) : At src n (M.ofExcept x >>= k) j :=
  at_bind (at_weaken (at_ofExcept h) (Nat.zero_le _) (by omega)) hk
theorem at_callU {p : PanicSite} {v : Option α} {k : α → PM β} (h : p ≠ .spanStack) (hk : ∀ y, At src n (k y) j) :
    At src n (M.unwrap p v >>= k) j :=
  at_bind (at_weaken (at_unwrap h) (Nat.zero_le _) (by omega)) hk
theorem at_neut {m : PM α} {k : α → PM β} (h : At src n m n) (hk : ∀ x, At src n (k x) j) : At src n (m >>= k) j := at_bind h hk

theorem nx_toNode {b : Binding} : Nx b.toNode := by cases b <;> exact fun e => by cases e
theorem nx_toId {b : Binding} : Nx b.toId := by cases b <;> exact fun e => by cases e

/-- a conversion -/
macro "nxs" : tactic => `(tactic| first
  | exact nx_toNode | exact nx_toId | exact nx_toAssignmentPattern _ | exact nx_toBindingPattern _
  | exact nx_forTarget _ | exact nx_toBinding _ | exact nx_toStrictBinding _ _ | skip)

/-- one step -/
macro "at1" : tactic => `(tactic| first
  | (with_reducible exact at_pure (by decide))
  | (with_reducible exact at_pure' (by decide))
  | (with_reducible exact at_fail (fun e => by cases e))
  | (with_reducible exact at_panic (fun e => by cases e))
  | (with_reducible exact at_error)
  | (with_reducible exact at_unexpected)
  | (with_reducible exact at_errorCurrent)
  | (with_reducible exact at_unexpectedCurrent)
  | exact at_last (by decide) (by decide)
  | (refine at_callU (fun e => by cases e) (fun _ => ?_))
  | (refine at_callX ?_ (fun _ => ?_); nxs)
  | (refine at_call (by decide) (fun _ => ?_); dsimp only [Nat.reduceSub, Nat.reduceAdd])
  | (with_reducible refine at_ite ?_ ?_)
  | (with_reducible refine at_neut ?_ (fun _ => ?_))
  | (exact at_weaken (at_unwrap (fun e => by cases e)) (by decide) (by decide))
  | (refine at_weaken (at_ofExcept ?_) (by decide) (by decide); nxs)
  | (refine at_ite ?_ ?_)
  | exact ⟨fun s => At.out _⟩
  | (refine at_when ?_)
  | split)

macro "at" : tactic => `(tactic| repeat at1)

theorem good_peek {past : List Word} {w : Word} (h : Why.Here ⟨src, true⟩ s past w) (hl : ∃ v ∈ lookWords, w.c = .name v) :
    Good src n peekToken n s := by
  intro hn
  have := atLook_peek (n := n) (j := n) (k := Pure.pure) (fun t => at_pure (src := src) (Nat.le_refl _)) s past w h hl hn
  refine ⟨peekToken_panic, fun t s' ht => this.2 t s' ((M.bind_ok ht).trans rfl)⟩

section
variable [Plain src]

instance at_consume {p : Punctuator} {goal : LexGoal} : At src 0 (consume p goal) 0 := by
  unfold consume; at

instance at_consumeKw {kw : Str} {goal : LexGoal} : At src 0 (consumeKw kw goal) 0 := by
  unfold consumeKw; at

instance at_consumeId {id : Str} {goal : LexGoal} : At src 0 (consumeId id goal) 0 := by
  unfold consumeId; at

instance at_consumeSemicolon {goal : LexGoal} : At src 0 (consumeSemicolon goal) 0 := by
  unfold consumeSemicolon; at

instance at_whilePuncF {p : Punctuator} {m : PM α} [At src 0 m 0] {n : Nat} : At src 0 (whilePuncF p m n) 0 := by
  induction n with
  | zero => exact at_fail (fun e => by cases e)
  | succ n ih => unfold whilePuncF; at

instance at_whilePuncF' {p : Punctuator} {m : PM α} [At src 0 m 0] : At src 0 (fun s => whilePuncF p m (s.size + 1) s) 0 :=
  ⟨fun s => (at_whilePuncF (n := s.size + 1)).out s⟩

instance at_whilePunc {p : Punctuator} {m : PM α} [At src 0 m 0] : At src 0 (whilePunc p m) 0 := by
  unfold whilePunc; at

instance at_untilPuncF {p : Punctuator} {m : PM α} [At src 0 m 0] {n : Nat} : At src 0 (untilPuncF p m n) 0 := by
  induction n with
  | zero => exact at_fail (fun e => by cases e)
  | succ n ih => unfold untilPuncF; at

instance at_untilPuncF' {p : Punctuator} {m : PM α} [At src 0 m 0] : At src 0 (fun s => untilPuncF p m (s.size + 1) s) 0 :=
  ⟨fun s => (at_untilPuncF (n := s.size + 1)).out s⟩

instance at_untilPunc {p : Punctuator} {m : PM α} [At src 0 m 0] : At src 0 (untilPunc p m) 0 := by
  unfold untilPunc; at

instance at_untilPuncOrRestF {p : Punctuator} {m : PM α} [At src 0 m 0] {n : Nat} : At src 0 (untilPuncOrRestF p m n) 0 := by
  induction n with
  | zero => exact at_fail (fun e => by cases e)
  | succ n ih => unfold untilPuncOrRestF; at

instance at_untilPuncOrRestF' {p : Punctuator} {m : PM α} [At src 0 m 0] : At src 0 (fun s => untilPuncOrRestF p m (s.size + 1) s) 0 :=
  ⟨fun s => (at_untilPuncOrRestF (n := s.size + 1)).out s⟩

instance at_untilPuncOrRest {p : Punctuator} {m : PM α} [At src 0 m 0] : At src 0 (untilPuncOrRest p m) 0 := by
  unfold untilPuncOrRest; at

instance at_untilEofF {m : PM Node} [At src 0 m 0] {n : Nat} : At src 0 (untilEofF m n) 0 := by
  induction n with
  | zero => exact at_fail (fun e => by cases e)
  | succ n ih => unfold untilEofF; at

instance at_untilEofF' {m : PM Node} [At src 0 m 0] : At src 0 (fun s => untilEofF m (s.size + 1) s) 0 :=
  ⟨fun s => (at_untilEofF (n := s.size + 1)).out s⟩

instance at_untilEof {m : PM Node} [At src 0 m 0] : At src 0 (untilEof m) 0 := by
  unfold untilEof; at

instance at_strictReservedCheck : At src 0 (strictReservedCheck) 0 := by
  unfold strictReservedCheck; at

instance at_advanceStr {goal : LexGoal} : At src 0 (advanceStr goal) 0 := by
  unfold advanceStr; at

instance at_parseIdName {goal : LexGoal} : At src 0 (parseIdName goal) 0 := by
  unfold parseIdName; at

instance at_parseIdReference : At src 0 (parseIdReference) 0 := by
  unfold parseIdReference; at

instance at_parseBindingId : At src 0 (parseBindingId) 0 := by
  unfold parseBindingId; at

instance at_commaExpr [RecAt src r] : At src 0 (commaExpr r) 0 := by
  unfold commaExpr; at

instance at_parseExpression [RecAt src r] : At src 0 (parseExpression r) 0 := by
  unfold parseExpression; at

instance at_parseDirective [RecAt src r] : At src 0 (parseDirective r) 0 := by
  unfold parseDirective; at

instance at_directiveProloguesF [RecAt src r] {n : Nat} : At src 0 (directiveProloguesF r n) 0 := by
  induction n with
  | zero => exact at_fail (fun e => by cases e)
  | succ n ih => unfold directiveProloguesF; at

instance at_directiveProloguesF' [RecAt src r] : At src 0 (fun s => directiveProloguesF r (s.size + 1) s) 0 :=
  ⟨fun s => (at_directiveProloguesF (n := s.size + 1)).out s⟩

instance at_parseDirectivePrologues [RecAt src r] : At src 0 (parseDirectivePrologues r) 0 := by
  unfold parseDirectivePrologues; at

instance at_parseStatementList [RecAt src r] : At src 0 (parseStatementList r) 0 := by
  unfold parseStatementList; at

instance at_parseFunctionBodyBlock [RecAt src r] : At src 0 (parseFunctionBodyBlock r) 0 := by
  unfold parseFunctionBodyBlock; at

instance at_parseFunctionBody [RecAt src r] : At src 0 (parseFunctionBody r) 0 := by
  unfold parseFunctionBody; at

instance at_parseArrowBody [RecAt src r] : At src 0 (parseArrowBody r) 0 := by
  unfold parseArrowBody; at

instance at_commaUnless {close : Punctuator} : At src 0 (commaUnless close) 0 := by
  unfold commaUnless; at

instance at_valueToKey {v : ValueOrExpr} {literal : Bool} {span : Span} : At src 0 (valueToKey v literal span) 0 := by
  unfold valueToKey; at

instance at_objPatName [RecAt src r] : At src 0 (objPatName r) 0 := by
  unfold objPatName; at

instance at_shorthandName {v : ValueOrExpr} : At src 0 (shorthandName v) 0 := by
  unfold shorthandName; at

instance at_bindingToPropertyValue {line : Nat} {col : Nat} {z : Binding} : At src 0 (bindingToPropertyValue line col z) 0 := by
  unfold bindingToPropertyValue; at

instance at_objPatValue [RecAt src r] : At src 0 (objPatValue r) 0 := by
  unfold objPatValue; at

instance at_objPatItem [RecAt src r] : At src 0 (objPatItem r) 0 := by
  unfold objPatItem; at

instance at_parseObjBindingPat [RecAt src r] : At src 0 (parseObjBindingPat r) 0 := by
  unfold parseObjBindingPat; at

instance at_bindingToElement {line : Nat} {col : Nat} {z : Binding} : At src 0 (bindingToElement line col z) 0 := by
  unfold bindingToElement; at

instance at_arrPatItem [RecAt src r] : At src 0 (arrPatItem r) 0 := by
  unfold arrPatItem; at

instance at_parseArrBindingPat [RecAt src r] : At src 0 (parseArrBindingPat r) 0 := by
  unfold parseArrBindingPat; at

instance at_parseBindingIdOrPat [RecAt src r] : At src 0 (parseBindingIdOrPat r) 0 := by
  unfold parseBindingIdOrPat; at

instance at_bindingToParam {line : Nat} {col : Nat} {z : Binding} : At src 0 (bindingToParam line col z) 0 := by
  cases z <;> unfold bindingToParam <;> at

instance at_formalParam [RecAt src r] : At src 0 (formalParam r) 0 := by
  unfold formalParam; at

instance at_parseFormalParams [RecAt src r] : At src 0 (parseFormalParams r) 0 := by
  unfold parseFormalParams; at

instance at_parseParamsAndBody [RecAt src r] {generator : Bool} {async : Bool} : At src 0 (parseParamsAndBody r generator async) 0 := by
  unfold parseParamsAndBody; at

instance at_parseComputedPropertyName [RecAt src r] : At src 0 (parseComputedPropertyName r) 0 := by
  unfold parseComputedPropertyName; at

instance at_parsePropertyName [RecAt src r] : At src 0 (parsePropertyName r) 0 := by
  unfold parsePropertyName; at

instance at_classGetter [RecAt src r] {isStatic : Bool} : At src 0 (classGetter r isStatic) 0 := by
  unfold classGetter; at

instance at_classSetter [RecAt src r] {isStatic : Bool} : At src 0 (classSetter r isStatic) 0 := by
  unfold classSetter; at

instance at_classAsync [RecAt src r] {isStatic : Bool} : At src 0 (classAsync r isStatic) 0 := by
  unfold classAsync; at

instance at_classGenerator [RecAt src r] {isStatic : Bool} : At src 0 (classGenerator r isStatic) 0 := by
  unfold classGenerator; at

instance at_classMethod [RecAt src r] {isStatic : Bool} : At src 0 (classMethod r isStatic) 0 := by
  unfold classMethod; at

instance at_classItem [RecAt src r] : At src 0 (classItem r) 0 := by
  unfold classItem; at

instance at_parseClassBody [RecAt src r] : At src 0 (parseClassBody r) 0 := by
  unfold parseClassBody; at

instance at_parseClassTail [RecAt src r] {id : Option Node} : At src 1 (parseClassTail r id) 0 := by
  unfold parseClassTail; at

instance at_bindingIdNode {z : Binding} : At src 0 (bindingIdNode z) 0 := by
  unfold bindingIdNode; at

instance at_parseClassDclr [RecAt src r] : At src 0 (parseClassDclr r) 0 := by
  unfold parseClassDclr; at

instance at_parseClassExpr [RecAt src r] : At src 0 (parseClassExpr r) 0 := by
  unfold parseClassExpr; at

instance at_templateElementOf {t : Token} : At src 0 (templateElementOf t) 0 := by
  unfold templateElementOf; at

instance at_parseTemplateHead : At src 0 (parseTemplateHead) 0 := by
  unfold parseTemplateHead; at

instance at_parseTemplateElement : At src 0 (parseTemplateElement) 0 := by
  unfold parseTemplateElement; at

instance at_templateLoopF [RecAt src r] {n : Nat} {z : Bool} : At src 0 (templateLoopF r n z) 0 := by
  induction n generalizing z with
  | zero => exact at_fail (fun e => by cases e)
  | succ n ih => unfold templateLoopF; at

instance at_templateLoopF' [RecAt src r] {isTail : Bool} : At src 0 (fun s => templateLoopF r (s.size + 1) isTail s) 0 :=
  ⟨fun s => (at_templateLoopF (n := s.size + 1)).out s⟩

instance at_parseTemplateParts [RecAt src r] : At src 0 (parseTemplateParts r) 0 := by
  unfold parseTemplateParts; at

instance at_parseTemplateLiteral [RecAt src r] : At src 0 (parseTemplateLiteral r) 0 := by
  unfold parseTemplateLiteral; at

instance at_parseTaggedTemplate [RecAt src r] {tag : Node} : At src 0 (parseTaggedTemplate r tag) 0 := by
  unfold parseTaggedTemplate; at

instance at_parseFunctionExpr [RecAt src r] : At src 0 (parseFunctionExpr r false) 0 := by
  unfold parseFunctionExpr; at
instance at_parseFunctionExpr' [RecAt src r] : At src 1 (parseFunctionExpr r true) 0 := by
  unfold parseFunctionExpr; at

instance at_argument [RecAt src r] : At src 0 (argument r) 0 := by
  unfold argument; at

instance at_parseArguments [RecAt src r] : At src 0 (parseArguments r) 0 := by
  unfold parseArguments; at

instance at_seqItem [RecAt src r] : At src 0 (seqItem r) 0 := by
  unfold seqItem; at

instance at_nodeToParam {isLast : Bool} {expr : Node} : At src 0 (nodeToParam isLast expr) 0 := by
  unfold nodeToParam; at

instance at_seqToArrowParams {z : List Node} : At src 0 (seqToArrowParams z) 0 := by
  induction z with
  | nil => unfold seqToArrowParams; at
  | cons a l ih => unfold seqToArrowParams; cases l <;> at

instance at_seqToArrow [RecAt src r] {seq : List Node} : At src 1 (seqToArrow r seq) 0 := by
  unfold seqToArrow; at

instance at_parseSeqOrArrow [RecAt src r] : At src 0 (parseSeqOrArrow r) 0 := by
  unfold parseSeqOrArrow; at

instance at_arrayItem [RecAt src r] : At src 0 (arrayItem r) 0 := by
  unfold arrayItem; at

instance at_parseArrayLitExpr [RecAt src r] : At src 0 (parseArrayLitExpr r) 0 := by
  unfold parseArrayLitExpr; at

instance at_parseMethodDefinition [RecAt src r] {key : PropertyKey} {kind : Parser.PropKind} {async : Bool} {generator : Bool} {computed : Bool} : At src 1 (parseMethodDefinition r key kind async generator computed) 0 := by
  unfold parseMethodDefinition; at

/-- what is left of the position put on the stack for a property -/
def left : PropHead → Nat
  | .done _ => 0
  | .more .. => 1

/-- the same for a method that gives the head of a property -/
def Head (src : Str) (n : Nat) (m : PM PropHead) (s : Parser) : Prop :=
  n ≤ s.markerStack.length → m s ≠ .error (.panic .spanStack) ∧
    ∀ x s', m s = .ok (x, s') → Near src s' ∧ s.markerStack.length + left x ≤ s'.markerStack.length + n

theorem Head.bind {m : PM α} {k : α → PM PropHead} (h : Good src n m a s)
    (hk : ∀ x s', m s = .ok (x, s') → Near src s' → Head src a (k x) s') : Head src n (m >>= k) s := by
  intro hn
  obtain ⟨g1, g2⟩ := h hn
  cases hm : m s with
  | error f =>
    rw [M.bind_err hm]
    exact ⟨fun e => g1 (by rw [hm]; cases e; rfl), fun x s' e => by cases e⟩
  | ok p =>
    obtain ⟨x, s1⟩ := p
    obtain ⟨g3, g4⟩ := g2 x s1 hm
    rw [M.bind_ok hm]
    obtain ⟨g5, g6⟩ := hk x s1 hm g3 (by omega)
    refine ⟨g5, fun y s2 hy => ?_⟩
    obtain ⟨g7, g8⟩ := g6 y s2 hy
    exact ⟨g7, by omega⟩

theorem Head.step {m : PM α} {k : α → PM PropHead} (hs : Near src s) [h : At src a m b] (h1 : a ≤ n)
    (hk : ∀ x s', Near src s' → Head src (n - a + b) (k x) s') : Head src n (m >>= k) s :=
  Head.bind ((h.out s hs).weaken h1 (by omega)) fun x s' _ hs' => hk x s' hs'

theorem Head.done {p : ObjectExpressionProperty} (hs : Near src s) : Head src 0 (Pure.pure (.done p)) s :=
  fun _ => ⟨fun e => (by cases e), fun y s' e => by cases e; exact ⟨hs, by simp [left]⟩⟩
theorem Head.more {k : PropKind} {a b : Bool} (hs : Near src s) : Head src 1 (Pure.pure (.more k a b)) s :=
  fun _ => ⟨fun e => (by cases e), fun y s' e => by cases e; exact ⟨hs, by simp [left]⟩⟩
theorem Head.ite {c : Prop} [Decidable c] {m m' : PM PropHead} (h : c → Head src n m s) (h' : ¬ c → Head src n m' s) :
    Head src n (if c then m else m') s := by
  split
  · exact h ‹_›
  · exact h' ‹_›

theorem Head.peek {k : Token → PM PropHead} {past : List Word} {w : Word} (h : Why.Here ⟨src, true⟩ s past w)
    (hl : ∃ v ∈ lookWords, w.c = .name v) (hk : ∀ t s', Near src s' → Head src n (k t) s') : Head src n (peekToken >>= k) s :=
  Head.bind (good_peek h hl) fun t s' _ hs' => hk t s' hs'

theorem head_accessorHead [RecAt src r] {name : Str} {kind : PropKind} {past : List Word} {w : Word}
    (h : Why.Here ⟨src, true⟩ s past w) (hl : ∃ v ∈ lookWords, w.c = .name v) : Head src 1 (accessorHead r name kind) s := by
  unfold accessorHead
  refine Head.peek h hl fun t s1 h1 => Head.ite (fun _ => Head.more h1) fun _ => ?_
  refine Head.step h1 (Nat.zero_le _) fun _ s2 h2 => Head.step h2 (Nat.zero_le _) fun _ s3 h3 => Head.step h3 (by decide) fun _ s4 h4 =>
    Head.step h4 (Nat.zero_le _) fun _ s5 h5 => Head.ite (fun _ => ?_) fun _ => Head.more h5
  exact Head.step h5 (by decide) fun _ s6 h6 => Head.done h6

theorem head_asyncHead [RecAt src r] {past : List Word} {w : Word}
    (h : Why.Here ⟨src, true⟩ s past w) (hl : ∃ v ∈ lookWords, w.c = .name v) : Head src 1 (asyncHead r) s := by
  unfold asyncHead
  refine Head.peek h hl fun t s1 h1 => Head.ite (fun _ => Head.more h1) fun _ => ?_
  refine Head.step h1 (Nat.zero_le _) fun _ s2 h2 => Head.step h2 (Nat.zero_le _) fun _ s3 h3 => Head.step h3 (by decide) fun _ s4 h4 =>
    Head.step h4 (Nat.zero_le _) fun _ s5 h5 => Head.bind (a := 1) ((by at : At src 1 _ 1).out s5 h5) fun _ s6 _ h6 =>
    Head.step h6 (Nat.zero_le _) fun _ s7 h7 => Head.ite (fun _ => ?_) fun _ => Head.more h7
  exact Head.step h7 (by decide) fun _ s8 h8 => Head.done h8

theorem head_propHead [RecAt src r] (h : Near src s) : Head src 1 (propHead r) s := by
  unfold propHead
  obtain ⟨past, w, hw⟩ := h
  have hs : Near src s := ⟨past, w, hw⟩
  suffices Head src 1 _ s from this
  refine (fun h => h : Head src 1 (_ : PM PropHead) s → Head src 1 (Parser.cur >>= _) s) ?_
  refine Head.ite (fun hi => head_accessorHead hw ⟨_, ?_, hw.cur.isId hi⟩) fun _ => Head.ite
    (fun hi => head_accessorHead hw ⟨_, ?_, hw.cur.isId hi⟩) fun _ => Head.ite
    (fun hi => head_asyncHead hw ⟨_, ?_, hw.cur.isId hi⟩) fun _ => Head.ite (fun _ => ?_) fun _ => Head.more hs
  · simp
  · simp
  · simp
  · refine Head.step hs (Nat.zero_le _) fun _ s1 h1 => Head.step h1 (Nat.zero_le _) fun _ s2 h2 => ?_
    exact Head.step h2 (by decide) fun _ s3 h3 => Head.done h3

instance at_propKey [RecAt src r] : At src 0 (propKey r) 0 := by
  unfold propKey; at

instance at_propRest [RecAt src r] {key : PropertyKey} {computed : Bool} {kind : Parser.PropKind} {async : Bool} {generator : Bool} : At src 1 (propRest r key computed kind async generator) 0 := by
  unfold propRest; at

instance at_objectItem [RecAt src r] : At src 0 (objectItem r) 0 := by
  unfold objectItem
  at1; at1; at1
  · at
  · refine ⟨fun s hs hn => ?_⟩
    obtain ⟨g1, g2⟩ := head_propHead (r := r) hs hn
    cases hm : propHead r s with
    | error f =>
      refine ⟨fun e => g1 ?_, fun x s' e => ?_⟩
      · rw [M.bind_err hm] at e; rw [hm]; cases e; rfl
      · rw [M.bind_err hm] at e; cases e
    | ok p =>
      obtain ⟨x, s1⟩ := p
      obtain ⟨g3, g4⟩ := g2 x s1 hm
      rw [M.bind_ok hm]
      cases x with
      | done p => exact ⟨fun e => (by cases e), fun y s' e => by cases e; exact ⟨g3, by simp only [left] at g4; omega⟩⟩
      | more k a b =>
        simp only [left] at g4
        have := (by at : At src 1 (do
          let (key, computed) ← propKey r
          let property ← propRest r key computed k a b
          commaUnless .rBrace
          Pure.pure property) 0).out s1 g3 (by omega)
        exact ⟨this.1, fun y s' e => ⟨(this.2 y s' e).1, by have := (this.2 y s' e).2; omega⟩⟩

instance at_parseObjectLitExpr [RecAt src r] : At src 0 (parseObjectLitExpr r) 0 := by
  unfold parseObjectLitExpr; at

instance at_identName {z : Node} : At src 0 (identName z) 0 := by
  unfold identName; at

instance at_parseAsyncPrimaryExpr [RecAt src r] : At src 0 (parseAsyncPrimaryExpr r) 0 := by
  unfold parseAsyncPrimaryExpr; at

instance at_parseLiteral : At src 0 (parseLiteral) 0 := by
  unfold parseLiteral; at

instance at_parseRegex : At src 0 (parseRegex) 0 := by
  unfold parseRegex; at

instance at_parseThis : At src 0 (parseThis) 0 := by
  unfold parseThis; at

instance at_parsePrimaryExpr [RecAt src r] : At src 0 (parsePrimaryExpr r) 0 := by
  unfold parsePrimaryExpr; at

instance at_parseComputedMemberExpr [RecAt src r] {object : Node} : At src 0 (parseComputedMemberExpr r object) 0 := by
  unfold parseComputedMemberExpr; at

instance at_parseStaticMemberExpr {object : Node} : At src 0 (parseStaticMemberExpr object) 0 := by
  unfold parseStaticMemberExpr; at

instance at_parseSuper : At src 0 (parseSuper) 0 := by
  unfold parseSuper; at

instance at_memberLoopF [RecAt src r] {n : Nat} {z : Node} : At src 0 (memberLoopF r n z) 0 := by
  induction n generalizing z with
  | zero => exact at_fail (fun e => by cases e)
  | succ n ih => unfold memberLoopF; at

instance at_memberLoopF' [RecAt src r] {e : Node} : At src 0 (fun s => memberLoopF r (s.size + 1) e s) 0 :=
  ⟨fun s => (at_memberLoopF (n := s.size + 1)).out s⟩

instance at_parseMemberHead [RecAt src r] : At src 0 (parseMemberHead r) 0 := by
  unfold parseMemberHead; at

instance at_parseMemberExpr [RecAt src r] : At src 0 (parseMemberExpr r) 0 := by
  unfold parseMemberExpr; at

instance at_callLoopF [RecAt src r] {n : Nat} {z : Node} : At src 1 (callLoopF r n z) 1 := by
  induction n generalizing z with
  | zero => exact at_fail (fun e => by cases e)
  | succ n ih => unfold callLoopF; at

instance at_callLoopF' [RecAt src r] {e : Node} : At src 1 (fun s => callLoopF r (s.size + 1) e s) 1 :=
  ⟨fun s => (at_callLoopF (n := s.size + 1)).out s⟩

instance at_parseCallExprTail [RecAt src r] {callee : Node} : At src 1 (parseCallExprTail r callee) 0 := by
  unfold parseCallExprTail; at

instance at_parseCallHead [RecAt src r] : At src 1 (parseCallHead r) 1 := by
  unfold parseCallHead; at

instance at_parseCallExpr [RecAt src r] : At src 0 (parseCallExpr r) 0 := by
  unfold parseCallExpr; at

instance at_parseLeftHandSideExpr [RecAt src r] : At src 0 (parseLeftHandSideExpr r) 0 := by
  unfold parseLeftHandSideExpr
  refine ⟨fun s hs => good_cur (good_ite (fun hc => ?_) fun _ => at_parseCallExpr.out s hs)⟩
  obtain ⟨c, h1, _, h2⟩ := hs.plain
  exact absurd (h1.isKw hc) h2

instance at_parsePrefixUpdate [RecAt src r] : At src 0 (parsePrefixUpdate r) 1 := by
  unfold parsePrefixUpdate; at

instance at_parsePostfix [RecAt src r] : At src 0 (parsePostfix r) 1 := by
  unfold parsePostfix
  at1; at1; at1
  refine ⟨fun s hs => good_get (good_ite (fun hc => ?_) fun _ => ?_)⟩
  · obtain ⟨c, h1, h2, _⟩ := hs.plain
    exact absurd ⟨Why.isUpdateOp_word h1 hc.2, hc.1⟩ h2
  exact (at_pure (Nat.le_refl _)).out s hs

instance at_parseUpdateExpr [RecAt src r] : At src 0 (parseUpdateExpr r) 1 := by
  unfold parseUpdateExpr; at

instance at_parseUnaryOp [RecAt src r] : At src 0 (parseUnaryOp r) 1 := by
  unfold parseUnaryOp; at

instance at_parseUnaryExpr [RecAt src r] : At src 0 (parseUnaryExpr r) 1 := by
  unfold parseUnaryExpr; at

instance at_parsePow [RecAt src r] : At src 0 (parsePow r) 1 := by
  unfold parsePow; at

instance at_parseExponentiationExpr [RecAt src r] : At src 0 (parseExponentiationExpr r) 1 := by
  unfold parseExponentiationExpr; at

instance at_climbInnerF [h : RecAt src r] {opPrec : Nat} {n : Nat} {z : Node} : At src 0 (climbInnerF r opPrec n z) 0 := by
  induction n generalizing z with
  | zero => exact at_fail (fun e => by cases e)
  | succ n ih =>
    unfold climbInnerF
    refine ⟨fun s hs => good_get (good_ite (fun hc => ?_) fun _ => (at_pure (Nat.le_refl _)).out s hs)⟩
    exact Good.bind (h.climb z _ s hs hc.1 (Nat.le_refl _)) fun x s' _ hs' => ih.out s' hs'


instance at_climbInnerF' [RecAt src r] {o : Nat} {e : Node} : At src 0 (fun s => climbInnerF r o (s.size + 1) e s) 0 :=
  ⟨fun s => (at_climbInnerF (n := s.size + 1)).out s⟩

instance at_climbStep [RecAt src r] {lhs : Node} : At src 0 (climbStep r lhs) 1 := by
  unfold climbStep; at

instance at_climbF [RecAt src r] {prec : Nat} {n : Nat} {z : Node} : At src 1 (climbF r prec n z) 1 := by
  induction n generalizing z with
  | zero => exact at_fail (fun e => by cases e)
  | succ n ih => unfold climbF; at

instance at_climbF' [RecAt src r] {o : Nat} {e : Node} : At src 1 (fun s => climbF r o (s.size + 1) e s) 1 :=
  ⟨fun s => (at_climbF (n := s.size + 1)).out s⟩

/-- from a binary operator that is taken, one position more is put than is taken off -/
theorem good_climbF [RecAt src r] {prec : Nat} {n : Nat} {z : Node} (hs : Near src s) (h1 : s.current.isBinOp = true)
    (h2 : s.current.precedence s.params.hasIn ≥ prec) : Good src 0 (climbF r prec (n + 1) z) 1 s := by
  unfold climbF
  exact good_get (good_ite (fun _ => Good.bind (at_climbStep.out s hs) fun x s' _ hs' => at_climbF.out s' hs') fun hn => absurd ⟨h1, h2⟩ hn)

instance at_precedenceClimbing [RecAt src r] {prec : Nat} {z : Node} : At src 1 (precedenceClimbing r z prec) 0 := by
  unfold precedenceClimbing; at

theorem good_precedenceClimbing [RecAt src r] {prec : Nat} {z : Node} (hs : Near src s) (h1 : s.current.isBinOp = true)
    (h2 : s.current.precedence s.params.hasIn ≥ prec) : Good src 0 (precedenceClimbing r z prec) 0 s := by
  unfold precedenceClimbing
  refine Good.bind (a := 1) (good_climbF hs h1 h2) fun x s' _ hs' => ?_
  exact (by at : At src 1 (do let _ ← endSpan; Pure.pure x) 0).out s' hs'

instance at_parseBinaryExpr [RecAt src r] : At src 0 (parseBinaryExpr r) 1 := by
  unfold parseBinaryExpr; at

instance at_parseConditionalExpr [RecAt src r] : At src 0 (parseConditionalExpr r) 1 := by
  unfold parseConditionalExpr; at

instance at_parseSingleParamArrow [RecAt src r] {name : Str} : At src 1 (parseSingleParamArrow r name) 0 := by
  unfold parseSingleParamArrow; at

instance at_parseYieldExpr [RecAt src r] : At src 0 (parseYieldExpr r) 0 := by
  unfold parseYieldExpr; at

instance at_arrowIfIdentifier [RecAt src r] {lhs : Node} : At src 1 (arrowIfIdentifier r lhs) 0 := by
  unfold arrowIfIdentifier; at

instance at_parseAssignTail [RecAt src r] {lhs : Node} : At src 1 (parseAssignTail r lhs) 0 := by
  unfold parseAssignTail; at

instance at_parseOpAssignTail [RecAt src r] {lhs : Node} : At src 1 (parseOpAssignTail r lhs) 0 := by
  unfold parseOpAssignTail; at

instance at_parseAssignmentExpr [RecAt src r] : At src 0 (parseAssignmentExpr r) 0 := by
  unfold parseAssignmentExpr; at

instance at_parseBlockStmt [RecAt src r] : At src 0 (parseBlockStmt r) 0 := by
  unfold parseBlockStmt; at

instance at_parseVariableDclr [RecAt src r] : At src 0 (parseVariableDclr r) 0 := by
  unfold parseVariableDclr; at

instance at_commaDclr [RecAt src r] : At src 0 (commaDclr r) 0 := by
  unfold commaDclr; at

instance at_parseVarList [RecAt src r] : At src 0 (parseVarList r) 0 := by
  unfold parseVarList; at

instance at_parseVariableStmt [RecAt src r] : At src 0 (parseVariableStmt r) 0 := by
  unfold parseVariableStmt; at

instance at_parseLexicalDclr [RecAt src r] : At src 0 (parseLexicalDclr r) 0 := by
  unfold parseLexicalDclr; at

instance at_parseEmptyStmt : At src 0 (parseEmptyStmt) 0 := by
  unfold parseEmptyStmt; at

instance at_parseExpressionStmt {expression : Node} : At src 1 (parseExpressionStmt expression) 0 := by
  unfold parseExpressionStmt; at

instance at_parseElse [RecAt src r] : At src 0 (parseElse r) 0 := by
  unfold parseElse; at

instance at_parseIfStmt [RecAt src r] : At src 0 (parseIfStmt r) 0 := by
  unfold parseIfStmt; at

instance at_parseLoopBody [RecAt src r] : At src 0 (parseLoopBody r) 0 := by
  unfold parseLoopBody; at

instance at_optExpr [RecAt src r] {close : Punctuator} : At src 0 (optExpr r close) 0 := by
  unfold optExpr; at

instance at_parseForClassic [RecAt src r] {init : Option Node} : At src 1 (parseForClassic r init) 0 := by
  unfold parseForClassic; at

instance at_parseForIn [RecAt src r] {left : Node} : At src 1 (parseForIn r left) 0 := by
  unfold parseForIn; at

instance at_parseForOf [RecAt src r] {left : Node} : At src 1 (parseForOf r left) 0 := by
  unfold parseForOf; at

instance at_forCommaDclr [RecAt src r] : At src 0 (forCommaDclr r) 0 := by
  unfold forCommaDclr; at

instance at_parseForDclrs [RecAt src r] {kind : Str} {d : VariableDeclarator} : At src 2 (parseForDclrs r kind d) 0 := by
  unfold parseForDclrs; at

instance at_parseForInit [RecAt src r] {kind : Str} {id : Binding} : At src 2 (parseForInit r kind id) 0 := by
  unfold parseForInit; at

instance at_parseForVar [RecAt src r] : At src 1 (parseForVar r) 0 := by
  unfold parseForVar; at

instance at_parseForKind : At src 0 (parseForKind) 0 := by
  unfold parseForKind; at

instance at_parseForLexical [RecAt src r] : At src 1 (parseForLexical r) 0 := by
  unfold parseForLexical; at

instance at_parseForTarget {expr : Node} : At src 1 (parseForTarget expr) 0 := by
  unfold parseForTarget; at

instance at_forCommaExpr [RecAt src r] : At src 0 (forCommaExpr r) 0 := by
  unfold forCommaExpr; at

instance at_parseForExpr [RecAt src r] : At src 1 (parseForExpr r) 0 := by
  unfold parseForExpr; at

instance at_parseForStmt [RecAt src r] : At src 0 (parseForStmt r) 0 := by
  unfold parseForStmt; at

instance at_parseWhileStmt [RecAt src r] : At src 0 (parseWhileStmt r) 0 := by
  unfold parseWhileStmt; at

instance at_parseDoWhileStmt [RecAt src r] : At src 0 (parseDoWhileStmt r) 0 := by
  unfold parseDoWhileStmt; at

instance at_parseIterationStmt [RecAt src r] : At src 0 (parseIterationStmt r) 0 := by
  unfold parseIterationStmt; at

instance at_consequentF [RecAt src r] {n : Nat} : At src 0 (consequentF r n) 0 := by
  induction n with
  | zero => exact at_fail (fun e => by cases e)
  | succ n ih => unfold consequentF; at

instance at_consequentF' [RecAt src r] : At src 0 (fun s => consequentF r (s.size + 1) s) 0 :=
  ⟨fun s => (at_consequentF (n := s.size + 1)).out s⟩

instance at_parseConsequent [RecAt src r] : At src 0 (parseConsequent r) 0 := by
  unfold parseConsequent; at

instance at_parseCaseTest [RecAt src r] {firstDefault : Bool} : At src 0 (parseCaseTest r firstDefault) 0 := by
  unfold parseCaseTest; at

instance at_casesF [RecAt src r] {n : Nat} {z : Bool} : At src 0 (casesF r n z) 0 := by
  induction n generalizing z with
  | zero => exact at_fail (fun e => by cases e)
  | succ n ih => unfold casesF; at

instance at_casesF' [RecAt src r] {b : Bool} : At src 0 (fun s => casesF r (s.size + 1) b s) 0 :=
  ⟨fun s => (at_casesF (n := s.size + 1)).out s⟩

instance at_parseSwitchInner [RecAt src r] : At src 0 (parseSwitchInner r) 0 := by
  unfold parseSwitchInner; at

instance at_parseSwitchStmt [RecAt src r] : At src 0 (parseSwitchStmt r) 0 := by
  unfold parseSwitchStmt; at

instance at_parseLabelOpt : At src 0 (parseLabelOpt) 0 := by
  unfold parseLabelOpt; at

instance at_parseContinueStmt : At src 0 (parseContinueStmt) 0 := by
  unfold parseContinueStmt; at

instance at_parseBreakStmt : At src 0 (parseBreakStmt) 0 := by
  unfold parseBreakStmt; at

instance at_parseReturnArg [RecAt src r] : At src 0 (parseReturnArg r) 0 := by
  unfold parseReturnArg; at

instance at_parseReturnStmt [RecAt src r] : At src 0 (parseReturnStmt r) 0 := by
  unfold parseReturnStmt; at

instance at_parseReturn [RecAt src r] : At src 0 (parseReturn r) 0 := by
  unfold parseReturn; at

instance at_parseWithStmt [RecAt src r] : At src 0 (parseWithStmt r) 0 := by
  unfold parseWithStmt; at

instance at_parseThrowStmt [RecAt src r] : At src 0 (parseThrowStmt r) 0 := by
  unfold parseThrowStmt; at

instance at_parseCatchParam [RecAt src r] : At src 0 (parseCatchParam r) 0 := by
  unfold parseCatchParam; at

instance at_parseCatchClause [RecAt src r] : At src 0 (parseCatchClause r) 0 := by
  unfold parseCatchClause; at

instance at_parseFinallyClause [RecAt src r] : At src 0 (parseFinallyClause r) 0 := by
  unfold parseFinallyClause; at

instance at_parseTryStmt [RecAt src r] : At src 0 (parseTryStmt r) 0 := by
  unfold parseTryStmt; at

instance at_parseDebuggerStmt : At src 0 (parseDebuggerStmt) 0 := by
  unfold parseDebuggerStmt; at

instance at_parseGeneratorMark {allowGenerator : Bool} : At src 0 (parseGeneratorMark allowGenerator) 0 := by
  unfold parseGeneratorMark; at

instance at_parseFunctionName : At src 0 (parseFunctionName) 0 := by
  unfold parseFunctionName; at

instance at_parseFunctionDclrRest [RecAt src r] {g : Bool} : At src 0 (parseFunctionDclrRest r false g) 0 := by
  unfold parseFunctionDclrRest; at
instance at_parseFunctionDclrRest' [RecAt src r] {g : Bool} : At src 1 (parseFunctionDclrRest r true g) 0 := by
  unfold parseFunctionDclrRest; at

instance at_parseFunctionDclr [RecAt src r] {g : Bool} : At src 0 (parseFunctionDclr r false g) 0 := by
  unfold parseFunctionDclr; at
instance at_parseFunctionDclr' [RecAt src r] {g : Bool} : At src 1 (parseFunctionDclr r true g) 0 := by
  unfold parseFunctionDclr; at

instance at_parseHoistableDclr [RecAt src r] : At src 0 (parseHoistableDclr r) 0 := by
  unfold parseHoistableDclr; at

instance at_parseDeclaration [RecAt src r] : At src 0 (parseDeclaration r) 0 := by
  unfold parseDeclaration; at

instance at_parseLabelBody [RecAt src r] : At src 0 (parseLabelBody r) 0 := by
  unfold parseLabelBody; at

instance at_parseLabelledStmt [RecAt src r] {label : Identifier} : At src 1 (parseLabelledStmt r label) 0 := by
  unfold parseLabelledStmt; at

instance at_parseExpressionOrLabelled [RecAt src r] : At src 0 (parseExpressionOrLabelled r) 0 := by
  unfold parseExpressionOrLabelled; at

theorem at_parseAsyncItem [RecAt src r] : AtLook src 0 (parseAsyncItem r) 0 := by
  unfold parseAsyncItem
  intro s past w h hl
  refine Good.bind (at_startSpan.out s ⟨past, w, h⟩) fun _ s1 hm _ => ?_
  cases hm
  have h1 : Why.Here ⟨src, true⟩ { s with markerStack := ⟨s.current.lineNum, s.current.col, s.current.start⟩ :: s.markerStack } past w := by
    obtain ⟨⟨text, k1, k2⟩, _⟩ := h
    exact ⟨⟨text, k1.of_eq rfl rfl rfl, k2⟩, fun _ => .inl rfl⟩
  refine good_cur (Good.bind (good_peek h1 hl) fun t s2 _ h2 => ?_)
  exact (by at : At src 1 _ 0).out s2 h2

instance at_parseStmtListItem [RecAt src r] : At src 0 (parseStmtListItem r) 0 := by
  unfold parseStmtListItem
  refine ⟨fun s hs => ?_⟩
  obtain ⟨past, w, hw⟩ := hs
  have hs : Near src s := ⟨past, w, hw⟩
  refine good_cur ?_
  iterate 13
    refine good_ite (fun _ => at_last (Nat.le_refl _) (Nat.le_refl _) |>.out s hs) fun _ => ?_
  exact good_ite (fun hc => at_parseAsyncItem s past w hw ⟨_, by simp, hw.cur.isId hc⟩) fun _ => (by at : At src 0 _ 0).out s hs

instance at_parseStatement [RecAt src r] : At src 0 (parseStatement r) 0 := by
  unfold parseStatement; at

instance at_parseImportLocal : At src 0 (parseImportLocal) 0 := by
  unfold parseImportLocal; at

instance at_parseModuleSpecifier : At src 0 (parseModuleSpecifier) 0 := by
  unfold parseModuleSpecifier; at

instance at_parseImportFrom {specifiers : List ImportDeclarationSpecifier} : At src 1 (parseImportFrom specifiers) 0 := by
  unfold parseImportFrom; at

instance at_parseNamespaceImport : At src 0 (parseNamespaceImport) 0 := by
  unfold parseNamespaceImport; at

instance at_importSpec : At src 0 (importSpec) 0 := by
  unfold importSpec; at

instance at_parseNamedImports : At src 0 (parseNamedImports) 0 := by
  unfold parseNamedImports; at

instance at_parseImportDefault : At src 1 (parseImportDefault) 0 := by
  unfold parseImportDefault; at

instance at_parseImportDclr : At src 0 (parseImportDclr) 0 := by
  unfold parseImportDclr; at

instance at_exportSpec : At src 0 (exportSpec) 0 := by
  unfold exportSpec; at

instance at_parseNamedExports : At src 0 (parseNamedExports) 0 := by
  unfold parseNamedExports; at

instance at_parseExportDefault [RecAt src r] : At src 1 (parseExportDefault r) 0 := by
  unfold parseExportDefault; at

instance at_parseExportNamed : At src 1 (parseExportNamed) 0 := by
  unfold parseExportNamed; at

instance at_parseExportAll : At src 1 (parseExportAll) 0 := by
  unfold parseExportAll; at

instance at_parseExportDclr [RecAt src r] : At src 0 (parseExportDclr r) 0 := by
  unfold parseExportDclr; at

instance at_parseModuleItem [RecAt src r] : At src 0 (parseModuleItem r) 0 := by
  unfold parseModuleItem; at

instance at_parseScriptBody [RecAt src r] : At src 0 (parseScriptBody r) 0 := by
  unfold parseScriptBody; at

instance at_parseModuleBody [RecAt src r] : At src 0 (parseModuleBody r) 0 := by
  unfold parseModuleBody; at

/-- all levels of the recursion -/
instance recAt_run {n : Nat} : RecAt src (run n) := by
  induction n with
  | zero =>
    have h : ∀ {α : Type} {i j : Nat}, At src i (M.fail .fuel : PM α) j := at_fail (fun e => by cases e)
    exact ⟨h, h, h, h, h, fun _ _ => h, fun _ _ s hs _ _ => h.out s hs, h, h⟩
  | succ n ih =>
    exact ⟨at_parseAssignmentExpr, at_parseStmtListItem, at_parseStatement, at_parseUnaryExpr, at_parseExponentiationExpr,
      fun _ _ => at_precedenceClimbing, fun _ _ _ hs h1 h2 => good_precedenceClimbing hs h1 h2, at_parseBindingIdOrPat,
      at_parseLeftHandSideExpr⟩

end

end Marks
end Giron

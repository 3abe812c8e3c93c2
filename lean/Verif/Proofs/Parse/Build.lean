import Verif.Proofs.Parse.Does
/-
Building well-formed trees, and the tactics that walk through a method.
-/
namespace Giron
open M Spec
namespace Spec

/-- The part changes no context. -/
def Item.plain (it : Item) : Bool := !it.startsStrict && !it.isFnBody && !it.isLoopBody && !it.isSwitch

theorem enter_plain {c : Ctx} {it : Item} (h : it.plain = true) : enter c it = c := by
  simp only [Item.plain, Bool.and_eq_true, Bool.not_eq_true'] at h
  obtain ⟨⟨⟨h1, h2⟩, h3⟩, h4⟩ := h
  simp [enter, h1, h2, h3, h4]

variable {L : Nat} {c : Ctx} {it : Item}

theorem WF.plain (h : Local L c it) (hk : AllWF L c (children it)) (hp : it.plain = true := by rfl) : WF L c it :=
  WF.mk (by rw [enter_plain hp]; exact h) (by rw [enter_plain hp]; exact hk)

theorem WF.loc (h : WF L c it) : Local L (enter c it) it := by cases h; assumption
theorem WF.kids (h : WF L c it) : AllWF L (enter c it) (children it) := by cases h; assumption
theorem WF.loc' (h : WF L c it) (hp : it.plain = true) : Local L c it := by
  have := h.loc; rwa [enter_plain hp] at this
theorem WF.kids' (h : WF L c it) (hp : it.plain = true) : AllWF L c (children it) := by
  have := h.kids; rwa [enter_plain hp] at this

@[simp] theorem AllWF_nil : AllWF L c [] ↔ True := by simp [AllWF]
@[simp] theorem AllWF_cons {k : Item} {l : List Item} : AllWF L c (k :: l) ↔ WF L c k ∧ AllWF L c l := by
  simp [AllWF]
@[simp] theorem AllWF_append {l l' : List Item} : AllWF L c (l ++ l') ↔ AllWF L c l ∧ AllWF L c l' := by
  simp [AllWF, or_imp, forall_and]
theorem AllWF_map {α : Type} {f : α → Item} {l : List α} : AllWF L c (l.map f) ↔ ∀ x ∈ l, WF L c (f x) := by
  simp [AllWF]
@[simp] theorem AllWF_optNode_none {r : Role} : AllWF L c (optNode r none) ↔ True := by simp [optNode]
@[simp] theorem AllWF_optNode_some {r : Role} {n : Node} : AllWF L c (optNode r (some n)) ↔ WF L c (.node r n) := by
  simp [optNode]
theorem AllWF_optNode {r : Role} {o : Option Node} : AllWF L c (optNode r o) ↔ ∀ n, o = some n → WF L c (.node r n) := by
  cases o <;> simp
@[simp] theorem AllWF_exprs {l : List Node} : AllWF L c (exprs l) ↔ ∀ n ∈ l, WF L c (.node .expr n) := by
  simp [exprs, AllWF_map]
@[simp] theorem AllWF_reduceOption {α : Type} {f : α → Item} {l : List (Option α)} :
    AllWF L c (l.reduceOption.map f) ↔ ∀ x, some x ∈ l → WF L c (f x) := by
  simp [AllWF_map, List.reduceOption]
@[simp] theorem AllWF_arrPats {m : Mode} {l : List (Option ArrayPatternElement)} :
    AllWF L c (arrPats m l) ↔ ∀ x, some x ∈ l → WF L c (.arrPat m x) := AllWF_reduceOption
@[simp] theorem AllWF_patProps {m : Mode} {l : List ObjectPatternProperty} :
    AllWF L c (patProps m l) ↔ ∀ x ∈ l, WF L c (.patProp m x) := AllWF_map
@[simp] theorem AllWF_fnParts {r r' : Role} {m : Mode} {id : Option Node} {ps : List FunctionParameter} {b : Node} :
    AllWF L c (fnParts r m id ps r' b) ↔
      (∀ n, id = some n → WF L c (.node r n)) ∧ (∀ p ∈ ps, WF L c (.param m p)) ∧ WF L c (.node r' b) := by
  simp [fnParts, AllWF_map, AllWF_optNode]
@[simp] theorem AllWF_classParts {id sup : Option Node} {ms : List MethodDefinition} :
    AllWF L c (classParts id sup ms) ↔
      (∀ n, id = some n → WF L c (.node .bindId n)) ∧ (∀ n, sup = some n → WF L c (.node .expr n)) ∧
        ∀ m ∈ ms, WF L c (.method m) := by
  simp [classParts, AllWF_map, AllWF_optNode]

/-- A literal node. -/
def isLit : Node → Bool
  | .literal .. => true
  | _ => false

/-- an expression that is no simple assignment target -/
theorem ExprOk.of {n : Node} (h1 : n.assignTargetType ≠ .simple) (h2 : isIdent n = false)
    (h3 : ∀ sp, n.exprSpan? = some sp → SpanOk L sp) : ExprOk L c n :=
  ⟨fun h => absurd h h1, h3, by rintro _ _ _ rfl; simp [isIdent] at h2⟩

/-- an expression in slot `expr` -/
theorem WF.expr {n : Node} (h1 : isExpr n = true) (h2 : NodeOk c n) (h3 : ExprOk L c n)
    (hk : AllWF L c (nodeParts .expr n)) (hp : (Item.node .expr n).plain = true := by rfl) :
    WF L c (.node .expr n) :=
  WF.plain ⟨h1, h2, fun _ _ => h3, fun _ => h3.name⟩ hk hp

/-- what a well-formed expression gives -/
theorem WF.exprIs {n : Node} (h : WF L c (.node .expr n)) : isExpr n = true := h.loc.1

/-- `d` allows at least what `c` allows. -/
structure Ctx.Le (d c : Ctx) : Prop where
  strict : d.strict = true → c.strict = true
  ret : c.ret = true → d.ret = true
  iter : c.iter = true → d.iter = true
  sw : c.sw = true → d.sw = true

theorem Ctx.Le.refl : Ctx.Le c c := ⟨id, id, id, id⟩

theorem Ctx.Le.enter {c d : Ctx} (h : d.Le c) (it : Item) : (enter d it).Le (enter c it) := by
  constructor <;> simp only [Spec.enter, Bool.or_eq_true] <;> rintro (h' | h')
  all_goals first
    | exact Or.inr h'
    | exact Or.inl (h.1 h') | exact Or.inl (h.2 h') | exact Or.inl (h.3 h') | exact Or.inl (h.4 h')

theorem SimpleTarget.mono {b b' : Bool} {n : Node} (h : SimpleTarget b n) (hb : b' = true → b = true) :
    SimpleTarget b' n := by
  induction h with
  | ident h => exact .ident (fun h' => h (hb h'))
  | computed => exact .computed
  | static => exact .static
  | paren _ ih => exact .paren ih

theorem Fits.mono {b b' : Bool} {r : Role} {n : Node} (h : Fits b r n) (hb : b' = true → b = true) :
    Fits b' r n := by
  cases r <;> simp only [Fits] at h ⊢ <;> try exact h
  · exact h.imp_left (·.mono hb)
  · exact h.imp_left (·.mono hb)
  · exact h.imp_left (·.mono hb)

theorem NameIn.mono {b b' : Bool} {v : Str} (h : NameIn b v) (hb : b' = true → b = true) : NameIn b' v :=
  ⟨h.1, fun h' => h.2 (hb h')⟩

theorem BindIn.mono {b b' : Bool} {v : Binding} (h : BindIn b v) (hb : b' = true → b = true) : BindIn b' v :=
  fun _ _ h' => (h _ _ h').mono hb

theorem BindIn.of {b : Bool} {v : Binding} (h : isName v = false) : BindIn b v := by
  rintro _ _ rfl; simp [isName] at h

theorem BindIn.id {b : Bool} {name : Str} {sp : Span} (h : NameIn b name) : BindIn b (.bindingIdentifier name sp) := by
  rintro _ _ ⟨⟩; exact h

theorem NodeOk.mono {c d : Ctx} (h : d.Le c) {n : Node} (hn : NodeOk c n) : NodeOk d n := by
  cases n with
  | assignmentExpression => exact ⟨hn.1, fun h' => (hn.2 h').mono h.1⟩
  | updateExpression => exact ⟨hn.1, hn.2.mono h.1⟩
  | bindingIdentifier => exact NameIn.mono hn h.1
  | labeledStatement => exact NameIn.mono hn h.1
  | breakStatement => exact fun h' => (hn h').imp h.3 h.4
  | continueStatement => exact fun h' => h.3 (hn h')
  | returnStatement => exact h.2 hn
  | withStatement =>
    have := h.1
    simp only [NodeOk] at *
    cases hd : d.strict <;> simp_all
  | _ => exact hn

theorem ExprOk.mono {c d : Ctx} (h : d.Le c) {n : Node} (hn : ExprOk L c n) : ExprOk L d n :=
  ⟨fun h' => (hn.att h').mono h.1, hn.span, fun _ _ _ h' => (hn.name _ _ _ h').mono h.1⟩

theorem Local.mono {c d : Ctx} (h : d.Le c) {it : Item} (hl : Local L c it) : Local L d it := by
  cases it with
  | node r n => exact ⟨hl.1.mono h.1, hl.2.1.mono h, fun h1 h2 => (hl.2.2.1 h1 h2).mono h,
      fun h1 _ _ _ h2 => (hl.2.2.2 h1 _ _ _ h2).mono h.1⟩
  | fn f => cases f; exact hl
  | method f => cases f; exact hl
  | declarator f => cases f; exact ⟨hl.1, hl.2.mono h.1⟩
  | catchClause f => cases f; exact fun b hb => ⟨(hl b hb).1, (hl b hb).2.mono h.1⟩
  | arrPat m e =>
    cases e <;> first | exact ⟨hl.1, hl.2.mono h.1⟩ | exact NameIn.mono hl h.1 | exact hl
  | param m e =>
    cases e <;> first | exact ⟨hl.1, hl.2.mono h.1⟩ | exact NameIn.mono hl h.1 | exact hl
  | patVal m e =>
    cases e with
    | bindingIdentifier => exact ⟨hl.1, hl.2.mono h.1⟩
    | bindingPattern b => cases b <;> exact hl
    | _ => exact hl
  | patProp m e =>
    cases e with
    | property => exact hl
    | restElement => exact ⟨fun h' => ⟨(hl.1 h').1, (hl.1 h').2.mono h.1⟩, hl.2⟩
  | _ => exact hl

theorem WF.mono {c d : Ctx} {it : Item} (hw : WF L c it) (h : d.Le c) : WF L d it := by
  induction hw generalizing d with
  | mk hl _ ih => exact .mk (hl.mono (h.enter _)) (fun k hk => ih k hk (h.enter _))

/-- A literal is well formed anywhere if it is anywhere. -/
theorem WF.lit {c d : Ctx} {n : Node} (h : isLit n = true) (hw : WF L c (.node .expr n)) : WF L d (.node .expr n) := by
  cases n <;> simp [isLit] at h
  have h1 := hw.loc' rfl
  refine WF.expr rfl h1.2.1 ⟨fun h' => ?_, (h1.2.2.1 rfl rfl).span, by rintro _ _ _ ⟨⟩⟩ (by simp [nodeParts])
  cases (h1.2.2.1 rfl rfl).att h'

end Spec

namespace Parser
variable {L : Nat} {x : Ctx} {t : Token}

theorem Head.of {n : Node} (h : isLit n = false) : Head t n := by
  rintro _ _ _ _ rfl; simp [isLit] at h

theorem GoodE.mk' {n : Node} {lv : Nat} {sp : Span} (h2 : NodeOk x n)
    (hsp : SpanOk L sp) (hk : AllWF L x (nodeParts .expr n))
    (hlv : lv ≤ Spec.level n := by first | rfl | (simp [level]; done))
    (h1 : isExpr n = true := by rfl) (h3 : n.assignTargetType ≠ .simple := by nofun)
    (h4 : n.exprSpan? = some sp := by rfl)
    (h5 : isIdent n = false := by rfl) (h6 : isLit n = false := by rfl)
    (hp : (Item.node .expr n).plain = true := by rfl) : GoodE lv L x t n :=
  ⟨WF.expr h1 h2 (ExprOk.of h3 h5 (by rintro _ h; rw [h4] at h; cases h; exact hsp)) hk hp, hlv, Head.of h6⟩

theorem GoodE.lower {n : Node} {lv lv' : Nat} (h : GoodE lv L x t n) (hl : lv' ≤ lv) : GoodE lv' L x t n :=
  ⟨h.wf, Nat.le_trans hl h.level, h.head⟩

theorem SHead.of {n : Node} (h : directive? n = none := by rfl) : SHead t n := by
  intro v hv; rw [h] at hv; cases hv

theorem GoodS.mk' {n : Node} {r : Role} (h1 : Fits x.strict r n) (h2 : NodeOk x n)
    (hk : AllWF L x (nodeParts r n)) (h3 : r.isExprLike = false := by rfl) (h4 : isIdent n = false := by rfl)
    (h6 : directive? n = none := by rfl)
    (hp : (Item.node r n).plain = true := by rfl) : GoodS r L x t n :=
  ⟨WF.plain ⟨h1, h2, by simp [h3], by rintro - _ _ _ rfl; simp [isIdent] at h4⟩ hk hp, SHead.of h6⟩

end Parser

/-! ### Walking through a method -/

namespace Parser
set_option hygiene false

/-- read the current token -/
macro "w_cur" : tactic => `(tactic| refine cur_bind hs ?_)
/-- push a marker -/
macro "w_start" : tactic => `(tactic| (refine startSpan_bind hs ?_; intro s hs))
/-- pop a marker -/
macro "w_end" n:ident h:ident : tactic => `(tactic| (refine endSpan_bind hs ?_; intro $n:ident s $h:ident hs))
/-- read the top marker -/
macro "w_peek" n:ident h:ident : tactic => `(tactic| (refine peekSpan_bind hs ?_; intro $n:ident $h:ident))
/-- an error -/
macro "w_err" : tactic => `(tactic| first
  | exact unexpectedCurrent_sat hs
  | exact errorCurrent_sat hs
  | exact error_sat hs.tok
  | exact unexpected_sat hs.tok
  | exact Sat.panic trivial)
/-- a condition; error branches are closed -/
macro "w_if" h:ident : tactic => `(tactic| (refine Sat.ite (fun $h:ident => ?_) (fun $h:ident => ?_) <;> try w_err))
/-- the token is not the end of input -/
macro "w_tok" : tactic => `(tactic| first
  | trivial
  | assumption
  | exact not_eof_of_isP (by assumption)
  | exact not_eof_of_isKw (by assumption)
  | exact not_eof_of_isId (by assumption)
  | exact not_eof_of_isIdOrKw (by assumption)
  | (simp_all; done))
/-- a call -/
macro "w_call" n:ident h:ident t:ident : tactic => `(tactic| (
  first
    | refine Does.call_adv hE hS hs (by w_tok) ?_
    | refine Does.call_advE hE1 hS hs (by w_tok) ?_
    | refine Does.call_advS hE1 hS1 hs (by w_tok) ?_
    | refine Does.call_keep hE hS hs (by w_tok) ?_
  intro $n:ident s $t:ident hs $h:ident
  have := hs.tok
  try simp only [Cx.x_setIn, Cx.x_setDefault, Cx.x_setYield, Cx.x_setAwait, Cx.x_setYA, Cx.x_setReturn] at $h:ident))
/-- a tail call -/
macro "w_tail" n:ident h:ident t:ident : tactic => `(tactic| (
  first
    | refine Does.tail_adv hE hS hs (by w_tok) ?_
    | refine Does.tail_advE hE1 hS hs (by w_tok) ?_
    | refine Does.tail_advS hE1 hS1 hs (by w_tok) ?_
    | refine Does.tail_keep hE hS hs (by w_tok) ?_
  intro $n:ident s $t:ident hs $h:ident
  have := hs.tok
  try simp only [Cx.x_setIn, Cx.x_setDefault, Cx.x_setYield, Cx.x_setAwait, Cx.x_setYA, Cx.x_setReturn] at $h:ident
  refine ⟨_, hs, ?_⟩))
/-- read the state -/
macro "w_get" : tactic => `(tactic| (refine get_bind hs ?_; intro s0 e1 e2 e3; try simp only [e1, e2, e3]))
/-- return -/
macro "w_ret" : tactic => `(tactic| refine ⟨_, hs, ?_⟩)

end Parser
end Giron

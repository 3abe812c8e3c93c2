import Verif.Proofs.Layout.Peek
/-
Texts made of the same words: utility methods, names, patterns.
-/
namespace Giron
open M Spec

namespace Layout
open Parser
variable [Env] {α β γ : Type} [Er α] [Er β] [Er γ] {ι : Type} {r : Rec} {r' : ι → Rec}

/-! ### binding, by the type of the value -/

omit [Env] in
theorem rel_id [hi : IdEr α] {a : α} {b : ι → α} (h : Rel a b) : b = fun _ => a :=
  funext fun i => by rw [← hi.out (b i), ← h.out i, hi.out a]

omit [Env] in
theorem rel_pair {a : α × β} {b : ι → α × β} (h : Rel a b) :
    Rel a.1 (fun i => (b i).1) ∧ Rel a.2 (fun i => (b i).2) :=
  ⟨⟨fun i => congrArg Prod.fst (h.out i)⟩, ⟨fun i => congrArg Prod.snd (h.out i)⟩⟩

theorem sim_bindId [IdEr α] {m : PM α} {m' : ι → PM α} {k : α → PM β} {k' : ι → α → PM β} (h : Sim m m')
    (hk : ∀ a, Sim (k a) (fun i => k' i a)) : Sim (m >>= k) (fun i => m' i >>= k' i) :=
  sim_bind h fun a b hr => by rw [rel_id hr]; exact hk a

theorem sim_bindTok {m : PM Token} {m' : ι → PM Token} {k : Token → PM β} {k' : ι → Token → PM β} (h : Sim m m')
    (hk : ∀ a (p : ι → Place), Sim (k a) (fun i => k' i (a.at (p i)))) : Sim (m >>= k) (fun i => m' i >>= k' i) :=
  sim_bind h fun a b hr => by obtain ⟨p, rfl⟩ := rel_tok hr; exact hk a p

theorem sim_bindPair {m : PM (α × γ)} {m' : ι → PM (α × γ)} {k : α × γ → PM β} {k' : ι → α × γ → PM β} (h : Sim m m')
    (hk : ∀ a c (a' : ι → α) (c' : ι → γ), Rel a a' → Rel c c' → Sim (k (a, c)) (fun i => k' i (a' i, c' i))) :
    Sim (m >>= k) (fun i => m' i >>= k' i) :=
  sim_bind h fun a b hr => hk a.1 a.2 (fun i => (b i).1) (fun i => (b i).2) (rel_pair hr).1 (rel_pair hr).2

theorem sim_bindPairId [IdEr γ] {m : PM (α × γ)} {m' : ι → PM (α × γ)} {k : α × γ → PM β} {k' : ι → α × γ → PM β} (h : Sim m m')
    (hk : ∀ a c (a' : ι → α), Rel a a' → Sim (k (a, c)) (fun i => k' i (a' i, c))) :
    Sim (m >>= k) (fun i => m' i >>= k' i) :=
  sim_bindPair h fun a c a' c' h1 h2 => by rw [rel_id h2]; exact hk a c a' h1

theorem sim_bindIdPair [IdEr α] {m : PM (α × γ)} {m' : ι → PM (α × γ)} {k : α × γ → PM β} {k' : ι → α × γ → PM β} (h : Sim m m')
    (hk : ∀ a c (c' : ι → γ), Rel c c' → Sim (k (a, c)) (fun i => k' i (a, c' i))) :
    Sim (m >>= k) (fun i => m' i >>= k' i) :=
  sim_bindPair h fun a c a' c' h1 h2 => by rw [rel_id h1]; exact hk a c c' h2

omit [Env] in
instance rel_span {s : Span} {s' : ι → Span} : Rel s s' := ⟨fun _ => rfl⟩

omit [Env] in
instance rel_refl {a : α} : Rel (ι := ι) a (fun _ => a) := ⟨fun _ => rfl⟩

omit [Env] in
instance rel_some {a : α} {b : ι → α} [h : Rel a b] : Rel (some a) (fun i => some (b i)) := ⟨fun i => congrArg some (h.out i)⟩

theorem at_tokentype (t : Token) (p : Place) : (t.at p).tokentype = t.tokentype := rfl
theorem at_value (t : Token) (p : Place) : (t.at p).value = t.value := rfl
theorem at_matchesPunc (t : Token) (p : Place) (c) : (t.at p).matchesPunc c = t.matchesPunc c := rfl
theorem at_matchesStr (t : Token) (p : Place) (c) : (t.at p).matchesStr c = t.matchesStr c := rfl
theorem at_isP (t : Token) (p : Place) (c) : (t.at p).isP c = t.isP c := rfl
theorem at_isKw (t : Token) (p : Place) (c) : (t.at p).isKw c = t.isKw c := rfl
theorem at_isId (t : Token) (p : Place) (c) : (t.at p).isId c = t.isId c := rfl

omit [Env] in
theorem asNode_bare (k : PropertyKey) : bareNode k.asNode = (barePropertyKey k).asNode := (keyAsNode_er k).symm

omit [Env] in
theorem isUseStrictLiteral_bare (n : Node) : isUseStrictLiteral (bareNode n) = isUseStrictLiteral n := by cases n <;> rfl

/-- values without positions, computed -/
macro "ersimp" : tactic => `(tactic| simp [er, bareNode, bareBinding, bareArrayExpressionElement, bareArrayPatternElement,
  bareArrayAssignmentPatternElement, barePropertyKey, bareFnExpr, barePropertyValue, bareObjectPatternProperty,
  bareBindingPattern, bareFunctionParameter, bareArgumentListElement, bareObjectExpressionProperty, bareMethodDefinition,
  bareSwitchCase, bareVariableDeclarator, bareCatchClause, bareIdentifier, bareLiteral, bareExportSpecifier,
  bareImportSpecifier, bareVoE, bareSpan, asNode_bare, at_tokentype, at_value, at_matchesPunc, at_matchesStr, at_isP, at_isKw, at_isId, bareOptArrayExpressionElement_eq, bareHolesArrayExpressionElement_eq, bareOptArrayPatternElement_eq, bareHolesArrayPatternElement_eq, bareOptArrayAssignmentPatternElement_eq, bareHolesArrayAssignmentPatternElement_eq, bareOptNode_eq, bareListFunctionParameter_eq, bareListArgumentListElement_eq, bareListMethodDefinition_eq, bareListObjectExpressionProperty_eq, bareListObjectPatternProperty_eq, bareListNode_eq, bareListSwitchCase_eq, bareOptCatchClause_eq, bareListVariableDeclarator_eq, bareOptPropertyValue_eq, bareOptFnExpr_eq, bareOptBinding_eq, *])

/-- take a related value -/
macro "relfact" h:term : tactic => `(tactic| (have e := fun i => (Rel.out (self := $h) i).symm; try simp only [er, Prod.mk.injEq] at e))

/-- one step -/
macro "lsim1" : tactic => `(tactic| first
  | exact inferInstance
  | ((with_reducible refine sim_ite ?_ (fun _ => ?_) (fun _ => ?_)); exact fun _ => Iff.rfl)
  | (with_reducible refine sim_curBind (fun _ _ => ?_))
  | (with_reducible refine sim_get (fun _ _ _ _ => ?_))
  | ((with_reducible refine sim_pure ?_); first | exact fun _ => rfl | focus (intro i; ersimp; done) | focus (intro i; simp only [bareIdentifier, bareLiteral, Identifier.mk.injEq, Literal.mk.injEq] at *; ersimp; done))
  | ((with_reducible refine sim_unwrap ?_); exact fun _ => rfl)
  | (refine sim_bindId inferInstance (fun _ => ?_))
  | (refine sim_bindTok inferInstance (fun _ _ => ?_))
  | (refine sim_bindPairId inferInstance (fun _ _ _ h => ?_); relfact h; try dsimp only)
  | (refine sim_bindIdPair inferInstance (fun _ _ _ h => ?_); relfact h; try dsimp only)
  | (refine sim_bindPair inferInstance (fun _ _ _ _ h h' => ?_); relfact h; relfact h'; try dsimp only)
  | (refine sim_bind inferInstance (fun _ _ h => ?_); relfact h)
  | (with_reducible exact sim_modify (fun _ => ⟨rfl, rfl⟩) (fun _ _ s _ h => by cases h with | mk h hm => exact .mk (s := ⟨_, _, _, _, _, _, _⟩) h hm))
  | ((with_reducible refine sim_when ?_ ?_); exact fun _ => Iff.rfl)
  | (with_reducible refine sim_bindId ?_ (fun _ => ?_))
  | (with_reducible refine sim_bindTok ?_ (fun _ _ => ?_))
  | focus ((with_reducible refine sim_bindPairId ?_ (fun _ _ _ h => ?_)); rotate_left; relfact h; (try dsimp only); rotate_right)
  | focus ((with_reducible refine sim_bind ?_ (fun _ _ h => ?_)); rotate_left; relfact h; rotate_right))

/-- all of them -/
macro "lsim" : tactic => `(tactic| repeat lsim1)

/-- the recursive entry points are related -/
class RecSim (r : Rec) (r' : ι → Rec) : Prop where
  assignmentExpr : Sim r.assignmentExpr (fun i => (r' i).assignmentExpr)
  stmtListItem : Sim r.stmtListItem (fun i => (r' i).stmtListItem)
  statement : Sim r.statement (fun i => (r' i).statement)
  unaryExpr : Sim r.unaryExpr (fun i => (r' i).unaryExpr)
  exponentiationExpr : Sim r.exponentiationExpr (fun i => (r' i).exponentiationExpr)
  newExpr : Sim r.newExpr (fun i => (r' i).newExpr)
  precedenceClimbing : ∀ n n' k, Rel n n' → Sim (r.precedenceClimbing n k) (fun i => (r' i).precedenceClimbing (n' i) k)
  bindingIdOrPat : Sim r.bindingIdOrPat (fun i => (r' i).bindingIdOrPat)
  leftHandSideExpr : Sim r.leftHandSideExpr (fun i => (r' i).leftHandSideExpr)

instance sim_rAssign [h : RecSim r r'] : Sim r.assignmentExpr (fun i => (r' i).assignmentExpr) := h.assignmentExpr
instance sim_rItem [h : RecSim r r'] : Sim r.stmtListItem (fun i => (r' i).stmtListItem) := h.stmtListItem
instance sim_rStatement [h : RecSim r r'] : Sim r.statement (fun i => (r' i).statement) := h.statement
instance sim_rUnary [h : RecSim r r'] : Sim r.unaryExpr (fun i => (r' i).unaryExpr) := h.unaryExpr
instance sim_rExp [h : RecSim r r'] : Sim r.exponentiationExpr (fun i => (r' i).exponentiationExpr) := h.exponentiationExpr
instance sim_rNew [h : RecSim r r'] : Sim r.newExpr (fun i => (r' i).newExpr) := h.newExpr
instance sim_rBinding [h : RecSim r r'] : Sim r.bindingIdOrPat (fun i => (r' i).bindingIdOrPat) := h.bindingIdOrPat
instance sim_rLhs [h : RecSim r r'] : Sim r.leftHandSideExpr (fun i => (r' i).leftHandSideExpr) := h.leftHandSideExpr

instance sim_consume {p g} : Sim (ι := ι) (consume p g) (fun _ => consume p g) := by unfold consume; lsim
instance sim_consumeKw {p g} : Sim (ι := ι) (consumeKw p g) (fun _ => consumeKw p g) := by unfold consumeKw; lsim
instance sim_consumeId {p g} : Sim (ι := ι) (consumeId p g) (fun _ => consumeId p g) := by unfold consumeId; lsim
instance sim_consumeSemicolon {g} : Sim (ι := ι) (consumeSemicolon g) (fun _ => consumeSemicolon g) := by
  unfold consumeSemicolon; lsim

variable {m : PM α} {m' : ι → PM α}

instance sim_withParams {f : Params → Params} [Sim m m'] : Sim (withParams f m) (fun i => withParams f (m' i)) := by
  unfold withParams; lsim
instance sim_withIn {b} [Sim m m'] : Sim (withIn b m) (fun i => withIn b (m' i)) := by unfold withIn; lsim
instance sim_withDefault {b} [Sim m m'] : Sim (withDefault b m) (fun i => withDefault b (m' i)) := by unfold withDefault; lsim
instance sim_withReturn {b} [Sim m m'] : Sim (withReturn b m) (fun i => withReturn b (m' i)) := by unfold withReturn; lsim
instance sim_withYield {b} [Sim m m'] : Sim (withYield b m) (fun i => withYield b (m' i)) := by unfold withYield; lsim
instance sim_withAwait {b} [Sim m m'] : Sim (withAwait b m) (fun i => withAwait b (m' i)) := by unfold withAwait; lsim
instance sim_withYieldAwait {b c} [Sim m m'] : Sim (withYieldAwait b c m) (fun i => withYieldAwait b c (m' i)) := by
  unfold withYieldAwait; lsim

theorem sim_loop {F : Nat → PM α} {F' : ι → Nat → PM α} (h0 : F 0 = M.fail .fuel) (h0' : ∀ i, F' i 0 = M.fail .fuel)
    (hs : ∀ n, (∀ n' : ι → Nat, Sim (F n) (fun i => F' i (n' i))) → ∀ n' : ι → Nat, Sim (F (n + 1)) (fun i => F' i (n' i + 1)))
    (n : Nat) (n' : ι → Nat) : Sim (F n) (fun i => F' i (n' i)) := by
  induction n generalizing n' with
  | zero => rw [h0]; exact inferInstance
  | succ n ih =>
    refine sim_fuel (m'' := fun i => F' i (n' i - 1 + 1)) (hs n ih _) (fun i => ?_)
    rcases Nat.eq_zero_or_pos (n' i) with h | h
    · rw [h]; exact .inr (h0' i)
    · rw [Nat.sub_add_cancel h]; exact .inl rfl

instance sim_whilePunc {p} [Sim m m'] : Sim (whilePunc p m) (fun i => whilePunc p (m' i)) :=
  sim_budget (sim_loop rfl (fun _ => rfl) fun n ih n' => by
    have := ih n'
    unfold whilePuncF; lsim)

instance sim_untilPunc {p} [Sim m m'] : Sim (untilPunc p m) (fun i => untilPunc p (m' i)) :=
  sim_budget (sim_loop rfl (fun _ => rfl) fun n ih n' => by
    have := ih n'
    unfold untilPuncF; lsim)

instance sim_untilPuncOrRest {p} [Sim m m'] : Sim (untilPuncOrRest p m) (fun i => untilPuncOrRest p (m' i)) :=
  sim_budget (sim_loop rfl (fun _ => rfl) fun n ih n' => by
    have := ih n'
    unfold untilPuncOrRestF; lsim)

instance sim_untilEof {m : PM Node} {m' : ι → PM Node} [Sim m m'] : Sim (untilEof m) (fun i => untilEof (m' i)) :=
  sim_budget (sim_loop rfl (fun _ => rfl) fun n ih n' => by
    have := ih n'
    unfold untilEofF; lsim)

instance sim_strictReservedCheck : Sim (ι := ι) strictReservedCheck (fun _ => strictReservedCheck) := by
  unfold strictReservedCheck; lsim

instance sim_advanceStr {g} : Sim (ι := ι) (advanceStr g) (fun _ => advanceStr g) := by unfold advanceStr; lsim

instance sim_parseIdName {g} : Sim (ι := ι) (parseIdName g) (fun _ => parseIdName g) := by unfold parseIdName; lsim

instance sim_parseIdReference : Sim (ι := ι) parseIdReference (fun _ => parseIdReference) := by unfold parseIdReference; lsim

instance sim_parseBindingId : Sim (ι := ι) parseBindingId (fun _ => parseBindingId) := by unfold parseBindingId; lsim

end Layout
end Giron

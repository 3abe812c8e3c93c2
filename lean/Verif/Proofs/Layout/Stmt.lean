import Verif.Proofs.Layout.Expr
/-
Texts made of the same words: statements.
-/
namespace Giron
open M Spec

namespace Layout
open Parser
variable [Env] {α β γ : Type} [Er α] [Er β] [Er γ] {ι : Type} {r : Rec} {r' : ι → Rec} {C : Token → Prop}

omit [Env] in
/-- a bound name -/
theorem rel_bindingId {name : Str} {sp : Span} {b : ι → Binding} (h : Rel (Binding.bindingIdentifier name sp) b) :
    ∃ sp' : ι → Span, b = fun i => .bindingIdentifier name (sp' i) := by
  have key : ∀ i, ∃ s, b i = .bindingIdentifier name s := fun i => by
    have := h.out i
    cases hb : b i <;> rw [hb] at this <;> first
      | (cases this; done)
      | (simp [er, bareBinding] at this; obtain ⟨rfl, _⟩ := this; exact ⟨_, rfl⟩)
      | (simp [er, bareBinding] at this; subst this; exact ⟨_, rfl⟩)
  exact ⟨fun i => Classical.choose (key i), funext fun i => Classical.choose_spec (key i)⟩

instance sim_toNode {b : Binding} {b' : ι → Binding} [h : Rel b b'] :
    Sim (M.ofExcept b.toNode) (fun i => M.ofExcept (b' i).toNode) :=
  sim_ofExcept (fun e he => by cases b <;> cases he) fun i => by rw [← toNode_er, ← toNode_er, show bareBinding b = bareBinding (b' i) from h.out i]

instance sim_toId {b : Binding} {b' : ι → Binding} [h : Rel b b'] :
    Sim (M.ofExcept b.toId) (fun i => M.ofExcept (b' i).toId) :=
  sim_ofExcept (fun e he => by cases b <;> cases he) fun i => by rw [← toId_er, ← toId_er, show bareBinding b = bareBinding (b' i) from h.out i]

omit [Env] in
instance rel_cons {a : α} {a' : ι → α} [h : Rel a a'] {l : List α} {l' : ι → List α} [h' : Rel l l'] :
    Rel (a :: l) (fun i => a' i :: l' i) :=
  ⟨fun i => by show er a :: er l = er (a' i) :: er (l' i); rw [h.out i, h'.out i]⟩

omit [Env] in
instance rel_varDecl {l : List VariableDeclarator} {l' : ι → List VariableDeclarator} [h : Rel l l'] {k sp} {sp' : ι → Span} :
    Rel (Node.variableDeclaration l k sp) (fun i => .variableDeclaration (l' i) k (sp' i)) :=
  ⟨fun i => by relfact h; ersimp⟩

omit [Env] in
instance rel_seq {l : List Node} {l' : ι → List Node} [h : Rel l l'] {k sp} {sp' : ι → Span} :
    Rel (Node.sequenceExpression l k sp) (fun i => .sequenceExpression (l' i) k (sp' i)) :=
  ⟨fun i => by relfact h; ersimp⟩

omit [Env] in
instance rel_dclr {b : Binding} {b' : ι → Binding} [h : Rel b b'] {n : Option Node} {n' : ι → Option Node} [h' : Rel n n'] :
    Rel (VariableDeclarator.mk b n) (fun i => .mk (b' i) (n' i)) :=
  ⟨fun i => by relfact h; relfact h'; ersimp⟩

omit [Env] in
instance rel_bid {name : Str} {sp : Span} {sp' : ι → Span} :
    Rel (Binding.bindingIdentifier name sp) (fun i => .bindingIdentifier name (sp' i)) := ⟨fun i => by ersimp⟩

omit [Env] in
instance rel_ident {name : Str} {sp : Span} {sp' : ι → Span} :
    Rel (Identifier.mk name sp) (fun i => .mk name (sp' i)) := ⟨fun i => by ersimp⟩

omit [Env] in
theorem rel_pairFst {a : α × β} {b : ι → α × β} [h : Rel a b] : Rel a.1 (fun i => (b i).1) := (rel_pair h).1
omit [Env] in
theorem rel_pairSnd {a : α × β} {b : ι → α × β} [h : Rel a b] : Rel a.2 (fun i => (b i).2) := (rel_pair h).2

/-! ### statements -/

instance sim_parseBlockStmt [RecSim r r'] : Sim (ι := ι) (parseBlockStmt r) (fun i => parseBlockStmt (r' i)) := by
  unfold parseBlockStmt; lsim

instance sim_parseVariableDclr [RecSim r r'] : Sim (ι := ι) (parseVariableDclr r) (fun i => parseVariableDclr (r' i)) := by
  unfold parseVariableDclr
  refine sim_bind inferInstance fun id id' h => ?_
  relfact h
  lsim1; lsim1
  · lsim
  · cases id with
    | bindingIdentifier name sp =>
      obtain ⟨sp', rfl⟩ := rel_bindingId h
      lsim
    | _ =>
      refine sim_eq (m'' := fun _ => errorCurrent .missingInitializer) (m := errorCurrent .missingInitializer) inferInstance fun i => ?_
      have := h.out i
      cases hv : id' i <;> rw [hv] at this <;> first | (cases this; done) | rfl

instance sim_commaDclr [RecSim r r'] : Sim (ι := ι) (commaDclr r) (fun i => commaDclr (r' i)) := by
  unfold commaDclr; lsim

instance sim_parseVarList [RecSim r r'] : Sim (ι := ι) (parseVarList r) (fun i => parseVarList (r' i)) := by
  unfold parseVarList; lsim

instance sim_parseVariableStmt [RecSim r r'] : Sim (ι := ι) (parseVariableStmt r) (fun i => parseVariableStmt (r' i)) := by
  unfold parseVariableStmt; lsim

instance sim_parseLexicalDclr [RecSim r r'] : Sim (ι := ι) (parseLexicalDclr r) (fun i => parseLexicalDclr (r' i)) := by
  unfold parseLexicalDclr; lsim

instance sim_parseEmptyStmt : Sim (ι := ι) (parseEmptyStmt ) (fun _ => parseEmptyStmt) := by
  unfold parseEmptyStmt; lsim

instance sim_parseExpressionStmt {n : Node} {n' : ι → Node} [h : Rel n n'] : Sim (parseExpressionStmt n) (fun i => parseExpressionStmt (n' i)) := by
  relfact h
  unfold parseExpressionStmt; lsim

instance sim_parseElse [RecSim r r'] : Sim (ι := ι) (parseElse r) (fun i => parseElse (r' i)) := by
  unfold parseElse; lsim

instance sim_parseIfStmt [RecSim r r'] : Sim (ι := ι) (parseIfStmt r) (fun i => parseIfStmt (r' i)) := by
  unfold parseIfStmt; lsim

instance sim_parseLoopBody [RecSim r r'] : Sim (ι := ι) (parseLoopBody r) (fun i => parseLoopBody (r' i)) := by
  unfold parseLoopBody; lsim

instance sim_optExpr [RecSim r r'] {p} : Sim (ι := ι) (optExpr r p) (fun i => optExpr (r' i) p) := by
  unfold optExpr; lsim

instance sim_parseForClassic [RecSim r r'] {n : Option Node} {n' : ι → Option Node} [h : Rel n n'] : Sim (parseForClassic r n) (fun i => parseForClassic (r' i) (n' i)) := by
  relfact h
  unfold parseForClassic; lsim

instance sim_parseForIn [RecSim r r'] {left : Node} {left' : ι → Node} [h : Rel left left'] : Sim (parseForIn r left) (fun i => parseForIn (r' i) (left' i)) := by
  relfact h
  unfold parseForIn; lsim

instance sim_parseForOf [RecSim r r'] {left : Node} {left' : ι → Node} [h : Rel left left'] : Sim (parseForOf r left) (fun i => parseForOf (r' i) (left' i)) := by
  relfact h
  unfold parseForOf; lsim

instance sim_forCommaDclr [RecSim r r'] : Sim (ι := ι) (forCommaDclr r) (fun i => forCommaDclr (r' i)) := by
  unfold forCommaDclr; lsim

instance sim_parseForDclrs [RecSim r r'] {k} {x : VariableDeclarator} {x' : ι → VariableDeclarator} [Rel x x'] :
    Sim (parseForDclrs r k x) (fun i => parseForDclrs (r' i) k (x' i)) := by
  unfold parseForDclrs; lsim

instance sim_parseForInit [RecSim r r'] {k} {b : Binding} {b' : ι → Binding} [Rel b b'] :
    Sim (parseForInit r k b) (fun i => parseForInit (r' i) k (b' i)) := by
  unfold parseForInit; lsim

instance sim_parseForVar [RecSim r r'] : Sim (ι := ι) (parseForVar r) (fun i => parseForVar (r' i)) := by
  unfold parseForVar
  lsim1; lsim1
  refine sim_bind inferInstance fun id id' h => ?_
  lsim1; lsim1
  · lsim
  lsim1
  · lsim
  lsim1
  · lsim
  cases id with
  | bindingIdentifier name sp =>
    obtain ⟨sp', rfl⟩ := rel_bindingId h
    dsimp only
    lsim
  | _ =>
      refine sim_eq (m'' := fun _ => errorCurrent .missingInitializer) (m := errorCurrent _) inferInstance fun i => ?_
      have := h.out i
      cases hv : id' i <;> rw [hv] at this <;> first | (cases this; done) | rfl

instance sim_parseForKind : Sim (ι := ι) (parseForKind ) (fun _ => parseForKind) := by
  unfold parseForKind; lsim

instance sim_parseForLexical [RecSim r r'] : Sim (ι := ι) (parseForLexical r) (fun i => parseForLexical (r' i)) := by
  unfold parseForLexical
  lsim1; lsim1; lsim1; lsim1
  refine sim_bind inferInstance fun id id' h => ?_
  lsim1; lsim1
  · lsim
  lsim1
  · lsim
  lsim1
  · lsim
  cases id with
  | bindingIdentifier name sp =>
    obtain ⟨sp', rfl⟩ := rel_bindingId h
    dsimp only
    lsim
  | _ =>
      refine sim_failed (fun _ h => by cases h; infer_instance) fun i => ?_
      have := h.out i
      cases hv : id' i <;> rw [hv] at this <;> first | (cases this; done) | exact ⟨_, rfl, rfl⟩

theorem forTarget_er (n : Node) : forTarget (bareNode n) = erEx (forTarget n) := by
  have := toAssignmentPattern_er n
  cases n <;> first | rfl | exact this

theorem forTarget_plain {n : Node} {e : Error} (h : forTarget n = .error (.err e)) : Pos.Plain e.errortype := by
  have := @Pos.toAssignmentPattern_plain _ n e
  cases n <;> first | exact this h | cases h

instance sim_parseForTarget {n : Node} {n' : ι → Node} [h : Rel n n'] : Sim (parseForTarget n) (fun i => parseForTarget (n' i)) := by
  unfold parseForTarget
  lsim1
  refine sim_bind (sim_ofExcept (fun _ => forTarget_plain) fun i => ?_) (fun e e' h => ?_)
  · rw [← forTarget_er, ← forTarget_er, show bareNode n = bareNode (n' i) from h.out i]
  · simp only [att_rel h]
    relfact h
    lsim

instance sim_forCommaExpr [RecSim r r'] : Sim (ι := ι) (forCommaExpr r) (fun i => forCommaExpr (r' i)) := by
  unfold forCommaExpr; lsim

instance sim_parseForExpr [RecSim r r'] : Sim (ι := ι) (parseForExpr r) (fun i => parseForExpr (r' i)) := by
  unfold parseForExpr; lsim

instance sim_parseForStmt [RecSim r r'] : Sim (ι := ι) (parseForStmt r) (fun i => parseForStmt (r' i)) := by
  unfold parseForStmt; lsim

instance sim_parseWhileStmt [RecSim r r'] : Sim (ι := ι) (parseWhileStmt r) (fun i => parseWhileStmt (r' i)) := by
  unfold parseWhileStmt; lsim

instance sim_parseDoWhileStmt [RecSim r r'] : Sim (ι := ι) (parseDoWhileStmt r) (fun i => parseDoWhileStmt (r' i)) := by
  unfold parseDoWhileStmt; lsim

instance sim_parseIterationStmt [RecSim r r'] : Sim (ι := ι) (parseIterationStmt r) (fun i => parseIterationStmt (r' i)) := by
  unfold parseIterationStmt; lsim

instance sim_parseConsequent [RecSim r r'] : Sim (ι := ι) (parseConsequent r) (fun i => parseConsequent (r' i)) :=
  sim_budget (sim_loop (F := consequentF r) (F' := fun i => consequentF (r' i)) rfl (fun _ => rfl) fun n ih n' => by
    have := ih n'
    unfold consequentF; lsim)

instance sim_parseCaseTest [RecSim r r'] {b} : Sim (ι := ι) (parseCaseTest r b) (fun i => parseCaseTest (r' i) b) := by
  unfold parseCaseTest; lsim

theorem sim_casesF [RecSim r r'] (n : Nat) (n' : ι → Nat) (b : Bool) :
    Sim (casesF r n b) (fun i => casesF (r' i) (n' i) b) := by
  induction n generalizing n' b with
  | zero => exact sim_fuelled
  | succ n ih =>
    refine sim_fuel (m'' := fun i => casesF (r' i) (n' i - 1 + 1) b) ?_ (fun i => ?_)
    · have := fun b => ih (fun i => n' i - 1) b
      unfold casesF
      lsim
    · rcases Nat.eq_zero_or_pos (n' i) with h | h
      · rw [h]; exact .inr rfl
      · rw [Nat.sub_add_cancel h]; exact .inl rfl

instance sim_cases [RecSim r r'] {b : Bool} :
    Sim (ι := ι) (fun s => casesF r (s.size + 1) b s) (fun i s => casesF (r' i) (s.size + 1) b s) :=
  sim_budget (F := fun n => casesF r n b) (F' := fun i n => casesF (r' i) n b) (fun n n' => sim_casesF n n' b)

instance sim_parseSwitchInner [RecSim r r'] : Sim (ι := ι) (parseSwitchInner r) (fun i => parseSwitchInner (r' i)) := by
  unfold parseSwitchInner; lsim

instance sim_parseSwitchStmt [RecSim r r'] : Sim (ι := ι) (parseSwitchStmt r) (fun i => parseSwitchStmt (r' i)) := by
  unfold parseSwitchStmt; lsim

instance sim_parseLabelOpt : Sim (ι := ι) (parseLabelOpt ) (fun _ => parseLabelOpt) := by
  unfold parseLabelOpt; lsim

instance sim_parseContinueStmt : Sim (ι := ι) parseContinueStmt (fun _ => parseContinueStmt) := by
  unfold parseContinueStmt
  lsim1; lsim1
  refine sim_bind inferInstance fun l l' h => ?_
  rcases rel_option h with ⟨rfl, rfl⟩ | ⟨a, a', rfl, rfl, h⟩
  · lsim
  · relfact h
    lsim

instance sim_parseBreakStmt : Sim (ι := ι) parseBreakStmt (fun _ => parseBreakStmt) := by
  unfold parseBreakStmt
  lsim1; lsim1
  refine sim_bind inferInstance fun l l' h => ?_
  rcases rel_option h with ⟨rfl, rfl⟩ | ⟨a, a', rfl, rfl, h⟩
  · lsim
  · relfact h
    lsim

instance sim_parseReturnArg [RecSim r r'] : Sim (ι := ι) (parseReturnArg r) (fun i => parseReturnArg (r' i)) := by
  unfold parseReturnArg; lsim

instance sim_parseReturnStmt [RecSim r r'] : Sim (ι := ι) (parseReturnStmt r) (fun i => parseReturnStmt (r' i)) := by
  unfold parseReturnStmt; lsim

instance sim_parseReturn [RecSim r r'] : Sim (ι := ι) (parseReturn r) (fun i => parseReturn (r' i)) := by
  unfold parseReturn; lsim

instance sim_parseWithStmt [RecSim r r'] : Sim (ι := ι) (parseWithStmt r) (fun i => parseWithStmt (r' i)) := by
  unfold parseWithStmt; lsim

instance sim_parseThrowStmt [RecSim r r'] : Sim (ι := ι) (parseThrowStmt r) (fun i => parseThrowStmt (r' i)) := by
  unfold parseThrowStmt; lsim

instance sim_parseCatchParam [RecSim r r'] : Sim (ι := ι) (parseCatchParam r) (fun i => parseCatchParam (r' i)) := by
  unfold parseCatchParam; lsim

instance sim_parseCatchClause [RecSim r r'] : Sim (ι := ι) (parseCatchClause r) (fun i => parseCatchClause (r' i)) := by
  unfold parseCatchClause; lsim

instance sim_parseFinallyClause [RecSim r r'] : Sim (ι := ι) (parseFinallyClause r) (fun i => parseFinallyClause (r' i)) := by
  unfold parseFinallyClause; lsim

instance sim_parseTryStmt [RecSim r r'] : Sim (ι := ι) (parseTryStmt r) (fun i => parseTryStmt (r' i)) := by
  unfold parseTryStmt; lsim

instance sim_parseDebuggerStmt : Sim (ι := ι) (parseDebuggerStmt ) (fun _ => parseDebuggerStmt) := by
  unfold parseDebuggerStmt; lsim

instance sim_parseGeneratorMark {b} : Sim (ι := ι) (parseGeneratorMark b) (fun _ => parseGeneratorMark b) := by
  unfold parseGeneratorMark; lsim

instance sim_parseFunctionName : Sim (ι := ι) parseFunctionName (fun _ => parseFunctionName) := by
  unfold parseFunctionName
  lsim1; lsim1
  · lsim
  · refine sim_bind inferInstance fun b b' h => ?_
    cases b with
    | bindingIdentifier name sp =>
      obtain ⟨sp', rfl⟩ := rel_bindingId h
      dsimp only
      lsim
    | _ =>
      refine sim_eq (m'' := fun _ => unexpectedCurrent) (m := unexpectedCurrent) inferInstance fun i => ?_
      have := h.out i
      cases hv : b' i <;> rw [hv] at this <;> first | (cases this; done) | rfl

instance sim_parseFunctionDclrRest [RecSim r r'] {a g} : Sim (ι := ι) (parseFunctionDclrRest r a g) (fun i => parseFunctionDclrRest (r' i) a g) := by
  unfold parseFunctionDclrRest; lsim

instance sim_parseFunctionDclr [RecSim r r'] {a} {g} : Sim (ι := ι) (parseFunctionDclr r a g) (fun i => parseFunctionDclr (r' i) a g) := by
  unfold parseFunctionDclr; lsim

instance sim_parseHoistableDclr [RecSim r r'] : Sim (ι := ι) (parseHoistableDclr r) (fun i => parseHoistableDclr (r' i)) := by
  unfold parseHoistableDclr; lsim

instance sim_parseDeclaration [RecSim r r'] : Sim (ι := ι) (parseDeclaration r) (fun i => parseDeclaration (r' i)) := by
  unfold parseDeclaration; lsim

instance sim_parseLabelBody [RecSim r r'] : Sim (ι := ι) (parseLabelBody r) (fun i => parseLabelBody (r' i)) := by
  unfold parseLabelBody; lsim

instance sim_parseLabelledStmt [RecSim r r'] {label : Identifier} {label' : ι → Identifier} [h : Rel label label'] : Sim (parseLabelledStmt r label) (fun i => parseLabelledStmt (r' i) (label' i)) := by
  unfold parseLabelledStmt; lsim
  refine sim_pure fun i => ?_
  have := h.out i
  simp only [er] at this
  simp [er, bareNode, bareSpan, *]

theorem parseExpressionOrLabelled_eq (r : Rec) : parseExpressionOrLabelled r = (do
    startSpan
    let expr ← withIn true (parseExpression r)
    let t ← cur
    if t.isP .colon then
      match idOf expr with
      | some x => parseLabelledStmt r x
      | none => parseExpressionStmt expr
    else parseExpressionStmt expr) := by
  unfold parseExpressionOrLabelled
  refine congrArg (startSpan >>= ·) (funext fun _ => congrArg (withIn true (parseExpression r) >>= ·) (funext fun e => ?_))
  cases e <;> rfl

instance sim_parseExpressionOrLabelled [RecSim r r'] : Sim (ι := ι) (parseExpressionOrLabelled r) (fun i => parseExpressionOrLabelled (r' i)) := by
  simp only [parseExpressionOrLabelled_eq]
  lsim1
  refine sim_bind inferInstance fun e e' h => ?_
  lsim1; lsim1
  · rcases rel_option (idOf_rel (n := e) (n' := e')) with ⟨h1, h2⟩ | ⟨a, a', h1, h2, h3⟩
    · have h2 := fun i => congrFun h2 i
      simp only [h1, h2]
      exact inferInstance
    · have h2 := fun i => congrFun h2 i
      simp only [h1, h2]
      exact inferInstance
  · lsim

theorem parseAsyncItem_eq (r : Rec) : parseAsyncItem r = (startSpan >>= fun _ => functionNext >>= fun b =>
    if b = true then withDefault false (parseHoistableDclr r) else endSpan >>= fun _ => parseExpressionOrLabelled r) := by
  refine congrArg (startSpan >>= ·) (funext fun _ => funext fun s2 => ?_)
  show (peekToken >>= fun next => if next.isKw cs!"function" ∧ s2.current.lineNum = next.lineNum then _ else _) s2 = _
  have e2 : functionNext s2 = (peekToken >>= fun u => pure (decide (u.isKw cs!"function" ∧ s2.current.lineNum = u.lineNum)) : PM Bool) s2 := rfl
  cases hp : peekToken s2 with
  | error f => rw [M.bind_err hp, M.bind_err (e2.trans (M.bind_err hp))]
  | ok x =>
    obtain ⟨u, s3⟩ := x
    rw [M.bind_ok hp, M.bind_ok (e2.trans (M.bind_ok hp))]
    simp only [decide_eq_true_eq]

theorem sim_parseAsyncItem [RecSim r r'] (hC : ∀ t, C t → lookTok t = true) :
    SimAt C (parseAsyncItem r) (fun i => parseAsyncItem (r' i)) := by
  simp only [parseAsyncItem_eq]
  refine simAt_startSpan (simAt_bind (simAt_functionNext hC) fun b b' h => ?_)
  rw [rel_id h]
  lsim

instance sim_parseStmtListItem [RecSim r r'] : Sim (ι := ι) (parseStmtListItem r) (fun i => parseStmtListItem (r' i)) := by
  unfold parseStmtListItem
  refine SimAt.sim (simAt_cur fun t p => ?_)
  iterate 13
    refine simAt_ite (fun _ => Iff.rfl) (fun _ => Sim.at inferInstance) (fun _ => ?_)
  refine simAt_ite (fun _ => Iff.rfl) (fun h => sim_parseAsyncItem ?_) (fun _ => ?_)
  · intro u hu; rw [hu.2]; unfold lookTok; simp [h]
  refine Sim.at ?_
  lsim

instance sim_parseStatement [RecSim r r'] : Sim (ι := ι) (parseStatement r) (fun i => parseStatement (r' i)) := by
  unfold parseStatement; lsim

/-- the recursive entry points are related, whatever the depths -/
instance recSim_run : ∀ (n : Nat) (n' : ι → Nat), RecSim (run n) (fun i => run (n' i)) := by
  intro n
  induction n with
  | zero =>
    intro n'
    exact ⟨sim_fuelled, sim_fuelled, sim_fuelled, sim_fuelled,
      sim_fuelled, sim_fuelled, fun _ _ _ _ => sim_fuelled,
      sim_fuelled, sim_fuelled⟩
  | succ n ih =>
    intro n'
    have := ih (fun i => n' i - 1)
    have key : ∀ {β : Type} (f : Rec → PM β), (f (run 0) = M.fail .fuel) → ∀ i,
        f (run (n' i)) = f (run (n' i - 1 + 1)) ∨ f (run (n' i)) = M.fail .fuel := by
      intro β f h0 i
      rcases Nat.eq_zero_or_pos (n' i) with h | h
      · rw [h]; exact .inr h0
      · rw [Nat.sub_add_cancel h]; exact .inl rfl
    exact ⟨sim_fuel (sim_parseAssignmentExpr (r := run n) (r' := fun i => run (n' i - 1))) (key _ rfl),
      sim_fuel (sim_parseStmtListItem (r := run n) (r' := fun i => run (n' i - 1))) (key _ rfl),
      sim_fuel (sim_parseStatement (r := run n) (r' := fun i => run (n' i - 1))) (key _ rfl),
      sim_fuel (sim_parseUnaryExpr (r := run n) (r' := fun i => run (n' i - 1))) (key _ rfl),
      sim_fuel (sim_parseExponentiationExpr (r := run n) (r' := fun i => run (n' i - 1))) (key _ rfl),
      sim_fuel (sim_parseNewExpr (r := run n) (r' := fun i => run (n' i - 1))) (key _ rfl),
      fun x x' k h => sim_fuel (sim_precedenceClimbing (r := run n) (r' := fun i => run (n' i - 1)) (n := x) (n' := x'))
        (fun i => key (fun r => r.precedenceClimbing (x' i) k) rfl i),
      sim_fuel (sim_parseBindingIdOrPat (r := run n) (r' := fun i => run (n' i - 1))) (key _ rfl),
      sim_fuel (sim_parseLeftHandSideExpr (r := run n) (r' := fun i => run (n' i - 1))) (key _ rfl)⟩

end Layout
end Giron

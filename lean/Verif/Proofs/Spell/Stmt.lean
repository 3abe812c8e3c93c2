import Verif.Proofs.Spell.Expr
/-
The words read by the parser methods for statements and declarations.
-/
namespace Giron
open M Spec Spec.Lang
namespace Parser
variable [Env] {α β : Type} {c : Content} {R : β → List Mark → Content → Prop} {r : Rec}

theorem parseBlockStmt_reads (hr : RecSpells r) : Spells (parseBlockStmt r) Spell.node := by
  intro c
  unfold parseBlockStmt
  exact .quiet fun _ => .consume fun _ c _ _ => .bind (parseStatementList_reads hr c) fun l w c h => .consume fun _ c _ _ => .quiet fun _ =>
    .pure (tk (sq h rfl))

/-! ### Variables -/

theorem parseVariableDclr_reads (hr : RecSpells r) : Spells (parseVariableDclr r) Spell.declarator := by
  intro c
  unfold parseVariableDclr
  refine .bind (hr.bindingIdOrPat c) fun b w c h => .cur fun t ht => .ite (fun ha => ?_) fun _ => ?_
  · have := ht.isP ha
    subst this
    exact .advance fun _ c _ => .bind (hr.assignmentExpr c) fun e w' c h' => .pure (sq h (tk (last (A := Spell.node e) h')))
  · cases b with
    | bindingIdentifier name sp => exact .pure (sq h (nil rfl))
    | _ => exact .fails

/-- more variables, each after a comma -/
def moreDclrs : List VariableDeclarator → Lang
  | [] => eps
  | d :: more => pun .comma ⬝ Spell.declarator d ⬝ moreDclrs more

theorem declarators_more {d : VariableDeclarator} {more : List VariableDeclarator} {w ws : List Mark} (h : Spell.declarator d w)
    (hm : moreDclrs more ws) : Spell.declarators (d :: more) (w ++ ws) := by
  induction more generalizing d w ws with
  | nil => cases hm; exact sq h ⟨[], [], rfl, rfl, rfl⟩
  | cons m more ih =>
    obtain ⟨a, b, rfl, rfl, a', b', rfl, h1, h2⟩ := hm
    exact sq h (sq rfl (ih h1 h2))

theorem moreDclrs_reads {f : PM VariableDeclarator} (hf : Spells f fun n ws => (pun .comma ⬝ Spell.declarator n) ws) :
    Spells (whilePunc .comma f) moreDclrs :=
  whilePunc_reads rfl ((hf _).mono fun n w _ h xs ws hxs => by
    obtain ⟨a, b, rfl, rfl, h1⟩ := h
    exact tk (sq h1 hxs))

theorem parseVarList_reads (hr : RecSpells r) : Spells (parseVarList r) Spell.declarators := by
  intro c
  unfold parseVarList
  refine .bind (parseVariableDclr_reads hr c) fun d w c h => .bind (moreDclrs_reads (fun c => ?_) c) fun ds w' c h' => .pure ?_
  · unfold commaDclr
    exact .consume fun _ c' _ _ => (parseVariableDclr_reads hr c').mono fun n ws _ h => tk h
  · rw [List.append_nil]; exact declarators_more h h'

theorem parseVariableStmt_reads (hr : RecSpells r) : Spells (parseVariableStmt r) Spell.node := by
  intro c
  unfold parseVariableStmt
  exact .quiet fun _ => .consumeKw fun _ c _ _ => .bind (.withIn (parseVarList_reads hr c)) fun ds w c h =>
    .bind (consumeSemicolon_reads c) fun _ w' c h' => .quiet fun _ => .pure (tk (sq h (last h')))

theorem parseLexicalDclr_reads (hr : RecSpells r) : Spells (parseLexicalDclr r) Spell.node := by
  intro c
  unfold parseLexicalDclr
  exact .quiet fun _ => .cur fun t ht => .bind (Q := fun kind w _ => w = [.name kind])
    (.ite (fun _ => .consumeId fun _ _ _ _ => .pure rfl) fun _ => .ite (fun _ => .consumeKw fun _ _ _ _ => .pure rfl) fun _ => .fails)
    fun kind w c hk => .bind (parseVarList_reads hr c) fun ds w' c h =>
    .bind (consumeSemicolon_reads c) fun _ w2 c h' => .quiet fun _ => .pure (sq hk (sq h (last h')))

theorem parseEmptyStmt_reads : Spells parseEmptyStmt Spell.node := by
  intro c
  unfold parseEmptyStmt
  exact .quiet fun _ => .consume fun _ _ _ _ => .quiet fun _ => .pure rfl

theorem parseExpressionStmt_reads {e : Node} {w : List Mark} (hw : notFirst [.punct .lBrace] (Spell.node e) w) (c : Content) :
    Reads c (parseExpressionStmt e) fun n ws _ => Spell.node n (w ++ ws) := by
  unfold parseExpressionStmt
  exact .quiet fun _ => .bind (consumeSemicolon_reads c) fun _ w' c h' => .pure (sq hw (last h'))

/-! ### `if` and loops -/

theorem _root_.Giron.IsTok.notElse {t : Token} {c : Content} (h : IsTok t c) (ht : ¬ t.isKw cs!"else" = true) : c ≠ .name cs!"else" := by
  rintro rfl
  obtain ⟨l, k, st, e, rfl⟩ := h
  exact ht rfl

theorem parseElse_reads (hr : RecSpells r) (c : Content) : Reads c (parseElse r) fun e ws _ =>
    ((if e.isSome then word cs!"else" else mark .noElse) ⬝ Spell.optNode e) ws := by
  unfold parseElse
  refine .cur fun t ht => .ite (fun h => ?_) fun h => .addMark (x := .noElse) (fun _ _ => ht.notElse h) (.pure (tk rfl))
  have := ht.isKw h
  subst this
  exact .advance fun _ c _ => .bind (hr.statement c) fun n w c h => .pure (tk (last (A := Spell.node n) h))

theorem parseIfStmt_reads (hr : RecSpells r) : Spells (parseIfStmt r) Spell.node := by
  intro c
  unfold parseIfStmt
  exact .quiet fun _ => .consumeKw fun _ c _ _ => .consume fun _ c _ _ => .bind (.withIn (parseExpression_reads hr c)) fun e w c h => .consume fun _ c _ _ =>
    .bind (hr.statement c) fun n w' c h' => .bind (parseElse_reads hr c) fun x wx c hx => .quiet fun _ => .pure
    (tk (tk (sq h (tk (sq h' (last hx))))))

theorem parseLoopBody_reads (hr : RecSpells r) : Spells (parseLoopBody r) Spell.node := by
  intro c
  unfold parseLoopBody
  exact .get fun _ _ => .ctx fun _ => .bind (hr.statement c) fun n w c h => .ctx fun _ => .pure (last h)

theorem optExpr_reads (hr : RecSpells r) {close : Punctuator} : Spells (optExpr r close) Spell.optNode := by
  intro c
  unfold optExpr
  exact .cur fun t ht => .ite (fun _ => .pure rfl) fun _ => .bind (.withIn (parseExpression_reads hr c)) fun n w c h => .pure (last (A := Spell.node n) h)

/-- after `for (` -/
def forWords (n : Node) (ws : List Mark) : Prop := Spell.node n (.name cs!"for" :: .punct .lParen :: ws)

theorem parseForClassic_reads (hr : RecSpells r) {init : Option Node} {w : List Mark} (hw : Spell.forInit init w) (c : Content) :
    Reads c (parseForClassic r init) fun n ws _ => forWords n (w ++ ws) := by
  unfold parseForClassic
  exact .consume fun _ c _ _ => .bind (optExpr_reads hr c) fun t wt c ht => .consume fun _ c _ _ => .bind (optExpr_reads hr c) fun u wu c hu =>
    .consume fun _ c _ _ => .bind (parseLoopBody_reads hr c) fun b wb c hb => .quiet fun _ => .pure
    (tk (tk (sq hw (tk (sq ht (tk (sq hu (tk (last (A := Spell.node b) hb)))))))))

/-- `var`, `let`, `const` or nothing -/
abbrev declWord : Lang := opt (one fun c => ∃ v ∈ [cs!"var", cs!"let", cs!"const"], c = .name v)

theorem parseForIn_reads (hr : RecSpells r) {left : Node} {w wd : List Mark} (hd : declWord wd) (hw : Spell.node left w) (c : Content) :
    Reads c (parseForIn r left) fun n ws _ => forWords n (wd ++ (w ++ ws)) := by
  unfold parseForIn
  exact .consumeKw fun _ c _ _ => .bind (.withIn (parseExpression_reads hr c)) fun e we c he => .consume fun _ c _ _ =>
    .bind (parseLoopBody_reads hr c) fun b wb c hb => .quiet fun _ => .pure
    (tk (tk (sq hd (sq hw (tk (sq he (tk (last (A := Spell.node b) hb))))))))

theorem parseForOf_reads (hr : RecSpells r) {left : Node} {w wd : List Mark} (hd : declWord wd) (hw : Spell.node left w) (c : Content) :
    Reads c (parseForOf r left) fun n ws _ => forWords n (wd ++ (w ++ ws)) := by
  unfold parseForOf
  exact .consumeId fun _ c _ _ => .bind (.withIn (hr.assignmentExpr c)) fun e we c he => .consume fun _ c _ _ =>
    .bind (parseLoopBody_reads hr c) fun b wb c hb => .quiet fun _ => .pure
    (tk (tk (sq hd (sq hw (tk (sq he (tk (last (A := Spell.node b) hb))))))))

theorem parseForDclrs_reads (hr : RecSpells r) {kind : Str} {d : VariableDeclarator} {w : List Mark} (hw : Spell.declarator d w) (c : Content) :
    Reads c (parseForDclrs r kind d) fun n ws _ => forWords n (.name kind :: (w ++ ws)) := by
  unfold parseForDclrs
  refine .bind (moreDclrs_reads (fun c => ?_) c) fun ds w' c h' => .quiet fun sp => ?_
  · unfold forCommaDclr
    exact .consume fun _ c' _ _ => (Reads.withIn (parseVariableDclr_reads hr c')).mono fun n ws _ h => tk h
  · have key : Spell.forInit (some (.variableDeclaration (d :: ds) kind sp)) (.name kind :: (w ++ w')) := tk (declarators_more hw h')
    exact (parseForClassic_reads hr key c).mono fun n ws _ hn => same_words (A := forWords n) hn (by simp)

theorem parseForInit_reads (hr : RecSpells r) {kind : Str} {b : Binding} {w : List Mark} (hw : Spell.binding b w) :
    Reads (.punct .assign) (parseForInit r kind b) fun n ws _ => forWords n (.name kind :: (w ++ ws)) := by
  unfold parseForInit
  refine .advance fun _ c _ => .bind (.withIn (hr.assignmentExpr c)) fun e we c he => ?_
  have key : Spell.declarator (.mk b (some e)) (w ++ (.punct .assign :: we)) := sq hw (tk he)
  exact (parseForDclrs_reads hr key c).mono fun n ws _ hn => same_words (A := forWords n) hn (by simp)

theorem parseForVar_reads (hr : RecSpells r) : Reads (.name cs!"var") (parseForVar r) fun n ws _ => forWords n ws := by
  unfold parseForVar
  have hd : declWord [.name cs!"var"] := .inl ⟨_, rfl, _, .head _, rfl⟩
  refine .quiet fun _ => .advance fun _ c _ => .bind (hr.bindingIdOrPat c) fun b w c h => .cur fun t ht => .ite (fun ha => ?_) fun _ =>
    .ite (fun _ => .ofExcept fun l hl => parseForOf_reads hr hd (Spell.toNode_keeps hl h) c) fun _ =>
    .ite (fun _ => .ofExcept fun l hl => parseForIn_reads hr hd (Spell.toNode_keeps hl h) c) fun _ => ?_
  · have := ht.isP ha
    subst this
    exact parseForInit_reads hr h
  · cases b with
    | bindingIdentifier name sp => exact parseForDclrs_reads hr (d := .mk _ none) (w := w) (by rw [← List.append_nil w]; exact sq h (nil rfl)) c
    | _ => exact .fails

theorem parseForLexical_reads (hr : RecSpells r) : Spells (parseForLexical r) forWords := by
  intro c
  unfold parseForLexical
  refine .quiet fun _ => .bind (Q := fun k w c' => w = [] ∧ c' = .name k ∧ (k = cs!"const" ∨ k = cs!"let")) ?_ fun k w c hk => ?_
  · unfold parseForKind
    exact .cur fun t ht => .ite (fun h => .pure ⟨rfl, ht.isKw h, .inl rfl⟩) fun _ => .ite (fun h => .pure ⟨rfl, ht.isId h, .inr rfl⟩) fun _ => .fails
  obtain ⟨rfl, rfl, hk⟩ := hk
  have hd : declWord [.name k] := by
    refine .inl ⟨_, rfl, k, ?_, rfl⟩
    rcases hk with rfl | rfl
    · exact .tail _ (.tail _ (.head _))
    · exact .tail _ (.head _)
  refine .advance fun _ c _ => .cur fun _ _ => .bind (hr.bindingIdOrPat c) fun b w c h => .cur fun t ht => .ite (fun ha => ?_) fun _ =>
    .ite (fun _ => .ofExcept fun l hl => parseForIn_reads hr hd (Spell.toNode_keeps hl h) c) fun _ =>
    .ite (fun _ => .ofExcept fun l hl => parseForOf_reads hr hd (Spell.toNode_keeps hl h) c) fun _ => ?_
  · have := ht.isP ha
    subst this
    exact parseForInit_reads hr h
  · cases b with
    | bindingIdentifier name sp => exact parseForDclrs_reads hr (d := .mk _ none) (w := w) (by rw [← List.append_nil w]; exact sq h (nil rfl)) c
    | _ => exact Reads.fails (m := M.fail _)

theorem forTarget_keeps {e m : Node} (h : forTarget e = .ok m) {w : List Mark} (hw : Spell.node e w) : Spell.node m w := by
  unfold forTarget at h
  split at h
  · exact Spell.toAssignmentPattern_keeps _ m h w hw
  · exact Spell.toAssignmentPattern_keeps _ m h w hw
  · cases h; exact hw

theorem parseForTarget_reads {e : Node} {w : List Mark} (hw : Spell.node e w) (c : Content) : Reads c (parseForTarget e) fun n ws _ =>
    ws = [] ∧ Spell.node n w := by
  unfold parseForTarget
  exact .quiet fun _ => .ofExcept fun m hm => .ite (fun _ => .fails) fun _ => .pure ⟨rfl, forTarget_keeps hm hw⟩

theorem parseForExpr_reads (hr : RecSpells r) : Spells (parseForExpr r) forWords := by
  intro c
  unfold parseForExpr
  refine .quiet fun _ => .cur fun t ht => .ite (fun _ => parseForClassic_reads hr (init := none) (w := []) rfl c) fun _ =>
    .bind (.withIn (hr.assignmentExpr c)) fun e w c h => .cur fun t ht => .ite (fun _ => .bind (parseForTarget_reads h c) fun m w' c hm => ?_) fun _ =>
    .ite (fun _ => .bind (parseForTarget_reads h c) fun m w' c hm => ?_) fun _ => .bind (moreNodes_reads (fun c => ?_) c) fun ds w' c h' => .quiet fun sp => ?_
  · obtain ⟨rfl, hm⟩ := hm
    exact parseForIn_reads hr (wd := []) (.inr rfl) hm c
  · obtain ⟨rfl, hm⟩ := hm
    exact parseForOf_reads hr (wd := []) (.inr rfl) hm c
  · unfold forCommaExpr
    exact .consume fun _ c' _ _ => (Reads.withIn (hr.assignmentExpr c')).mono fun n ws _ h => tk h
  · have key : Spell.forInit (some (.sequenceExpression (e :: ds) .invalid sp)) (w ++ w') := commaNodes_more h h'
    exact (parseForClassic_reads hr key c).mono fun n ws _ hn => by rw [← List.append_assoc]; exact hn

theorem parseForStmt_reads (hr : RecSpells r) : Spells (parseForStmt r) Spell.node := by
  intro c
  unfold parseForStmt
  refine .quiet fun _ => .consumeKw fun _ c _ _ => .consume fun _ c _ _ => .cur fun t ht => .ite (fun h => ?_) fun _ =>
    .ite (fun _ => parseForLexical_reads hr c) fun _ => parseForExpr_reads hr c
  have := ht.isKw h
  subst this
  exact parseForVar_reads hr

theorem parseWhileStmt_reads (hr : RecSpells r) : Spells (parseWhileStmt r) Spell.node := by
  intro c
  unfold parseWhileStmt
  exact .quiet fun _ => .consumeKw fun _ c _ _ => .consume fun _ c _ _ => .bind (.withIn (parseExpression_reads hr c)) fun e w c h => .consume fun _ c _ _ =>
    .bind (parseLoopBody_reads hr c) fun n w' c h' => .quiet fun _ => .pure (tk (tk (sq h (tk (last (A := Spell.node n) h')))))

theorem parseDoWhileStmt_reads (hr : RecSpells r) : Spells (parseDoWhileStmt r) Spell.node := by
  intro c
  unfold parseDoWhileStmt
  exact .quiet fun _ => .consumeKw fun _ c _ _ => .bind (parseLoopBody_reads hr c) fun n w' c h' => .consumeKw fun _ c _ _ => .consume fun _ c _ _ =>
    .bind (.withIn (parseExpression_reads hr c)) fun e w c h => .consume fun _ c _ _ => .bind (consumeSemicolon_reads c) fun _ ws c hs => .quiet fun _ =>
    .pure (tk (sq h' (tk (tk (sq h (tk (last hs)))))))

theorem parseIterationStmt_reads (hr : RecSpells r) : Spells (parseIterationStmt r) Spell.node := by
  intro c
  unfold parseIterationStmt
  exact .cur fun t ht => .ite (fun _ => parseForStmt_reads hr c) fun _ => .ite (fun _ => parseWhileStmt_reads hr c) fun _ =>
    .ite (fun _ => parseDoWhileStmt_reads hr c) fun _ => .fails

/-! ### `switch` -/

theorem consequentF_reads (hr : RecSpells r) (n : Nat) : Spells (consequentF r n) Spell.nodes := by
  induction n with
  | zero => intro c; exact Reads.fails (m := M.fail .fuel)
  | succ n ih =>
    intro c
    unfold consequentF
    exact .cur fun t ht => .ite (fun _ => .pure rfl) fun _ => .bind (hr.stmtListItem c) fun x w c h => .bind (ih c) fun xs ws c hs => .pure (sq h (last hs))

theorem parseCaseTest_reads (hr : RecSpells r) {b : Bool} (c : Content) : Reads c (parseCaseTest r b) fun x ws _ =>
    ((if x.1.isSome then word cs!"case" else word cs!"default") ⬝ Spell.optNode x.1) ws := by
  unfold parseCaseTest
  refine .cur fun t ht => .ite (fun h => ?_) fun _ => .ite (fun h => ?_) fun _ => .ite (fun _ => .fails) fun _ => .fails
  · have := ht.isKw h
    subst this
    exact .advance fun _ c _ => .bind (.withIn (parseExpression_reads hr c)) fun e w c h => .pure (tk (last (A := Spell.node e) h))
  · have := ht.isKw h.1
    subst this
    exact .advance fun _ c _ => .pure (tk rfl)

theorem case_words {t : Option Node} {l : List Node} {w w' : List Mark}
    (h : ((if t.isSome then word cs!"case" else word cs!"default") ⬝ Spell.optNode t) w) (h' : Spell.nodes l w') :
    Spell.switchCase (.mk t l) (w ++ .punct .colon :: w') := by
  obtain ⟨a, b, rfl, h1, h2⟩ := h
  rw [List.append_assoc]
  exact sq h1 (sq h2 (tk h'))

theorem casesF_reads (hr : RecSpells r) (n : Nat) (b : Bool) : Spells (casesF r n b) Spell.cases := by
  induction n generalizing b with
  | zero => intro c; exact Reads.fails (m := M.fail .fuel)
  | succ n ih =>
    intro c
    unfold casesF
    refine .bind (parseCaseTest_reads hr c) fun ⟨t, b'⟩ w c h => .consume fun _ c _ _ => .bind (Q := fun l w _ => Spell.nodes l w)
      (fun s text a s' hs hm => consequentF_reads hr _ c s text a s' hs hm) fun l w' c h' => .cur fun _ _ => .ite (fun _ => .pure ?_) fun _ =>
      .bind (ih b' c) fun more ws c hs => .pure ?_
    · rw [List.append_nil]
      exact eps_last (case_words h h')
    · rw [List.append_nil]
      exact same_words (sq (case_words h h') hs) (by simp)

theorem parseSwitchStmt_reads (hr : RecSpells r) : Spells (parseSwitchStmt r) Spell.node := by
  intro c
  unfold parseSwitchStmt
  refine .quiet fun _ => .consumeKw fun _ c _ _ => .get fun _ _ => .ctx fun _ => .bind (Q := fun x ws _ =>
    (pun .lParen ⬝ Spell.node x.1 ⬝ pun .rParen ⬝ pun .lBrace ⬝ Spell.cases x.2 ⬝ pun .rBrace) ws) ?_ fun ⟨d, cs⟩ w c h => .ctx fun _ => .quiet fun _ =>
    .pure (tk (last (A := pun .lParen ⬝ Spell.node d ⬝ pun .rParen ⬝ pun .lBrace ⬝ Spell.cases cs ⬝ pun .rBrace) h))
  unfold parseSwitchInner
  exact .consume fun _ c _ _ => .bind (.withIn (parseExpression_reads hr c)) fun e w c h => .consume fun _ c _ _ => .consume fun _ c _ _ =>
    .bind (Q := fun l w _ => Spell.cases l w)
      (fun s past n text a s' hs hm => casesF_reads hr _ _ c s past n text a s' hs hm) fun l w' c h' => .consume fun _ c _ _ => .pure (tk (sq h (tk (tk (sq h' rfl)))))

/-! ### Jumps -/

theorem parseLabelOpt_reads : Spells parseLabelOpt fun l => Spell.sameLineIf l.isSome (Spell.optNode l) := by
  intro c
  unfold parseLabelOpt
  refine .getLine (fun s hs hl => ⟨none, .inl rfl, .ite (fun h => absurd (hl.symm.trans h.2) (fun h => nomatch h)) fun _ => .pure rfl⟩) fun s hs hl => ?_
  by_cases hi : s.current.isIdOrKw = true ∧ s.hasLineTerminator = false
  · exact ⟨some .joined, .inr rfl, .ite (fun _ => .bind (parseIdReference_spells c) fun n w c h =>
      .pure (tk (last (A := Spell.node n) h))) fun h => absurd hi h⟩
  · exact ⟨none, .inl rfl, .ite (fun h => absurd h hi) fun _ => .pure rfl⟩

theorem parseContinueStmt_reads : Spells parseContinueStmt Spell.node := by
  intro c
  unfold parseContinueStmt
  exact .quiet fun _ => .consumeKw fun _ c _ _ => .bind (parseLabelOpt_reads c) fun l w c h => .get fun _ _ => .ite (fun _ => .fails) fun _ =>
    .bind (consumeSemicolon_reads c) fun _ ws c hs => .quiet fun _ => .pure (tk (sq h (last hs)))

theorem parseBreakStmt_reads : Spells parseBreakStmt Spell.node := by
  intro c
  unfold parseBreakStmt
  exact .quiet fun _ => .consumeKw fun _ c _ _ => .bind (parseLabelOpt_reads c) fun l w c h => .get fun _ _ => .ite (fun _ => .fails) fun _ =>
    .bind (consumeSemicolon_reads c) fun _ ws c hs => .quiet fun _ => .pure (tk (sq h (last hs)))

theorem parseReturnArg_reads (hr : RecSpells r) : Spells (parseReturnArg r) fun l => Spell.sameLineIf l.isSome (Spell.optNode l) := by
  intro c
  unfold parseReturnArg
  refine .getLine (fun s hs hl => ⟨none, .inl rfl, .ite (fun _ => .pure rfl) fun _ => .ite (fun h => absurd (hl.symm.trans h) (fun h => nomatch h))
    fun _ => .pure rfl⟩) fun s hs hl => ?_
  by_cases hi : s.current.isP .semicolon = true
  · exact ⟨none, .inl rfl, .ite (fun _ => .pure rfl) fun h => absurd hi h⟩
  · exact ⟨some .joined, .inr rfl, .ite (fun h => absurd h hi) fun _ => .ite (fun _ => .bind (.withIn (parseExpression_reads hr c)) fun n w c h =>
      .pure (tk (last (A := Spell.node n) h))) fun h => absurd hl h⟩

theorem parseReturn_reads (hr : RecSpells r) : Spells (parseReturn r) Spell.node := by
  intro c
  unfold parseReturn
  refine .get fun s _ => .ite (fun _ => ?_) fun _ => .fails
  unfold parseReturnStmt
  exact .quiet fun _ => .consumeKw fun _ c _ _ => .bind (parseReturnArg_reads hr c) fun l w c h =>
    .bind (consumeSemicolon_reads c) fun _ ws c hs => .quiet fun _ => .pure (tk (sq h (last hs)))

theorem parseWithStmt_reads (hr : RecSpells r) : Spells (parseWithStmt r) Spell.node := by
  intro c
  unfold parseWithStmt
  exact .get fun s _ => .ite (fun _ => .fails) fun _ => .quiet fun _ => .consumeKw fun _ c _ _ => .consume fun _ c _ _ =>
    .bind (.withIn (parseExpression_reads hr c)) fun e w c h => .consume fun _ c _ _ => .bind (hr.statement c) fun n w' c h' => .quiet fun _ =>
    .pure (tk (tk (sq h (tk (last (A := Spell.node n) h')))))

theorem parseThrowStmt_reads (hr : RecSpells r) : Spells (parseThrowStmt r) Spell.node := by
  intro c
  unfold parseThrowStmt
  exact .quiet fun _ => .consumeKw fun _ c _ _ => .getJoined (fun s _ hl => .ite (fun h => absurd (hl.symm.trans h) (fun h => nomatch h)) fun _ => .fails)
    fun s _ _ => .ite (fun _ => .bind (.withIn (parseExpression_reads hr c)) fun e w c h =>
    .bind (consumeSemicolon_reads c) fun _ ws c hs => .quiet fun _ => .pure (tk (sq (a := .joined :: w) (tk h) (last hs)))) fun _ => .fails

/-! ### `try` -/

theorem parseCatchParam_reads (hr : RecSpells r) : Spells (parseCatchParam r) Spell.catchParam := by
  intro c
  unfold parseCatchParam
  refine .cur fun t ht => .ite (fun h => ?_) fun _ => .pure rfl
  have := ht.isP h
  subst this
  exact .advance fun _ c _ => .bind (hr.bindingIdOrPat c) fun b w c h => .consume fun _ _ _ _ => .pure (tk (sq h rfl))

theorem parseCatchClause_reads (hr : RecSpells r) : Spells (parseCatchClause r) Spell.optHandler := by
  intro c
  unfold parseCatchClause
  refine .cur fun t ht => .ite (fun h => ?_) fun _ => .ite (fun _ => .pure rfl) fun _ => .fails
  have := ht.isKw h
  subst this
  exact .advance fun _ c _ => .bind (parseCatchParam_reads hr c) fun b w c h => .bind (parseBlockStmt_reads hr c) fun n w' c h' =>
    .pure (tk (sq h (last (A := Spell.node n) h')))

theorem parseFinallyClause_reads (hr : RecSpells r) (c : Content) : Reads c (parseFinallyClause r) fun e ws _ =>
    (Lang.pre e.isSome (word cs!"finally") ⬝ Spell.optNode e) ws := by
  unfold parseFinallyClause
  refine .cur fun t ht => .ite (fun h => ?_) fun _ => .pure (nil rfl)
  have := ht.isKw h
  subst this
  exact .advance fun _ c _ => .bind (parseBlockStmt_reads hr c) fun n w c h => .pure (tk (last (A := Spell.node n) h))

theorem parseTryStmt_reads (hr : RecSpells r) : Spells (parseTryStmt r) Spell.node := by
  intro c
  unfold parseTryStmt
  exact .quiet fun _ => .consumeKw fun _ c _ _ => .bind (parseBlockStmt_reads hr c) fun b w c h => .bind (parseCatchClause_reads hr c) fun x wx c hx =>
    .bind (parseFinallyClause_reads hr c) fun y wy c hy => .quiet fun _ => .pure (tk (sq h (sq hx (last hy))))

theorem parseDebuggerStmt_reads : Spells parseDebuggerStmt Spell.node := by
  intro c
  unfold parseDebuggerStmt
  exact .quiet fun _ => .consumeKw fun _ c _ _ => .bind (consumeSemicolon_reads c) fun _ ws c hs => .quiet fun _ => .pure (tk (last hs))

/-! ### Functions -/

theorem parseGeneratorMark_reads {b : Bool} (c : Content) : Reads c (parseGeneratorMark b) fun g w _ => (Lang.pre g (pun .star)) w := by
  unfold parseGeneratorMark
  refine .cur fun t ht => .ite (fun h => .ite (fun _ => .fails) fun _ => ?_) fun _ => .pure rfl
  have := ht.isP h
  subst this
  exact .advance fun _ _ _ => .pure rfl

theorem parseFunctionName_reads : Spells parseFunctionName Spell.optNode := by
  intro c
  unfold parseFunctionName
  refine .get fun s _ => .ite (fun _ => .ite (fun _ => .fails) fun _ => .pure rfl) fun _ => .bind (parseBindingId_reads c) fun b w c h => ?_
  obtain ⟨v, sp, hc, rfl, rfl⟩ := h
  exact .pure rfl

theorem parseFunctionDclrRest_reads (hr : RecSpells r) {async g : Bool} (c : Content) : Reads c (parseFunctionDclrRest r async g) fun n ws _ =>
    ∀ wa, (Lang.pre async (word cs!"async" ⬝ mark .broken)) wa → Spell.node n (wa ++ ws) := by
  unfold parseFunctionDclrRest
  exact .quiet fun _ => .consumeKw fun _ c _ _ => .bind (parseGeneratorMark_reads c) fun g wg c hg => .bind (parseFunctionName_reads c) fun id w c hid =>
    .bind (parseParamsAndBody_reads hr c) fun ⟨ps, b⟩ w' c h => .quiet fun _ => .pure fun wa hwa => sq hwa (tk (sq hg (sq hid
      (last (A := pun .lParen ⬝ Spell.parameters ps ⬝ pun .rParen ⬝ Spell.node b) h.2))))

theorem parseFunctionDclr_reads (hr : RecSpells r) {g : Bool} (c : Content) : Reads c (parseFunctionDclr r false g) fun n ws _ =>
    Spell.node n ws := by
  unfold parseFunctionDclr
  exact .get fun s _ => .ite (fun _ => .fails) fun _ => (parseFunctionDclrRest_reads hr c).mono fun _ _ _ h => h [] rfl

theorem asyncFunctionDclr_reads (hr : RecSpells r) {g : Bool} (c : Content) : Reads c (parseFunctionDclr r true g) fun n ws _ =>
    Spell.node n (.name cs!"async" :: ws) := by
  unfold parseFunctionDclr
  exact .getLine (fun s _ _ => ⟨some .broken, .inr (.inl rfl), .ite (fun _ => .fails) fun _ =>
      (parseFunctionDclrRest_reads hr c).mono fun _ _ _ h => h [.name cs!"async", .broken] (tk rfl)⟩)
    fun s _ hl => ⟨none, .inl rfl, .ite (fun _ => .fails) fun h => absurd ⟨rfl, hl⟩ h⟩

theorem parseHoistableDclr_reads (hr : RecSpells r) : Spells (parseHoistableDclr r) Spell.node := by
  intro c
  unfold parseHoistableDclr
  refine .cur fun t ht => .ite (fun h => .quiet fun _ => ?_) fun _ => .ite (fun _ => parseFunctionDclr_reads hr c) fun _ => .fails
  have := ht.isId h
  subst this
  exact .advance fun _ c _ => asyncFunctionDclr_reads hr c

theorem parseDeclaration_reads (hr : RecSpells r) : Spells (parseDeclaration r) Spell.node := by
  intro c
  unfold parseDeclaration
  exact .cur fun t ht => .ite (fun _ => .withDefault (parseHoistableDclr_reads hr c)) fun _ => .ite (fun _ => .withDefault (parseClassDclr_reads hr c)) fun _ =>
    .ite (fun _ => .withIn (parseLexicalDclr_reads hr c)) fun _ => .fails

/-! ### Statements -/

theorem parseLabelBody_reads (hr : RecSpells r) : Spells (parseLabelBody r) Spell.node := by
  intro c
  unfold parseLabelBody
  exact .get fun s _ => .ite (fun _ => .ite (fun _ => .fails) fun _ => .withDefault (parseFunctionDclr_reads hr c)) fun _ =>
    hr.statement c

theorem parseExpressionOrLabelled_reads (hr : RecSpells r) (c : Content) (hc : c ≠ .punct .lBrace) :
    Reads c (parseExpressionOrLabelled r) fun n ws _ => Spell.node n ws := by
  unfold parseExpressionOrLabelled
  refine .quiet fun _ => .bind (.withIn (Reads.notFirst (bad := [.punct .lBrace]) (by simpa using hc) (parseExpression_reads hr c))) fun e w c h => .cur fun t ht => .ite (fun _ => ?_) fun _ => parseExpressionStmt_reads h c
  cases e with
  | identifier name a sp =>
    cases h.1
    dsimp only
    unfold parseLabelledStmt
    exact .consume fun _ c _ _ => .bind (parseLabelBody_reads hr c) fun b w c h => .quiet fun _ => .pure (tk (tk (last (A := Spell.node b) h)))
  | _ => exact parseExpressionStmt_reads h c

theorem parseAsyncItem_reads (hr : RecSpells r) : Reads (.name cs!"async") (parseAsyncItem r) fun n ws _ => Spell.node n ws := by
  unfold parseAsyncItem
  exact .quiet fun _ => .cur fun t ht => .peek ⟨_, by decide, rfl⟩ fun t' c' _ => .ite (fun _ => Reads.peeked (.withDefault (parseHoistableDclr_reads hr _))) fun _ =>
    Reads.peeked (.quiet fun _ => parseExpressionOrLabelled_reads hr _ (fun h => nomatch h))

theorem parseStmtListItem_reads (hr : RecSpells r) : Spells (parseStmtListItem r) Spell.node := by
  intro c
  unfold parseStmtListItem
  exact .cur fun t ht => .ite (fun _ => parseBlockStmt_reads hr c) fun hb => .ite (fun _ => parseEmptyStmt_reads c) fun _ =>
    .ite (fun _ => parseVariableStmt_reads hr c) fun _ => .ite (fun _ => parseIfStmt_reads hr c) fun _ => .ite (fun _ => parseIterationStmt_reads hr c) fun _ =>
    .ite (fun _ => parseSwitchStmt_reads hr c) fun _ => .ite (fun _ => parseContinueStmt_reads c) fun _ => .ite (fun _ => parseBreakStmt_reads c) fun _ =>
    .ite (fun _ => parseReturn_reads hr c) fun _ => .ite (fun _ => parseWithStmt_reads hr c) fun _ => .ite (fun _ => parseThrowStmt_reads hr c) fun _ =>
    .ite (fun _ => parseTryStmt_reads hr c) fun _ => .ite (fun _ => parseDebuggerStmt_reads c) fun _ => .ite (fun h => by have := ht.isId h; subst this; exact parseAsyncItem_reads hr) fun _ =>
    .ite (fun _ => .withDefault (parseHoistableDclr_reads hr c)) fun _ => .ite (fun _ => .withDefault (parseClassDclr_reads hr c)) fun _ =>
    .ite (fun _ => .withIn (parseLexicalDclr_reads hr c)) fun _ => parseExpressionOrLabelled_reads hr c (ht.notP hb)

theorem parseStatement_reads (hr : RecSpells r) : Spells (parseStatement r) Spell.node := by
  intro c
  unfold parseStatement
  exact .cur fun t ht => .ite (fun _ => parseBlockStmt_reads hr c) fun hb => .ite (fun _ => parseVariableStmt_reads hr c) fun _ =>
    .ite (fun _ => parseEmptyStmt_reads c) fun _ => .ite (fun _ => parseIfStmt_reads hr c) fun _ => .ite (fun _ => parseIterationStmt_reads hr c) fun _ =>
    .ite (fun _ => parseSwitchStmt_reads hr c) fun _ => .ite (fun _ => parseContinueStmt_reads c) fun _ => .ite (fun _ => parseBreakStmt_reads c) fun _ =>
    .ite (fun _ => parseReturn_reads hr c) fun _ => .ite (fun _ => parseWithStmt_reads hr c) fun _ => .ite (fun _ => parseThrowStmt_reads hr c) fun _ =>
    .ite (fun _ => parseTryStmt_reads hr c) fun _ => .ite (fun _ => parseDebuggerStmt_reads c) fun _ => parseExpressionOrLabelled_reads hr c (ht.notP hb)

end Parser
end Giron

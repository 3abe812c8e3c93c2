import Verif.Proofs.Complete.Loops
/-
Grammar completeness: `switch` statements, the choice between statements, and the induction on the depth.
-/
namespace Giron.Complete
open Giron M Spec Grammar Parser
variable [Env]
variable {α β : Type} {c c' : Ctx} {ps : List Giron.Params} {k : Nat} {nx : Word} {w w' w'' ws rest semi : List Word} {s : Parser}
  {v kind : Str} {n m j l f g : Bool} {r : Rec} {t o a b e d : Node}

/-- The word ends the statements of a case. -/
structure CaseEnd (x : Content) : Prop where
  fit : x.fits .regExp = true
  stop : (isP x .rBrace || isKw x cs!"case" || isKw x cs!"default") = true

theorem consequentF_ok (hr : RecOk r) (hnx : CaseEnd nx.c) (m : Nat) :
    ∀ {ws ts s}, Items Item c ws nx ts → St c ps k (ws ++ nx :: rest) s →
    Ok (consequentF r m) s (fun xs s' => xs.map bareNode = ts ∧ St c ps k (nx :: rest) s') := by
  induction m with
  | zero => intro _ _ _ _ _; exact rfl
  | succ m ih =>
    intro ws ts s hl h
    unfold consequentF
    cases hl with
    | nil =>
      lk! h ht
      refine ok_then ?_ (pure_ok ⟨rfl, h⟩)
      have := hnx.stop
      rw [ht.isP, ht.isKw, ht.isKw]
      simp only [Bool.or_eq_true] at this
      rcases this with (h | h) | h
      · exact .inl h
      · exact .inr (.inl h)
      · exact .inr (.inr h)
    | @cons _ w ws _ a as hi hl =>
      obtain ⟨x, w', rfl, hx⟩ := item_begins hi
      nm! h
      lk! h ht
      refine ok_else ?_ ?_
      · rw [ht.isP, ht.isKw, ht.isKw, startsItem_rBrace hx, startsItem_kw hx (.inl rfl), startsItem_kw hx (.inr rfl)]; simp
      obtain ⟨l, e⟩ := first_cons ws nx rest
      rw [e] at h
      rde! (hr.item hi (items_fits hl hnx.fit) _ _ _ _ h) with a ea h
      rw [← e] at h
      rde! (ih hl h) with xs exs h
      exact pure_ok ⟨by simp [ea, exs], h⟩

theorem case_end {cs : List SwitchCase} (h : Items Case c ws (P .rBrace n) cs) : CaseEnd (first ws (P .rBrace n)).c := by
  cases h with
  | nil => exact ⟨rfl, rfl⟩
  | cons h _ => cases h <;> exact ⟨rfl, rfl⟩

theorem case_not_brace {cs : List SwitchCase} (h : Items Case c ws (P .rBrace n) cs) (hc : cs ≠ []) : Begins (fun x => isP x .rBrace = false) ws := by
  cases h with
  | nil => exact absurd rfl hc
  | cons h _ => cases h <;> exact .cons rfl

/-- One case. -/
theorem case_ok (hr : RecOk r) {fd : Bool} {x : SwitchCase} (hx : Case c ws nx x) (hnx : CaseEnd nx.c) (hfd : isDefault x = true → fd = true)
    {f : Option Node → Bool → List Node → PM α} {g : Option Node × Bool → PM α} {Q : α → Parser → Prop}
    (hg : ∀ test fd, g (test, fd) = (do let _ ← consume .colon; let xs ← parseConsequent r; f test fd xs)) (h : St c ps k (ws ++ nx :: rest) s)
    (hf : ∀ test xs s', bareSwitchCase (.mk test xs) = x → St c ps k (nx :: rest) s' → Ok (f test (if isDefault x then false else fd) xs) s' Q) :
    Ok (parseCaseTest r fd >>= g) s Q := by
  cases hx with
  | @case _ w e ws nx ts n m he hl =>
    nm! h
    refine Sat.bind (P := fun x s' => (x.1.map bareNode = some e ∧ x.2 = fd) ∧ St c ps k (P .colon m :: (ws ++ nx :: rest)) s') ?_ ?_
    · unfold parseCaseTest
      lk! h ht
      refine ok_then (by tk ht) ?_
      ad! h ht (expr_fits he).append.fits
      rde! (exprIn_ok hr he _ _ _ _ _ (.punct _ (by decide)) h) with y ey h
      exact pure_ok ⟨⟨by simp [ey], rfl⟩, h⟩
    · clear h
      rintro ⟨y, fd'⟩ _ ⟨⟨ey, rfl⟩, h⟩
      dsimp only at ey
      rw [hg]
      eat! h (items_fits' hl hnx.fit)
      rde! (consequentF_ok hr hnx _ hl h) with xs ex h
      exact hf _ _ _ (by simp [bareSwitchCase, bareOptNode_eq, bareListNode_eq, ey, ex]) h
  | @default _ ws nx ts n m hl =>
    nm! h
    refine Sat.bind (P := fun x s' => (x.1 = none ∧ x.2 = false) ∧ St c ps k (P .colon m :: (ws ++ nx :: rest)) s') ?_ ?_
    · unfold parseCaseTest
      lk! h ht
      refine ok_else (by tk ht) (ok_then ⟨by tk ht, hfd rfl⟩ ?_)
      ad! h ht rfl
      exact pure_ok ⟨⟨rfl, rfl⟩, h⟩
    · clear h
      rintro ⟨y, fd'⟩ _ ⟨⟨ey, ef⟩, h⟩
      dsimp only at ey ef
      subst ey ef
      rw [hg]
      eat! h (items_fits' hl hnx.fit)
      rde! (consequentF_ok hr hnx _ hl h) with xs ex h
      exact hf _ _ _ (by simp [bareSwitchCase, bareOptNode_eq, bareListNode_eq, ex]) h

theorem casesF_ok (hr : RecOk r) (m : Nat) :
    ∀ {ws cs s fd}, Items Case c ws (P .rBrace n) cs → cs ≠ [] → (cs.filter isDefault).length ≤ (if fd then 1 else 0) →
      St c ps k (ws ++ P .rBrace n :: rest) s →
      Ok (casesF r m fd) s (fun xs s' => xs.map bareSwitchCase = cs ∧ St c ps k (P .rBrace n :: rest) s') := by
  induction m with
  | zero => intro _ _ _ _ _ _ _ _; exact rfl
  | succ m ih =>
    intro ws cs s fd hl hne hd h
    unfold casesF
    cases hl with
    | nil => exact absurd rfl hne
    | @cons _ w ws _ x xs hx hl =>
      nm! h
      obtain ⟨l, e⟩ := first_cons ws (P .rBrace n) rest
      rw [e] at h
      refine case_ok hr (fd := fd) hx (case_end hl) ?_ (f := fun test fd consequent => do
        let t ← cur
        if t.isP .rBrace then pure [.mk test consequent]
        else do
          let more ← casesF r m fd
          pure (.mk test consequent :: more)) (fun _ _ => rfl) h ?_
      · intro hdx
        cases fd with
        | true => rfl
        | false => simp [List.filter_cons, hdx] at hd
      · clear h
        intro test ys s' ex h
        rw [← e] at h
        by_cases hxs : xs = []
        · subst hxs
          cases hl
          lk! h ht
          exact ok_then (by tk ht) (pure_ok ⟨by simp [ex], h⟩)
        · refine get_ok ?_
          obtain ⟨⟨y, n'⟩, hy, ht⟩ := begins_tok (case_not_brace hl hxs) h
          refine ok_else (by rw [ht.isP, hy]; simp) ?_
          have hd' : (xs.filter isDefault).length ≤ (if (if isDefault x then false else fd) then 1 else 0) := by
            cases hdx : isDefault x <;> cases fd <;> simp [List.filter_cons, hdx] at hd ⊢ <;> first | assumption | omega
          rde! (ih hl hxs hd' h) with zs ez h
          exact pure_ok ⟨by simp [ex, ez], h⟩

theorem cases_fits {cs : List SwitchCase} (h : Items Case c ws (P .rBrace n) cs) : FitsAt .regExp (ws ++ P .rBrace n :: rest) := by
  obtain ⟨l, e⟩ := first_cons ws (P .rBrace n) rest
  rw [e]
  exact (case_end h).fit

theorem parseSwitchStmt_ok (hr : RecOk r) {k' : Bool} {cs : List SwitchCase} (he : Expr { c with switch := true, inn := true } w e)
    (hl : Items Case { c with switch := true } ws (P .rBrace l) cs) (hc : CasesOk cs) :
    ReadsBefore (parseSwitchStmt r) bareNode c
      (W cs!"switch" n :: P .lParen m :: (w ++ P .rParen k' :: P .lBrace j :: (ws ++ [P .rBrace l]))) nx (.switchStatement e cs sp) := by
  intro hnx ps k rest s h
  unfold parseSwitchStmt
  nm! h
  sp! h
  kw! h rfl
  refine get_ok ?_
  have hsw := h.switch
  refine Sat.bind (P := fun _ s' => St { c with switch := true } ps (k + 1)
    (P .lParen m :: (w ++ P .rParen k' :: P .lBrace j :: (ws ++ P .rBrace l :: nx :: rest))) s') (Sat.modify ?_) ?_
  · exact ⟨h.strict, h.loop, rfl, ⟨h.params.1, h.params.2, h.params.3, h.params.4, h.params.5⟩, h.stack, h.markers, h.here, h.clash⟩
  clear h
  rintro _ _ h
  refine Sat.bind (P := fun x s' => (bareNode x.1 = e ∧ x.2.map bareSwitchCase = cs) ∧ St { c with switch := true } ps (k + 1) (nx :: rest) s') ?_ ?_
  · unfold parseSwitchInner
    eat! h (expr_fits he).append.fits
    rde! (exprIn_ok (c := { c with switch := true }) hr he _ _ _ _ _ .rParen h) with x ex h
    eat! h rfl
    eat! h (cases_fits hl)
    rde! (casesF_ok hr _ hl hc.1 hc.2 h) with xs exs h
    eat! h hnx
    exact pure_ok ⟨⟨ex, exs⟩, h⟩
  · clear h
    rintro ⟨x, xs⟩ _ ⟨⟨ex, exs⟩, h⟩
    dsimp only at ex exs ⊢
    refine Sat.bind (P := fun _ s' => St c ps (k + 1) (nx :: rest) s') (Sat.modify ?_) ?_
    · exact ⟨h.strict, h.loop, hsw, ⟨h.params.1, h.params.2, h.params.3, h.params.4, h.params.5⟩, h.stack, h.markers, h.here, h.clash⟩
    clear h
    rintro _ _ h
    es! h
    exact pure_ok ⟨by simp [bareNode, bareListSwitchCase_eq, ex, exs], h⟩

/-! ### The choice -/

/-- What an expression statement or a label begins with. -/
structure EStart (x : Content) : Prop where
  start : startsExpr x = true
  expr : exprStart x = true

theorem EStart.lBrace' {x : Content} (h : exprStart x = true) : isP x .lBrace = false := by
  cases x with
  | punct p => simpa [exprStart, isP] using h
  | _ => rfl

/-- An expression statement or label. -/
theorem statement_expr {x : Content} {Q : Node → Parser → Prop} (hs : startsExpr x = true) (hb : isP x .lBrace = false) (h : St c ps k (⟨x, n⟩ :: rest) s)
    (hp : Ok (parseExpressionOrLabelled r) s Q) : Ok (parseStatement r) s Q := by
  unfold parseStatement
  lk! h ht
  have hit : kwOf x [cs!"do", cs!"while", cs!"for"] = false := by
    cases x with
    | name v =>
      simp only [kwOf, Bool.and_eq_false_iff, decide_eq_false_iff_not]
      simp only [startsExpr, Bool.or_eq_true, decide_eq_true_eq] at hs
      rcases hs with hs | hs
      · exact .inl hs
      · right; intro hv
        simp only [List.mem_cons, List.not_mem_nil, or_false] at hv
        rcases hv with rfl | rfl | rfl <;> simp at hs
    | _ => rfl
  refine ok_else (by rw [ht.isP, hb]; simp) ?_
  refine ok_else (by rw [ht.isKw, startsExpr_isKw hs]; simp) ?_
  refine ok_else (by rw [ht.isP, startsExpr_isP hs]; simp) ?_
  refine ok_else (by rw [ht.isKw, startsExpr_isKw hs]; simp) ?_
  refine ok_else (by rw [ht.isIterationKw, hit]; simp) ?_
  iterate 8 refine ok_else (by rw [ht.isKw, startsExpr_isKw hs]; simp) ?_
  exact hp

theorem iteration_for {Q : Node → Parser → Prop} (h : St c ps k (W cs!"for" n :: rest) s) (hp : Ok (parseForStmt r) s Q) :
    Ok (parseIterationStmt r) s Q := by
  unfold parseIterationStmt
  lk! h ht
  exact ok_then (by tk ht) hp

theorem parseStatement_ok (hr : RecOk r) (hs : Stmt c ws nx t) : ReadsBefore (parseStatement r) bareNode c ws nx t := by
  intro hnx ps k rest s h
  cases hs with
  | expr he hst hse =>
    obtain ⟨x, w', rfl, hx⟩ := expr_begins he
    have hb : isP x.c .lBrace = false := by
      rcases hst with hst | ⟨n, v, w, e, -⟩
      · exact EStart.lBrace' hst
      · cases e; rfl
    exact statement_expr hx hb h (parseExpressionOrLabelled_expr hr he hse hnx _ _ _ _ h)
  | label hv hst h1 =>
    nm! h
    refine statement_expr (ref_start hv).start rfl h (parseExpressionOrLabelled_label hr hv hst (stmt_fits h1).append.fits ?_ h)
    intro ps k s h
    exact labelBody_stmt hr h1 (stmt_notFunction h1) hnx h
  | labelFunction hv hst hc h1 =>
    nm! h
    refine statement_expr (ref_start hv).start rfl h (parseExpressionOrLabelled_label hr hv hst (function_fits h1).append.fits ?_ h)
    intro ps k s h
    exact labelBody_function hr hc h1 h
  | block hb =>
    unfold parseStatement
    refine get_ok ?_
    have hk : Begins (fun x => isP x .lBrace = true) ws := by cases hb; exact .cons rfl
    obtain ⟨⟨x, n⟩, hx, ht⟩ := begins_tok hk h
    refine ok_then (by rw [ht.isP, hx]) ?_
    exact parseBlockStmt_ok hr hb _ _ _ _ _ trivial h
  | empty =>
    have ht := h.tok; unfold parseStatement; refine get_ok ?_; br ht
    exact parseEmptyStmt_ok hnx _ _ _ _ h
  | var hd hse =>
    have ht := h.tok; unfold parseStatement; refine get_ok ?_; br ht
    exact parseVariableStmt_ok hr hd hse hnx _ _ _ _ h
  | «if» he h1 hn =>
    have ht := h.tok; unfold parseStatement; refine get_ok ?_; br ht
    exact parseIfStmt_ok hr he h1 hn hnx _ _ _ _ h
  | ifElse he h1 h2 =>
    have ht := h.tok; unfold parseStatement; refine get_ok ?_; br ht
    exact parseIfStmt_else hr he h1 h2 hnx _ _ _ _ h
  | «while» he h1 =>
    have ht := h.tok; unfold parseStatement; refine get_ok ?_; br ht
    unfold parseIterationStmt; refine get_ok ?_; br ht
    exact parseWhileStmt_ok hr he h1 hnx _ _ _ _ h
  | doWhile h1 he hse =>
    have ht := h.tok; unfold parseStatement; refine get_ok ?_; br ht
    unfold parseIterationStmt; refine get_ok ?_; br ht
    exact parseDoWhileStmt_ok hr h1 he hse hnx _ _ _ _ h
  | «for» h0 h1 h2 h3 =>
    have ht := h.tok; unfold parseStatement; refine get_ok ?_; br ht
    exact iteration_for h (parseForStmt_classic hr h0 h1 h2 h3 hnx _ _ _ _ h)
  | forIn h0 he h3 =>
    have ht := h.tok; unfold parseStatement; refine get_ok ?_; br ht
    exact iteration_for h (parseForStmt_in hr h0 he h3 hnx _ _ _ _ h)
  | forOf hk hp hn he h3 =>
    have ht := h.tok; unfold parseStatement; refine get_ok ?_; br ht
    exact iteration_for h (parseForStmt_of hr hk hp hn he h3 hnx _ _ _ _ h)
  | switch he hl hc =>
    have ht := h.tok; unfold parseStatement; refine get_ok ?_; br ht
    exact parseSwitchStmt_ok hr he hl hc hnx _ _ _ _ h
  | «continue» hc hse hf =>
    have ht := h.tok; unfold parseStatement; refine get_ok ?_; br ht
    exact parseContinueStmt_ok hc hse hf hnx _ _ _ _ h
  | continueLabel hv hse =>
    have ht := h.tok; unfold parseStatement; refine get_ok ?_; br ht
    exact parseContinueStmt_label hv hse hnx _ _ _ _ h
  | «break» hc hse hf =>
    have ht := h.tok; unfold parseStatement; refine get_ok ?_; br ht
    exact parseBreakStmt_ok hc hse hf hnx _ _ _ _ h
  | breakLabel hv hse =>
    have ht := h.tok; unfold parseStatement; refine get_ok ?_; br ht
    exact parseBreakStmt_label hv hse hnx _ _ _ _ h
  | «return» hc hse hf =>
    have ht := h.tok; unfold parseStatement; refine get_ok ?_; br ht
    exact parseReturn_ok hr hc hse hf hnx _ _ _ _ h
  | returnExpr hc he hn hse =>
    have ht := h.tok; unfold parseStatement; refine get_ok ?_; br ht
    exact parseReturn_expr hr hc he hn hse hnx _ _ _ _ h
  | «with» hc he h1 =>
    have ht := h.tok; unfold parseStatement; refine get_ok ?_; br ht
    exact parseWithStmt_ok hr hc he h1 hnx _ _ _ _ h
  | throw he hn hse =>
    have ht := h.tok; unfold parseStatement; refine get_ok ?_; br ht
    exact parseThrowStmt_ok hr he hn hse hnx _ _ _ _ h
  | tryCatch hb hc hn =>
    have ht := h.tok; unfold parseStatement; refine get_ok ?_; br ht
    exact parseTry_catch hr hb hc hn hnx _ _ _ _ h
  | tryFinally hb hf =>
    have ht := h.tok; unfold parseStatement; refine get_ok ?_; br ht
    exact parseTry_finally hr hb hf hnx _ _ _ _ h
  | tryCatchFinally hb hc hf =>
    have ht := h.tok; unfold parseStatement; refine get_ok ?_; br ht
    exact parseTry_both hr hb hc hf hnx _ _ _ _ h
  | «debugger» hse =>
    have ht := h.tok; unfold parseStatement; refine get_ok ?_; br ht
    exact parseDebuggerStmt_ok hse hnx _ _ _ _ h

/-! ### Items -/

/-- The word does not begin a declaration. -/
structure NoDecl (x : Content) : Prop where
  async : isId x cs!"async" = false
  hoist : oneOf x [cs!"async", cs!"function"] = false
  cls : isKw x cs!"class" = false
  lexical : oneOf x [cs!"let", cs!"const"] = false

theorem item_eq_statement {x : Content} (hx : NoDecl x) (h : St c ps k (⟨x, n⟩ :: rest) s) : parseStmtListItem r s = parseStatement r s := by
  have ht := h.tok
  unfold parseStmtListItem parseStatement
  show (if s.current.isP .lBrace = true then _ else _ : PM Node) s = (if s.current.isP .lBrace = true then _ else _ : PM Node) s
  rw [ht.isId, hx.async, ht.isHoistableDclrKw, hx.hoist, ht.isLexicalDclrKw, hx.lexical, ht.isKw cs!"class", hx.cls]
  by_cases h1 : s.current.isP .semicolon = true
  · have : s.current.isKw cs!"var" = false := by
      rw [ht.isP] at h1
      rw [ht.isKw]
      cases x <;> simp [isP] at h1 <;> rfl
    simp [h1, this]
  · simp [h1]

theorem EStart.noDecl {x : Content} (h : EStart x) : NoDecl x := by
  have h1 := h.start
  have h2 := h.expr
  have h3 := (exprStart_lexical h1 h2).2
  cases x with
  | name v =>
    simp only [exprStart, decide_eq_true_eq, List.mem_cons, List.not_mem_nil, or_false, not_or] at h2
    exact ⟨by simp [isId, h2], by simp [oneOf, h2], by simp [isKw, h2], h3⟩
  | _ => exact ⟨rfl, rfl, rfl, rfl⟩

theorem stmt_noDecl (h : Stmt c ws nx t) : Begins NoDecl ws ∨ ∃ w semi e, ws = w ++ semi ∧ AsyncStart w ∧
    Expr { c with inn := true } w e ∧ ExprSemi semi nx ∧ t = .expressionStatement e sp := by
  cases h with
  | block h => cases h; exact .inl (.cons ⟨rfl, rfl, rfl, rfl⟩)
  | expr h hs hse =>
    rcases hs with hs | hs
    · obtain ⟨x, w', rfl, hx⟩ := expr_begins h
      exact .inl (.cons (EStart.noDecl ⟨hx, hs⟩))
    · exact .inr ⟨_, _, _, rfl, hs, h, hse, rfl⟩
  | label h hs _ => exact .inl (.cons (EStart.noDecl ⟨(ref_start h).start, hs⟩))
  | labelFunction h hs _ _ => exact .inl (.cons (EStart.noDecl ⟨(ref_start h).start, hs⟩))
  | _ => exact .inl (.cons ⟨rfl, rfl, rfl, rfl⟩)

theorem parseStmtListItem_ok (hr : RecOk r) (hi : Item c ws nx t) : ReadsBefore (parseStmtListItem r) bareNode c ws nx t := by
  intro hnx ps k rest s h
  cases hi with
  | stmt hs =>
    rcases stmt_noDecl hs with ⟨⟨x, n⟩, w', e, hx⟩ | ⟨w, semi, e, rfl, ⟨n, v, w', rfl, hv⟩, he, hse, rfl⟩
    · have h' := h
      rw [e] at h'
      have := parseStatement_ok hr hs hnx _ _ _ _ h
      unfold Ok Sat at this ⊢
      rw [item_eq_statement hx h']
      exact this
    · have ht := h.tok
      unfold parseStmtListItem
      refine get_ok ?_
      br ht
      unfold parseAsyncItem
      sp! h
      refine get_ok ?_
      refine Sat.bind (peekToken_ok (w' := W v false) h rfl rfl (fun _ => rfl)) ?_
      clear h ht
      rintro t' _ ⟨ht, h⟩
      refine ok_else ?_ ?_
      · rw [ht.isKw]
        simp [isKw, hv]
      · es! h
        exact parseExpressionOrLabelled_expr hr he hse hnx _ _ _ _ h
  | function hf =>
    unfold parseStmtListItem
    refine get_ok ?_
    have hk : Begins (fun x => x = .name cs!"function") ws := by cases hf <;> exact .cons rfl
    obtain ⟨⟨x, n⟩, hx, ht⟩ := begins_tok hk h
    dsimp only at hx
    subst hx
    br ht [wordy]
    refine withDefault_ok (c := c) (fun ps s h => ?_) h
    unfold parseHoistableDclr
    refine get_ok ?_
    obtain ⟨⟨x, n⟩, hx, ht⟩ := begins_tok hk h
    dsimp only at hx
    subst hx
    br ht
    exact parseFunctionDclr_ok hr hf ps k nx rest s trivial h
  | «class» hc =>
    have ht := h.tok; unfold parseStmtListItem; refine get_ok ?_; br ht
    exact withDefault_ok (fun ps s h => parseClassDclr_ok (c := { c with dflt := false }) hr hc ps k nx rest s trivial h) h
  | @lexical kind _ ws ds semi _ n hk hd hse =>
    have ht := h.tok; unfold parseStmtListItem; refine get_ok ?_
    nm! h
    have := fun ps s (h : St { c with inn := true } ps k _ s) => parseLexicalDclr_ok (c := { c with inn := true }) (n := n) hr hk hd hse hnx (rest := rest) h
    rcases hk with rfl | rfl
    · br ht [plain, wordy]
      exact withIn_ok (fun ps s h => this ps s h) h
    · br ht [plain, wordy]
      exact withIn_ok (fun ps s h => this ps s h) h

/-! ### The depth -/

theorem run_ok (n : Nat) : RecOk (run n) := by
  induction n with
  | zero =>
    refine ⟨?_, ?_, ?_, ?_, ?_, ?_, ?_, ?_⟩
    · intros; intro _ _ _ _ _ _ _; exact rfl
    · intros; intro _ _ _ _ _ _; exact rfl
    · intros; intro _ _ _ _ _ _; exact rfl
    · intros; intro _ _ _ _ _ _ _; exact rfl
    · intros; intro _ _ _ _ _ _ _; exact rfl
    · intros; intro _ _ _ _ _ _ _; exact rfl
    · intros; intro _ _ _ _ _ _ _; exact rfl
    · intros; intro _ _ _ _ _ _ _; exact rfl
  | succ n ih =>
    exact ⟨parseAssignmentExpr_ok ih, parseStmtListItem_ok ih, parseStatement_ok ih, parseUnaryExpr_ok ih, parseExponentiationExpr_ok ih,
      fun h1 h2 h3 h4 => precedenceClimbing_ok ih h1 h2 h3 h4, parseBindingIdOrPat_ok ih, lhs_firm ih⟩

end Giron.Complete

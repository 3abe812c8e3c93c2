import Verif.Proofs.Complete.Simple
/-
Grammar completeness: compound statements.
-/
namespace Giron.Complete
open Giron M Spec Grammar Parser
variable [Env]
variable {α β : Type} {c c' : Ctx} {ps : List Giron.Params} {k : Nat} {nx : Word} {w ws rest l l' semi : List Word} {s : Parser}
  {v : Str} {n m f g : Bool} {r : Rec} {t o a b e : Node}

theorem stmt_fits (h : Stmt c ws nx t) : Begins (fun x => x.fits .regExp = true) ws :=
  (stmt_begins h).mono fun _ => startsItem_fits

/-- A statement before `nx`. -/
theorem stmt_ok (hr : RecOk r) (h : Stmt c ws nx t) (hnx : nx.c.fits .regExp = true) (hs : St c ps k (ws ++ nx :: rest) s) :
    Ok r.statement s (fun a s' => bareNode a = t ∧ St c ps k (nx :: rest) s') := hr.stmt h hnx _ _ _ _ hs

/-- The body of a loop. -/
theorem parseLoopBody_ok (hr : RecOk r) (h : Stmt { c with loop := true } ws nx t) (hnx : nx.c.fits .regExp = true)
    (hs : St c ps k (ws ++ nx :: rest) s) :
    Ok (parseLoopBody r) s (fun a s' => bareNode a = t ∧ St c ps k (nx :: rest) s') := by
  unfold parseLoopBody
  refine get_ok ?_
  have hl := hs.loop
  refine Sat.bind (P := fun _ s' => St { c with loop := true } ps k (ws ++ nx :: rest) s') (Sat.modify ?_) ?_
  · exact ⟨hs.strict, rfl, hs.switch, ⟨hs.params.1, hs.params.2, hs.params.3, hs.params.4, hs.params.5⟩, hs.stack, hs.markers, hs.here, hs.clash⟩
  · clear hs
    rintro _ _ hs
    rde! (stmt_ok hr h hnx hs) with x ex hs
    refine Sat.bind (P := fun _ s' => St c ps k (nx :: rest) s') (Sat.modify ?_) ?_
    · exact ⟨hs.strict, hl, hs.switch, ⟨hs.params.1, hs.params.2, hs.params.3, hs.params.4, hs.params.5⟩, hs.stack, hs.markers, hs.here, hs.clash⟩
    · clear hs
      rintro _ _ hs
      exact pure_ok ⟨ex, hs⟩

theorem SExpr.rParen {inn : Bool} : SExpr inn (P .rParen n) := .punct _ (by decide)

theorem isKw_no {x : Content} {v : Str} (h : x ≠ .name v) : isKw x v = false := by
  cases x with
  | name u =>
    simp only [isKw, Bool.and_eq_false_iff, decide_eq_false_iff_not]
    right; rintro rfl; exact h rfl
  | _ => rfl

theorem parseIfStmt_ok {j : Bool} (hr : RecOk r) (he : Expr { c with inn := true } w e) (h1 : Stmt c ws nx t) (hn : nx.c ≠ .name cs!"else") :
    ReadsBefore (parseIfStmt r) bareNode c (W cs!"if" n :: P .lParen m :: (w ++ P .rParen j :: ws)) nx (.ifStatement e t none sp) := by
  intro hnx ps k rest s h
  unfold parseIfStmt
  nm! h
  sp! h
  kw! h rfl
  eat! h (expr_fits he).append.fits
  rde! (exprIn_ok hr he _ _ _ _ _ .rParen h) with x ex h
  eat! h (stmt_fits h1).append.fits
  rde! (stmt_ok hr h1 hnx h) with y ey h
  refine Sat.bind (P := fun x s' => x = none ∧ St c ps (k + 1) (nx :: rest) s') ?_ ?_
  · unfold parseElse
    lk! h ht
    exact ok_else (by rw [ht.isKw, isKw_no hn]; simp) (pure_ok ⟨rfl, h⟩)
  · clear h
    rintro _ _ ⟨rfl, h⟩
    es! h
    exact pure_ok ⟨by simp [bareNode, bareOptNode, ex, ey], h⟩

theorem parseIfStmt_else {j l : Bool} {ws' : List Word} {t' : Node} (hr : RecOk r) (he : Expr { c with inn := true } w e)
    (h1 : Stmt c ws (W cs!"else" l) t) (h2 : Stmt c ws' nx t') :
    ReadsBefore (parseIfStmt r) bareNode c (W cs!"if" n :: P .lParen m :: (w ++ P .rParen j :: (ws ++ W cs!"else" l :: ws'))) nx
      (.ifStatement e t (some t') sp) := by
  intro hnx ps k rest s h
  unfold parseIfStmt
  nm! h
  sp! h
  kw! h rfl
  eat! h (expr_fits he).append.fits
  rde! (exprIn_ok hr he _ _ _ _ _ .rParen h) with x ex h
  eat! h (stmt_fits h1).append.fits
  rde! (stmt_ok hr h1 rfl h) with y ey h
  refine Sat.bind (P := fun x s' => x.map bareNode = some t' ∧ St c ps (k + 1) (nx :: rest) s') ?_ ?_
  · unfold parseElse
    lk! h ht
    refine ok_then (by tk ht) ?_
    ad! h ht (stmt_fits h2).append.fits
    rde! (stmt_ok hr h2 hnx h) with z ez h
    exact pure_ok ⟨by simp [ez], h⟩
  · clear h
    rintro z _ ⟨ez, h⟩
    es! h
    exact pure_ok ⟨by simp [bareNode, bareOptNode_eq, ex, ey, ez], h⟩

theorem parseWhileStmt_ok {j : Bool} (hr : RecOk r) (he : Expr { c with inn := true } w e) (h1 : Stmt { c with loop := true } ws nx t) :
    ReadsBefore (parseWhileStmt r) bareNode c (W cs!"while" n :: P .lParen m :: (w ++ P .rParen j :: ws)) nx (.whileStatement e t sp) := by
  intro hnx ps k rest s h
  unfold parseWhileStmt
  nm! h
  sp! h
  kw! h rfl
  eat! h (expr_fits he).append.fits
  rde! (exprIn_ok hr he _ _ _ _ _ .rParen h) with x ex h
  eat! h (stmt_fits h1).append.fits
  rde! (parseLoopBody_ok hr h1 hnx h) with y ey h
  es! h
  exact pure_ok ⟨by simp [bareNode, ex, ey], h⟩

theorem parseDoWhileStmt_ok {j l : Bool} (hr : RecOk r) (h1 : Stmt { c with loop := true } ws (W cs!"while" m) t)
    (he : Expr { c with inn := true } w e) (hs : Semi semi nx) :
    ReadsBefore (parseDoWhileStmt r) bareNode c (W cs!"do" n :: (ws ++ W cs!"while" m :: P .lParen j :: (w ++ P .rParen l :: semi))) nx
      (.doWhileStatement t e sp) := by
  intro hnx ps k rest s h
  unfold parseDoWhileStmt
  nm! h
  sp! h
  kw! h (stmt_fits h1).append.fits
  rde! (parseLoopBody_ok hr h1 rfl h) with y ey h
  kw! h rfl
  eat! h (expr_fits he).append.fits
  rde! (exprIn_ok hr he _ _ _ _ _ .rParen h) with x ex h
  eat! h (semi_fits hs hnx)
  sc! h hs hnx
  es! h
  exact pure_ok ⟨by simp [bareNode, ex, ey], h⟩

theorem parseWithStmt_ok {j : Bool} (hr : RecOk r) (hc : c.strict = false) (he : Expr { c with inn := true } w e) (h1 : Stmt c ws nx t) :
    ReadsBefore (parseWithStmt r) bareNode c (W cs!"with" n :: P .lParen m :: (w ++ P .rParen j :: ws)) nx (.withStatement e t sp) := by
  intro hnx ps k rest s h
  unfold parseWithStmt
  nm! h
  refine get_ok (ok_else (by rw [h.strict, hc]; simp) ?_)
  sp! h
  kw! h rfl
  eat! h (expr_fits he).append.fits
  rde! (exprIn_ok hr he _ _ _ _ _ .rParen h) with x ex h
  eat! h (stmt_fits h1).append.fits
  rde! (stmt_ok hr h1 hnx h) with y ey h
  es! h
  exact pure_ok ⟨by simp [bareNode, ex, ey], h⟩

/-! ### `try` -/

theorem block_fits (h : Block c ws t) : Begins (fun x => x.fits .regExp = true) ws := by cases h; exact .cons rfl

theorem parseFinally_none (hn : nx.c ≠ .name cs!"finally") (h : St c ps k (nx :: rest) s) :
    Ok (parseFinallyClause r) s (fun x s' => x = none ∧ St c ps k (nx :: rest) s') := by
  unfold parseFinallyClause
  lk! h ht
  exact ok_else (by rw [ht.isKw, isKw_no hn]; simp) (pure_ok ⟨rfl, h⟩)

theorem parseFinally_some (hr : RecOk r) (hb : Block c ws t) (h : St c ps k (W cs!"finally" n :: (ws ++ nx :: rest)) s) :
    Ok (parseFinallyClause r) s (fun x s' => x.map bareNode = some t ∧ St c ps k (nx :: rest) s') := by
  unfold parseFinallyClause
  lk! h ht
  refine ok_then (by tk ht) ?_
  ad! h ht (block_fits hb).append.fits
  rde! (parseBlockStmt_ok hr hb _ _ _ _ _ trivial h) with x ex h
  exact pure_ok ⟨by simp [ex], h⟩

theorem parseCatch_none (h : St c ps k (W cs!"finally" n :: l) s) :
    Ok (parseCatchClause r) s (fun x s' => x = none ∧ St c ps k (W cs!"finally" n :: l) s') := by
  unfold parseCatchClause
  lk! h ht
  refine ok_else (by tk ht) ?_
  exact ok_then (by tk ht) (pure_ok ⟨rfl, h⟩)

theorem parseCatch_some (hr : RecOk r) {d : CatchClause} (hc : Catch c ws d) (h : St c ps k (ws ++ nx :: rest) s) :
    Ok (parseCatchClause r) s (fun x s' => x.map bareCatchClause = some d ∧ St c ps k (nx :: rest) s') := by
  unfold parseCatchClause
  cases hc with
  | @plain _ ws b n hb =>
    nm! h
    lk! h ht
    refine ok_then (by tk ht) ?_
    ad! h ht (block_fits hb).append.fits
    refine Sat.bind (P := fun x s' => x = none ∧ St c ps k (ws ++ nx :: rest) s') ?_ ?_
    · unfold parseCatchParam
      obtain ⟨m, w', rfl⟩ : ∃ m w', ws = P .lBrace m :: w' := by
        cases hb; exact ⟨_, _, rfl⟩
      lk! h ht
      exact ok_else (by tk ht) (pure_ok ⟨rfl, h⟩)
    · clear h
      rintro _ _ ⟨rfl, h⟩
      rde! (parseBlockStmt_ok hr hb _ _ _ _ _ trivial h) with x ex h
      exact pure_ok ⟨by simp [bareCatchClause, bareOptBinding, ex], h⟩
  | @param _ w p ws b n m j hp hb =>
    nm! h
    lk! h ht
    refine ok_then (by tk ht) ?_
    ad! h ht rfl
    refine Sat.bind (P := fun x s' => x.map bareBinding = some p ∧ St c ps k (ws ++ nx :: rest) s') ?_ ?_
    · unfold parseCatchParam
      lk! h ht
      refine ok_then (by tk ht) ?_
      ad! h ht (pat_fits _ hp).append.fits
      rde! (hr.pat hp _ _ _ _ _ ⟨rfl, rfl⟩ h) with y ey h
      eat! h (block_fits hb).append.fits
      exact pure_ok ⟨by simp [ey], h⟩
    · clear h
      rintro y _ ⟨ey, h⟩
      rde! (parseBlockStmt_ok hr hb _ _ _ _ _ trivial h) with x ex h
      exact pure_ok ⟨by simp [bareCatchClause, bareOptBinding_eq, ex, ey], h⟩

theorem parseTry_catch (hr : RecOk r) {d : CatchClause} (hb : Block c w b) (hc : Catch c ws d) (hn : nx.c ≠ .name cs!"finally") :
    ReadsBefore (parseTryStmt r) bareNode c (W cs!"try" n :: (w ++ ws)) nx (.tryStatement b (some d) none sp) := by
  intro hnx ps k rest s h
  unfold parseTryStmt
  nm! h
  sp! h
  kw! h (block_fits hb).append.fits
  obtain ⟨l, hl⟩ := first_cons ws nx rest
  rw [hl] at h
  rde! (parseBlockStmt_ok hr hb _ _ _ _ _ trivial h) with x ex h
  rw [← hl] at h
  rde! (parseCatch_some hr hc h) with y ey h
  refine Sat.bind (parseFinally_none hn h) ?_
  clear h
  rintro _ _ ⟨rfl, h⟩
  es! h
  exact pure_ok ⟨by simp [bareNode, bareOptNode_eq, bareOptCatchClause_eq, ex, ey], h⟩

theorem parseTry_finally (hr : RecOk r) {d : Node} (hb : Block c w b) (hc : Block c ws d) :
    ReadsBefore (parseTryStmt r) bareNode c (W cs!"try" n :: (w ++ W cs!"finally" m :: ws)) nx (.tryStatement b none (some d) sp) := by
  intro hnx ps k rest s h
  unfold parseTryStmt
  nm! h
  sp! h
  kw! h (block_fits hb).append.fits
  rde! (parseBlockStmt_ok hr hb _ _ _ _ _ trivial h) with x ex h
  refine Sat.bind (parseCatch_none h) ?_
  clear h
  rintro _ _ ⟨rfl, h⟩
  rde! (parseFinally_some hr hc h) with y ey h
  es! h
  exact pure_ok ⟨by simp [bareNode, bareOptNode_eq, bareOptCatchClause_eq, ex, ey], h⟩

theorem parseTry_both (hr : RecOk r) {f : Node} {d : CatchClause} {w' : List Word} (hb : Block c w b) (hc : Catch c w' d) (hf : Block c ws f) :
    ReadsBefore (parseTryStmt r) bareNode c (W cs!"try" n :: (w ++ (w' ++ W cs!"finally" m :: ws))) nx
      (.tryStatement b (some d) (some f) sp) := by
  intro hnx ps k rest s h
  unfold parseTryStmt
  nm! h
  sp! h
  kw! h (block_fits hb).append.fits
  obtain ⟨l, hl⟩ := first_cons w' (W cs!"finally" m) (ws ++ nx :: rest)
  rw [hl] at h
  rde! (parseBlockStmt_ok hr hb _ _ _ _ _ trivial h) with x ex h
  rw [← hl] at h
  rde! (parseCatch_some hr hc h) with y ey h
  rde! (parseFinally_some hr hf h) with z ez h
  es! h
  exact pure_ok ⟨by simp [bareNode, bareOptNode_eq, bareOptCatchClause_eq, ex, ey, ez], h⟩

/-! ### Expression statements and labels -/

theorem parseExpressionStmt_ok (hs : ExprSemi semi nx) (hnx : nx.c.fits .regExp = true) {x : Node} (hx : bareNode x = e)
    (h : St c ps (k + 1) (semi ++ nx :: rest) s) :
    Ok (parseExpressionStmt x) s (fun a s' => bareNode a = .expressionStatement e sp ∧ St c ps k (nx :: rest) s') := by
  unfold parseExpressionStmt
  es! h
  sc! h hs.toSemi hnx
  exact pure_ok ⟨by simp [bareNode, hx], h⟩

theorem exprSemi_colon (hs : ExprSemi semi nx) : isP (first semi nx).c .colon = false := by
  cases hs with
  | semi => rfl
  | auto _ hc =>
    show isP nx.c .colon = false
    obtain ⟨x, n⟩ := nx
    cases x with
    | punct p =>
      simp only [isP, decide_eq_false_iff_not]
      rintro rfl
      simp [continues] at hc
    | _ => rfl

theorem parseExpressionOrLabelled_expr (hr : RecOk r) (he : Expr { c with inn := true } ws e) (hs : ExprSemi semi nx) :
    ReadsBefore (parseExpressionOrLabelled r) bareNode c (ws ++ semi) nx (.expressionStatement e sp) := by
  intro hnx ps k rest s h
  unfold parseExpressionOrLabelled
  nm! h
  sp! h
  rde! (exprIn_semi hr he hs h) with x ex h
  refine get_ok ?_
  have h' := h
  obtain ⟨l, hl⟩ := first_cons semi nx rest
  rw [hl] at h'
  have ht := h'.tok
  refine ok_else (by rw [ht.isP, exprSemi_colon hs]; simp) ?_
  exact parseExpressionStmt_ok hs hnx ex h

theorem exprStart_async (h : exprStart (.name v) = true) : v ≠ cs!"async" := by
  rintro rfl; simp [exprStart] at h

theorem function_fits {gen : Bool} (h : Function c gen ws t) : Begins (fun x => x.fits .regExp = true) ws :=
  (function_begins h).mono fun _ => startsItem_fits

theorem params_fits {es : List FunctionParameter} (h : Grammar.Params c ws es) (g : LexGoal) : Begins (fun x => x.fits g = true) ws :=
  (params_begins h).mono fun _ h => by subst h; cases g <;> rfl

/-- Function declarations. -/
theorem parseFunctionDclr_ok (hr : RecOk r) {gen : Bool} (hf : Function c gen ws t) :
    Reads (parseFunctionDclr r false gen) bareNode c 0 0 ws t (fun _ => True) := by
  intro ps k nx rest s hnx h
  unfold parseFunctionDclr
  refine get_ok (ok_else (by simp) ?_)
  unfold parseFunctionDclrRest
  have hst : Ok (when (false = false) startSpan) s (fun _ s' => St c ps (k + 1) (ws ++ nx :: rest) s') := startSpan_ok h
  refine Sat.bind hst ?_
  clear h hst
  rintro _ _ h
  cases hf with
  | @mk _ v ws qs ws' b _ n m hv hp hb =>
    nm! h
    kw! h rfl
    refine Sat.bind (P := fun x s' => x = false ∧ St c ps (k + 1) (W v m :: (ws ++ (ws' ++ nx :: rest))) s') ?_ ?_
    · unfold parseGeneratorMark
      lk! h ht
      exact ok_else (by tk ht) (pure_ok ⟨rfl, h⟩)
    clear h
    rintro _ _ ⟨rfl, h⟩
    refine Sat.bind (P := fun x s' => x.map bareNode = some (.bindingIdentifier v sp) ∧ St c ps (k + 1) (ws ++ (ws' ++ nx :: rest)) s') ?_ ?_
    · unfold parseFunctionName
      refine get_ok ?_
      have ht := h.tok
      refine ok_else (by tk ht) ?_
      rde! (parseBindingId_ok' hv h (params_fits hp _).append.fits) with y ey h
      obtain ⟨s', rfl⟩ := bare_bindingId ey
      exact pure_ok ⟨rfl, h⟩
    clear h
    rintro x _ ⟨ex, h⟩
    rw [← List.append_assoc] at h
    refine Sat.bind (parseParamsAndBody_ok hr hp hb _ _ _ _ _ trivial h) ?_
    clear h
    rintro ⟨qs', b'⟩ _ ⟨e1, h⟩
    simp only [Prod.mk.injEq] at e1
    obtain ⟨rfl, rfl⟩ := e1
    dsimp only
    es! h
    exact pure_ok ⟨by simp [bareNode, bareOptNode_eq, bareListFunctionParameter_eq, ex], h⟩
  | @generator _ v ws qs ws' b n j m hv hp hb =>
    nm! h
    kw! h rfl
    refine Sat.bind (P := fun x s' => x = true ∧ St c ps (k + 1) (W v m :: (ws ++ (ws' ++ nx :: rest))) s') ?_ ?_
    · unfold parseGeneratorMark
      lk! h ht
      refine ok_then (by tk ht) (ok_else (by simp) ?_)
      ad! h ht rfl
      exact pure_ok ⟨rfl, h⟩
    clear h
    rintro _ _ ⟨rfl, h⟩
    refine Sat.bind (P := fun x s' => x.map bareNode = some (.bindingIdentifier v sp) ∧ St c ps (k + 1) (ws ++ (ws' ++ nx :: rest)) s') ?_ ?_
    · unfold parseFunctionName
      refine get_ok ?_
      have ht := h.tok
      refine ok_else (by tk ht) ?_
      rde! (parseBindingId_ok' hv h (params_fits hp _).append.fits) with y ey h
      obtain ⟨s', rfl⟩ := bare_bindingId ey
      exact pure_ok ⟨rfl, h⟩
    clear h
    rintro x _ ⟨ex, h⟩
    rw [← List.append_assoc] at h
    refine Sat.bind (parseParamsAndBody_ok hr hp hb _ _ _ _ _ trivial h) ?_
    clear h
    rintro ⟨qs', b'⟩ _ ⟨e1, h⟩
    simp only [Prod.mk.injEq] at e1
    obtain ⟨rfl, rfl⟩ := e1
    dsimp only
    es! h
    exact pure_ok ⟨by simp [bareNode, bareOptNode_eq, bareListFunctionParameter_eq, ex], h⟩

theorem label_expr (hv : Ref c v) (hne : exprStart (.name v) = true) :
    Expr { c with inn := true } [W v n] (.identifier v (nameTarget c v) sp) :=
  .assign (assign_of_primary (c := { c with inn := true }) (.name (n := n) (c := { c with inn := true }) hv (exprStart_async hne)))

theorem parseExpressionOrLabelled_label (hr : RecOk r) (hv : Ref c v) (hne : exprStart (.name v) = true)
    (hl : FitsAt .regExp (ws ++ nx :: rest))
    (hb : ∀ ps k s, St c ps k (ws ++ nx :: rest) s → Ok (parseLabelBody r) s (fun a s' => bareNode a = t ∧ St c ps k (nx :: rest) s'))
    (h : St c ps k (W v n :: P .colon m :: (ws ++ nx :: rest)) s) :
    Ok (parseExpressionOrLabelled r) s (fun a s' => bareNode a = .labeledStatement ⟨v, sp⟩ t sp ∧ St c ps k (nx :: rest) s') := by
  unfold parseExpressionOrLabelled
  sp! h
  rde! (exprIn_ok hr (label_expr hv hne) _ _ _ _ _ (.punct _ (by decide)) h) with x ex h
  obtain ⟨s', rfl⟩ := bare_identifier ex
  lk! h ht
  refine ok_then (by tk ht) ?_
  dsimp only
  unfold parseLabelledStmt
  eat! h hl
  rde! (hb _ _ _ h) with y ey h
  es! h
  exact pure_ok ⟨by simp [bareNode, bareIdentifier, ey], h⟩

theorem labelBody_stmt (hr : RecOk r) (h1 : Stmt c ws nx t) (hn : Begins (fun x => isKw x cs!"function" = false) ws)
    (hnx : nx.c.fits .regExp = true) (h : St c ps k (ws ++ nx :: rest) s) :
    Ok (parseLabelBody r) s (fun a s' => bareNode a = t ∧ St c ps k (nx :: rest) s') := by
  unfold parseLabelBody
  refine get_ok ?_
  obtain ⟨⟨x, n⟩, hx, ht⟩ := begins_tok hn h
  refine ok_else (by rw [ht.isKw, hx]; simp) ?_
  exact stmt_ok hr h1 hnx h

theorem exprStart_function {x : Content} (h : exprStart x = true) : isKw x cs!"function" = false := by
  cases x with
  | name v =>
    simp only [isKw, Bool.and_eq_false_iff, decide_eq_false_iff_not]
    right; rintro rfl; simp [exprStart] at h
  | _ => rfl

theorem stmt_notFunction (h : Stmt c ws nx t) : Begins (fun x => isKw x cs!"function" = false) ws := by
  cases h with
  | block h => cases h; exact .cons rfl
  | expr h hs _ =>
    rcases hs with hs | ⟨n, v, w, rfl, -⟩
    · obtain ⟨x, w', rfl, -⟩ := expr_begins h
      exact .cons (exprStart_function hs)
    · exact .cons rfl
  | label h hs _ => exact .cons (exprStart_function hs)
  | labelFunction h hs _ _ => exact .cons (exprStart_function hs)
  | _ => exact .cons rfl

theorem labelBody_function (hr : RecOk r) (hc : c.strict = false) (h1 : Function { c with dflt := false } false ws t)
    (h : St c ps k (ws ++ nx :: rest) s) :
    Ok (parseLabelBody r) s (fun a s' => bareNode a = t ∧ St c ps k (nx :: rest) s') := by
  unfold parseLabelBody
  refine get_ok ?_
  have hk : Begins (fun x => isKw x cs!"function" = true) ws := by cases h1; exact .cons rfl
  obtain ⟨⟨x, n⟩, hx, ht⟩ := begins_tok hk h
  refine ok_then (by rw [ht.isKw, hx]) (ok_else (by rw [h.strict, hc]; simp) ?_)
  exact withDefault_ok (fun ps s h => parseFunctionDclr_ok hr h1 ps k nx rest s trivial h) h

end Giron.Complete

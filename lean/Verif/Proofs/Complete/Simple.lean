import Verif.Proofs.Complete.Assign
/-
Grammar completeness: declarations of variables, blocks and simple statements.
-/
namespace Giron.Complete
open Giron M Spec Grammar Parser
variable [Env]
variable {α β : Type} {c c' : Ctx} {ps : List Giron.Params} {k : Nat} {w nx : Word} {ws rest l l' semi : List Word} {s : Parser}
  {v : Str} {n f g nst : Bool} {r : Rec} {t o a b : Node} {p q lo hi : Nat}

/-- An expression in which `in` is an operator. -/
theorem exprIn_ok (hr : RecOk r) (he : Expr { c with inn := true } ws t) :
    Reads (withIn true (parseExpression r)) bareNode c 0 0 ws t (SExpr true) := by
  intro ps k nx rest s hnx h
  exact withIn_ok (fun ps s h => parseExpression_ok hr he ps k nx rest s hnx h) h

theorem exprIn_semi (hr : RecOk r) (he : Expr { c with inn := true } ws t) (hs : ExprSemi semi nx)
    (h : St c ps k (ws ++ (semi ++ nx :: rest)) s) :
    Ok (withIn true (parseExpression r)) s (fun a s' => bareNode a = t ∧ St c ps k (semi ++ nx :: rest) s') :=
  withIn_ok (fun _ _ h => expr_semi hr he hs h) h

theorem semi_fits (hs : Semi semi nx) (hnx : nx.c.fits .regExp = true) : FitsAt .regExp (semi ++ nx :: rest) := by
  cases hs with
  | semi => exact rfl
  | auto _ => exact hnx

/-- a semicolon -/
macro "sc! " h:ident hs:term:max hn:term:max : tactic =>
  `(tactic| (refine Sat.bind (consumeSemicolon_ok $hs $hn $h) ?_; clear $h; rintro _ _ $h:ident))

/-! ### Variables -/

theorem SAssign.pat {inn : Bool} (h : SAssign inn nx) : SPat nx := ⟨h.fit, h.regExp⟩

theorem bare_bindingId {b : Binding} (h : bareBinding b = .bindingIdentifier v sp) : ∃ s, b = .bindingIdentifier v s := by
  cases b <;> simp [bareBinding] at h
  subst h; exact ⟨_, rfl⟩

theorem parseVariableDclr_ok (hr : RecOk r) {d : VariableDeclarator} (hd : Declarator c ws d) :
    Reads (parseVariableDclr r) bareVariableDeclarator c 0 0 ws d (SAssign c.inn) := by
  intro ps k nx rest s hnx h
  unfold parseVariableDclr
  cases hd with
  | plain hv =>
    rde! (hr.pat (.name hv) _ _ _ _ _ hnx.pat h) with b eb h
    obtain ⟨s', rfl⟩ := bare_bindingId eb
    lk! h ht
    refine ok_else (by rw [ht.isP, hnx.assign]; simp) ?_
    exact pure_ok ⟨rfl, h⟩
  | init hp he =>
    nm! h
    rde! (hr.pat hp _ _ _ _ _ ⟨rfl, rfl⟩ h) with b eb h
    lk! h ht
    refine ok_then (by tk ht) ?_
    ad! h ht (assign_fits he).append.fits
    rde! (hr.assign he _ _ _ _ _ hnx h) with x ex h
    exact pure_ok ⟨by simp [bareVariableDeclarator, bareOptNode, eb, ex], h⟩

theorem declarator_fits {d : VariableDeclarator} (hd : Declarator c ws d) (g : LexGoal) : Begins (fun x => x.fits g = true) ws := by
  cases hd with
  | plain hv => exact pat_fits _ (.name hv)
  | init hp _ => exact (pat_fits _ hp).append

theorem sep_fits {R : Ctx → List Word → α → Prop} {as : List α} {g : LexGoal} (h : Sep R c ws as)
    (hR : ∀ w a, R c w a → Begins (fun x => x.fits g = true) w) : Begins (fun x => x.fits g = true) ws := by
  cases h with
  | one h => exact hR _ _ h
  | cons h _ => exact (hR _ _ h).append

theorem parseVarList_ok (hr : RecOk r) {ds : List VariableDeclarator} (hd : Sep Declarator c ws ds) :
    Reads (parseVarList r) (List.map bareVariableDeclarator) c 0 0 ws ds (SExpr c.inn) := by
  intro ps k nx rest s hnx h
  unfold parseVarList
  cases hd with
  | one hd =>
    rde! (parseVariableDclr_ok hr hd _ _ _ _ _ hnx.toSAssign h) with d ed h
    refine Sat.bind (whilePunc_none hnx.comma h) ?_
    clear h
    rintro _ _ ⟨rfl, h⟩
    exact pure_ok ⟨by simp [ed], h⟩
  | cons hd hl =>
    nm! h
    rde! (parseVariableDclr_ok hr hd _ _ _ _ _ (.punct _ (by decide)) h) with d ed h
    refine Sat.bind (whilePunc_sep (R := Declarator) (F := SAssign c.inn) (bare := bareVariableDeclarator)
      (fun n => .punct n (by decide)) (fun _ _ h => declarator_fits h _) ?_ hnx.toSAssign hnx.comma hl h) ?_
    · intro w a hw ps k n nx rest s hF h
      unfold commaDclr
      eat! h (declarator_fits hw _).append.fits
      exact parseVariableDclr_ok hr hw _ _ _ _ _ hF h
    · clear h
      rintro bs _ ⟨hb, h⟩
      exact pure_ok ⟨by simp [ed, hb], h⟩

theorem varList_semi (hr : RecOk r) {ds : List VariableDeclarator} (hd : Sep Declarator c ws ds) (hs : ExprSemi semi nx)
    (h : St c ps k (ws ++ (semi ++ nx :: rest)) s) :
    Ok (parseVarList r) s (fun a s' => a.map bareVariableDeclarator = ds ∧ St c ps k (semi ++ nx :: rest) s') := by
  obtain ⟨l, hl⟩ := first_cons semi nx rest
  rw [hl] at h ⊢
  exact parseVarList_ok hr hd _ _ _ _ _ hs.follow h

theorem varListIn_semi (hr : RecOk r) {ds : List VariableDeclarator} (hd : Sep Declarator { c with inn := true } ws ds) (hs : ExprSemi semi nx)
    (h : St c ps k (ws ++ (semi ++ nx :: rest)) s) :
    Ok (withIn true (parseVarList r)) s (fun a s' => a.map bareVariableDeclarator = ds ∧ St c ps k (semi ++ nx :: rest) s') :=
  withIn_ok (fun _ _ h => varList_semi hr hd hs h) h

theorem parseVariableStmt_ok (hr : RecOk r) {ds : List VariableDeclarator} (hd : Sep Declarator { c with inn := true } ws ds)
    (hs : ExprSemi semi nx) :
    ReadsBefore (parseVariableStmt r) bareNode c (W cs!"var" n :: (ws ++ semi)) nx (.variableDeclaration ds cs!"var" sp) := by
  intro hnx ps k rest s h
  unfold parseVariableStmt
  nm! h
  sp! h
  kw! h (sep_fits hd fun _ _ h => declarator_fits h _).append.fits
  rde! (varListIn_semi hr hd hs h) with xs ex h
  sc! h hs.toSemi hnx
  es! h
  exact pure_ok ⟨by simp [bareNode, bareListVariableDeclarator_eq, ex], h⟩

theorem parseLexicalDclr_ok (hr : RecOk r) {kind : Str} {ds : List VariableDeclarator} (hk : kind = cs!"let" ∨ kind = cs!"const")
    (hd : Sep Declarator c ws ds) (hs : ExprSemi semi nx) (hnx : nx.c.fits .regExp = true)
    (h : St c ps k (W kind n :: (ws ++ (semi ++ nx :: rest))) s) :
    Ok (parseLexicalDclr r) s (fun a s' => bareNode a = .variableDeclaration ds kind sp ∧ St c ps k (nx :: rest) s') := by
  unfold parseLexicalDclr
  sp! h
  have hf : FitsAt .regExp (ws ++ (semi ++ nx :: rest)) := (sep_fits hd fun _ _ h => declarator_fits h _).append.fits
  lk! h ht
  refine Sat.bind (P := fun x s' => x = kind ∧ St c ps (k + 1) (ws ++ (semi ++ nx :: rest)) s') ?_ ?_
  · rcases hk with rfl | rfl
    · refine ok_then (by tk ht [plain, wordy]) ?_
      id! h hf
      exact pure_ok ⟨rfl, h⟩
    · refine ok_else (by tk ht [plain]) ?_
      refine ok_then (by tk ht) ?_
      kw! h hf
      exact pure_ok ⟨rfl, h⟩
  · clear h ht
    rintro _ _ ⟨rfl, h⟩
    rde! (varList_semi hr hd hs h) with xs ex h
    sc! h hs.toSemi hnx
    es! h
    exact pure_ok ⟨by simp [bareNode, bareListVariableDeclarator_eq, ex], h⟩

/-! ### Blocks -/

theorem items_fits' {ts : List Node} (h : Items Item c ws nx ts) (hnx : nx.c.fits .regExp = true) : FitsAt .regExp (ws ++ nx :: rest) := by
  obtain ⟨l, e⟩ := first_cons ws nx rest
  rw [e]
  exact items_fits h hnx

theorem parseBlockStmt_ok (hr : RecOk r) (hb : Block c ws t) : Reads (parseBlockStmt r) bareNode c 0 0 ws t (fun _ => True) := by
  intro ps k nx rest s hnx h
  cases hb with
  | mk hl =>
    unfold parseBlockStmt
    nm! h
    sp! h
    eat! h (items_fits' hl rfl)
    rde! (parseStatementList_ok hr hl h) with xs ex h
    eat! h (fits_rBrace h.clash2)
    es! h
    exact pure_ok ⟨by simp [bareNode, bareListNode_eq, ex], h⟩

/-! ### Simple statements -/

theorem parseEmptyStmt_ok : ReadsBefore parseEmptyStmt bareNode c [P .semicolon n] nx (.emptyStatement sp) := by
  intro hnx ps k rest s h
  unfold parseEmptyStmt
  nm! h
  sp! h
  eat! h hnx
  es! h
  exact pure_ok ⟨rfl, h⟩

theorem parseDebuggerStmt_ok (hs : Semi semi nx) :
    ReadsBefore parseDebuggerStmt bareNode c (W cs!"debugger" n :: semi) nx (.debuggerStatement sp) := by
  intro hnx ps k rest s h
  unfold parseDebuggerStmt
  nm! h
  sp! h
  kw! h (semi_fits hs hnx)
  sc! h hs hnx
  es! h
  exact pure_ok ⟨rfl, h⟩

theorem parseThrowStmt_ok (hr : RecOk r) (he : Expr { c with inn := true } ws t) (hn : (first ws nx).nl = false) (hs : ExprSemi semi nx) :
    ReadsBefore (parseThrowStmt r) bareNode c (W cs!"throw" n :: (ws ++ semi)) nx (.throwStatement t sp) := by
  intro hnx ps k rest s h
  unfold parseThrowStmt
  nm! h
  sp! h
  kw! h (expr_fits he).append.fits
  refine get_ok ?_
  refine ok_then ?_ ?_
  · obtain ⟨x, w', rfl, hx⟩ := expr_fits he
    rw [h.nl]; exact hn
  · rde! (exprIn_semi hr he hs h) with x ex h
    sc! h hs.toSemi hnx
    es! h
    exact pure_ok ⟨by simp [bareNode, ex], h⟩

theorem parseReturn_ok (hr : RecOk r) (hc : c.ret = true) (hs : Semi semi nx)
    (hf : (first semi nx).nl = true ∨ (first semi nx).c = .punct .semicolon) :
    ReadsBefore (parseReturn r) bareNode c (W cs!"return" n :: semi) nx (.returnStatement none sp) := by
  intro hnx ps k rest s h
  unfold parseReturn
  refine get_ok (ok_then (by rw [h.params.ret, hc]) ?_)
  unfold parseReturnStmt
  nm! h
  sp! h
  kw! h (semi_fits hs hnx)
  refine Sat.bind (P := fun x s' => x = none ∧ St c ps (k + 1) (semi ++ nx :: rest) s') ?_ ?_
  · unfold parseReturnArg
    refine get_ok ?_
    have h' := h
    obtain ⟨l, hl⟩ := first_cons semi nx rest
    rw [hl] at h'
    have ht := h'.tok
    refine Sat.ite (fun _ => pure_ok ⟨rfl, h⟩) (fun hp => ?_)
    rcases hf with hf | hf
    · exact ok_else (by rw [h'.nl, hf]; simp) (pure_ok ⟨rfl, h⟩)
    · rw [ht.isP, hf] at hp
      exact absurd rfl hp
  · clear h
    rintro _ _ ⟨rfl, h⟩
    sc! h hs hnx
    es! h
    exact pure_ok ⟨rfl, h⟩

theorem parseReturn_expr (hr : RecOk r) (hc : c.ret = true) (he : Expr { c with inn := true } ws t) (hn : (first ws nx).nl = false)
    (hs : ExprSemi semi nx) :
    ReadsBefore (parseReturn r) bareNode c (W cs!"return" n :: (ws ++ semi)) nx (.returnStatement (some t) sp) := by
  intro hnx ps k rest s h
  unfold parseReturn
  refine get_ok (ok_then (by rw [h.params.ret, hc]) ?_)
  unfold parseReturnStmt
  nm! h
  sp! h
  kw! h (expr_fits he).append.fits
  refine Sat.bind (P := fun x s' => x.map bareNode = some t ∧ St c ps (k + 1) (semi ++ nx :: rest) s') ?_ ?_
  · unfold parseReturnArg
    refine get_ok ?_
    have h' := h
    obtain ⟨x, w', e, hx⟩ := expr_begins he
    rw [e] at h'
    have ht := h'.tok
    refine ok_else (by rw [ht.isP, startsExpr_isP hx]; simp) ?_
    refine ok_then (by rw [h'.nl]; subst e; exact hn) ?_
    rde! (exprIn_semi hr he hs h) with x ex h
    exact pure_ok ⟨by simp [ex], h⟩
  · clear h
    rintro x _ ⟨ex, h⟩
    sc! h hs.toSemi hnx
    es! h
    exact pure_ok ⟨by simp [bareNode, bareOptNode_eq, ex], h⟩

theorem not_name_isIdOrKw {x : Content} (h : ∀ v, x ≠ .name v) : isIdOrKw x = false := by
  cases x with
  | name v => exact absurd rfl (h v)
  | _ => rfl

/-- No label. -/
theorem parseLabelOpt_none (hs : Semi semi nx) (hf : (first semi nx).nl = true ∨ (∀ v, (first semi nx).c ≠ .name v))
    (h : St c ps k (semi ++ nx :: rest) s) :
    Ok parseLabelOpt s (fun x s' => x = none ∧ St c ps k (semi ++ nx :: rest) s') := by
  unfold parseLabelOpt
  refine get_ok ?_
  have h' := h
  obtain ⟨l, hl⟩ := first_cons semi nx rest
  rw [hl] at h'
  have ht := h'.tok
  refine ok_else ?_ (pure_ok ⟨rfl, h⟩)
  rw [ht.isIdOrKw, h'.nl]
  rcases hf with hf | hf
  · rw [hf]; simp
  · rw [not_name_isIdOrKw hf]; simp

/-- A label. -/
theorem parseLabelOpt_some (hv : Ref c v) (hs : ExprSemi semi nx) (h : St c ps k (W v false :: (semi ++ nx :: rest)) s) :
    Ok parseLabelOpt s (fun x s' => x.map bareNode = some (.identifier v (nameTarget c v) sp) ∧ St c ps k (semi ++ nx :: rest) s') := by
  unfold parseLabelOpt
  refine get_ok ?_
  have ht := h.tok
  refine ok_then ⟨by rw [ht.isIdOrKw]; exact hv.wordy, h.nl⟩ ?_
  obtain ⟨l, hl⟩ := first_cons semi nx rest
  rw [hl] at h ⊢
  rde! (parseIdReference_ok hv _ _ _ _ _ (hs.follow (inn := true)).fit h) with x ex h
  exact pure_ok ⟨by simp [ex], h⟩

theorem parseContinueStmt_ok (hc : c.loop = true) (hs : Semi semi nx)
    (hf : (first semi nx).nl = true ∨ (∀ v, (first semi nx).c ≠ .name v)) :
    ReadsBefore parseContinueStmt bareNode c (W cs!"continue" n :: semi) nx (.continueStatement none sp) := by
  intro hnx ps k rest s h
  unfold parseContinueStmt
  nm! h
  sp! h
  kw! h (semi_fits hs hnx)
  refine Sat.bind (parseLabelOpt_none hs hf h) ?_
  clear h
  rintro _ _ ⟨rfl, h⟩
  refine get_ok (ok_else (by rw [h.loop, hc]; simp) ?_)
  sc! h hs hnx
  es! h
  exact pure_ok ⟨rfl, h⟩

theorem parseContinueStmt_label (hv : Ref c v) (hs : ExprSemi semi nx) :
    ReadsBefore parseContinueStmt bareNode c (W cs!"continue" n :: W v false :: semi) nx
      (.continueStatement (some (.identifier v (nameTarget c v) sp)) sp) := by
  intro hnx ps k rest s h
  unfold parseContinueStmt
  nm! h
  sp! h
  kw! h rfl
  refine Sat.bind (parseLabelOpt_some hv hs h) ?_
  clear h
  rintro x _ ⟨ex, h⟩
  refine get_ok (ok_else (by cases x <;> simp at ex ⊢) ?_)
  sc! h hs.toSemi hnx
  es! h
  exact pure_ok ⟨by simp [bareNode, bareOptNode_eq, ex], h⟩

theorem parseBreakStmt_ok (hc : c.loop = true ∨ c.switch = true) (hs : Semi semi nx)
    (hf : (first semi nx).nl = true ∨ (∀ v, (first semi nx).c ≠ .name v)) :
    ReadsBefore parseBreakStmt bareNode c (W cs!"break" n :: semi) nx (.breakStatement none sp) := by
  intro hnx ps k rest s h
  unfold parseBreakStmt
  nm! h
  sp! h
  kw! h (semi_fits hs hnx)
  refine Sat.bind (parseLabelOpt_none hs hf h) ?_
  clear h
  rintro _ _ ⟨rfl, h⟩
  refine get_ok (ok_else (by rw [h.loop, h.switch]; rcases hc with hc | hc <;> simp [hc]) ?_)
  sc! h hs hnx
  es! h
  exact pure_ok ⟨rfl, h⟩

theorem parseBreakStmt_label (hv : Ref c v) (hs : ExprSemi semi nx) :
    ReadsBefore parseBreakStmt bareNode c (W cs!"break" n :: W v false :: semi) nx
      (.breakStatement (some (.identifier v (nameTarget c v) sp)) sp) := by
  intro hnx ps k rest s h
  unfold parseBreakStmt
  nm! h
  sp! h
  kw! h rfl
  refine Sat.bind (parseLabelOpt_some hv hs h) ?_
  clear h
  rintro x _ ⟨ex, h⟩
  refine get_ok (ok_else (by cases x <;> simp at ex ⊢) ?_)
  sc! h hs.toSemi hnx
  es! h
  exact pure_ok ⟨by simp [bareNode, bareOptNode_eq, ex], h⟩

end Giron.Complete

import Verif.Proofs.Complete.Compound
/-
Grammar completeness: `for` and `switch`.
-/
namespace Giron.Complete
open Giron M Spec Grammar Parser
variable [Env]
variable {α β : Type} {c c' : Ctx} {ps : List Giron.Params} {k : Nat} {nx : Word} {w w' w'' ws rest semi : List Word} {s : Parser}
  {v kind : Str} {n m j l f g : Bool} {r : Rec} {t o a b e d : Node}

theorem optExpr_fits {close : Punctuator} (hcl : (Content.punct close).fits .regExp = true) {x : Option Node} (h : OptExpr c ws x) :
    FitsAt .regExp (ws ++ P close n :: rest) := by
  cases h with
  | none => exact hcl
  | some h => exact (expr_fits h).append.fits

theorem optExpr_ok (hr : RecOk r) {close : Punctuator} (hcl : close = .semicolon ∨ close = .rParen) {x : Option Node} (he : OptExpr c ws x)
    (h : St c ps k (ws ++ P close n :: rest) s) :
    Ok (optExpr r close) s (fun a s' => a.map bareNode = x ∧ St c ps k (P close n :: rest) s') := by
  unfold optExpr
  refine get_ok ?_
  cases he with
  | none =>
    have ht := h.tok
    exact ok_then (by rw [ht.isP]; simp [isP]) (pure_ok ⟨rfl, h⟩)
  | some he =>
    obtain ⟨⟨x, n⟩, hx, ht⟩ := begins_tok (expr_begins he) h
    refine ok_else ?_ ?_
    · rw [ht.isP]
      rcases hcl with rfl | rfl <;> simp <;> exact startsExpr_isP hx
    · rde! (exprIn_ok hr he _ _ _ _ _ (by rcases hcl with rfl | rfl <;> exact .punct _ (by decide)) h) with y ey h
      exact pure_ok ⟨by simp [ey], h⟩

/-- The rest of a `for` statement with semicolons. -/
theorem parseForClassic_ok (hr : RecOk r) {x y z : Option Node} (hx : y.map bareNode = x) {y' z' : Option Node}
    (h1 : OptExpr c w' y') (h2 : OptExpr c w'' z') (h3 : Stmt { c with loop := true } ws nx t) (hnx : nx.c.fits .regExp = true)
    (h : St c ps (k + 1) (P .semicolon n :: (w' ++ P .semicolon l :: (w'' ++ P .rParen j :: (ws ++ nx :: rest)))) s) :
    Ok (parseForClassic r y) s (fun a s' => bareNode a = .forStatement x y' z' t sp ∧ St c ps k (nx :: rest) s') := by
  unfold parseForClassic
  eat! h (optExpr_fits rfl h1)
  rde! (optExpr_ok hr (.inl rfl) h1 h) with x1 ex1 h
  eat! h (optExpr_fits rfl h2)
  rde! (optExpr_ok hr (.inr rfl) h2 h) with x2 ex2 h
  eat! h (stmt_fits h3).append.fits
  rde! (parseLoopBody_ok hr h3 hnx h) with x3 ex3 h
  es! h
  exact pure_ok ⟨by simp [bareNode, bareOptNode_eq, hx, ex1, ex2, ex3], h⟩

/-- The rest of a `for-in` statement. -/
theorem parseForIn_ok (hr : RecOk r) {y : Node} (hy : bareNode y = a) (he : Expr { c with inn := true } w' e)
    (h3 : Stmt { c with loop := true } ws nx t) (hnx : nx.c.fits .regExp = true)
    (h : St c ps (k + 1) (W cs!"in" n :: (w' ++ P .rParen l :: (ws ++ nx :: rest))) s) :
    Ok (parseForIn r y) s (fun x s' => bareNode x = .forInStatement a e t false sp ∧ St c ps k (nx :: rest) s') := by
  unfold parseForIn
  kw! h (expr_fits he).append.fits
  rde! (exprIn_ok hr he _ _ _ _ _ .rParen h) with x1 ex1 h
  eat! h (stmt_fits h3).append.fits
  rde! (parseLoopBody_ok hr h3 hnx h) with x3 ex3 h
  es! h
  exact pure_ok ⟨by simp [bareNode, hy, ex1, ex3], h⟩

/-- The rest of a `for-of` statement. -/
theorem parseForOf_ok (hr : RecOk r) {y : Node} (hy : bareNode y = a) (he : Assign { c with inn := true } w' e)
    (h3 : Stmt { c with loop := true } ws nx t) (hnx : nx.c.fits .regExp = true)
    (h : St c ps (k + 1) (W cs!"of" n :: (w' ++ P .rParen l :: (ws ++ nx :: rest))) s) :
    Ok (parseForOf r y) s (fun x s' => bareNode x = .forOfStatement a e t sp ∧ St c ps k (nx :: rest) s') := by
  unfold parseForOf
  id! h (assign_fits he).append.fits
  rde! (init_ok hr he _ _ _ _ _ (.punct _ (by decide)) h) with x1 ex1 h
  eat! h (stmt_fits h3).append.fits
  rde! (parseLoopBody_ok hr h3 hnx h) with x3 ex3 h
  es! h
  exact pure_ok ⟨by simp [bareNode, hy, ex1, ex3], h⟩

/-! ### Heads with declarations -/

/-- More declarators, or none, before the semicolon. -/
inductive MoreDecls (c : Ctx) : List Word → List VariableDeclarator → Prop
  | none : MoreDecls c [] []
  | some {n ws ds} : Sep Declarator { c with inn := true } ws ds → MoreDecls c (P .comma n :: ws) ds

theorem more_ok (hr : RecOk r) {ds : List VariableDeclarator} (hd : MoreDecls c ws ds)
    (h : St c ps k (ws ++ P .semicolon n :: rest) s) :
    Ok (whilePunc .comma (forCommaDclr r)) s (fun xs s' => xs.map bareVariableDeclarator = ds ∧ St c ps k (P .semicolon n :: rest) s') := by
  cases hd with
  | none =>
    refine Sat.mono (whilePunc_none rfl h) ?_
    rintro _ _ ⟨rfl, h⟩
    exact ⟨rfl, h⟩
  | some hl =>
    refine whilePunc_sep (R := Declarator) (i := { c with inn := true }) (F := SAssign true) (bare := bareVariableDeclarator)
      (fun n => .punct n (by decide)) (fun _ _ h => declarator_fits h _) ?_ (.punct _ (by decide)) rfl hl h
    intro w a hw ps k n nx rest s hF h
    unfold forCommaDclr
    eat! h (declarator_fits hw _).append.fits
    exact withIn_ok (fun ps s h => parseVariableDclr_ok (c := { c with inn := true }) hr hw ps k nx rest s hF h) h

theorem moreDecls_fits {ds : List VariableDeclarator} (hd : MoreDecls c ws ds) :
    ∃ nx l, ws ++ P .semicolon n :: rest = nx :: l ∧ SAssign false nx ∧ SPat nx ∧ isP nx.c .assign = false ∧
      isKw nx.c cs!"of" = false ∧ isId nx.c cs!"of" = false ∧ isKw nx.c cs!"in" = false := by
  cases hd with
  | none => exact ⟨_, _, rfl, .punct _ (by decide), ⟨rfl, rfl⟩, rfl, rfl, rfl, rfl⟩
  | some _ => exact ⟨_, _, rfl, .punct _ (by decide), ⟨rfl, rfl⟩, rfl, rfl, rfl, rfl⟩

theorem parseForDclrs_ok (hr : RecOk r) {dd d : VariableDeclarator} {ds : List VariableDeclarator} (hdd : bareVariableDeclarator dd = d)
    (hd : MoreDecls c w ds) {y' z' : Option Node}
    (h1 : OptExpr c w' y') (h2 : OptExpr c w'' z') (h3 : Stmt { c with loop := true } ws nx t) (hnx : nx.c.fits .regExp = true)
    (h : St c ps (k + 2) (w ++ P .semicolon n :: (w' ++ P .semicolon l :: (w'' ++ P .rParen j :: (ws ++ nx :: rest)))) s) :
    Ok (parseForDclrs r kind dd) s (fun a s' => bareNode a = .forStatement (some (.variableDeclaration (d :: ds) kind sp)) y' z' t sp ∧
      St c ps k (nx :: rest) s') := by
  unfold parseForDclrs
  rde! (more_ok hr hd h) with xs ex h
  es! h
  exact parseForClassic_ok hr (z := none) (by simp [bareNode, bareListVariableDeclarator_eq, hdd, ex]) h1 h2 h3 hnx h

/-- An initialised declarator in a `for` head. -/
theorem parseForInit_ok (hr : RecOk r) {b' : Binding} {bb : Binding} {ds : List VariableDeclarator} {w0 : List Word} (hb : bareBinding b' = bb)
    (ha : Assign { c with inn := false } w0 e) (hd : MoreDecls c w ds) {y' z' : Option Node}
    (h1 : OptExpr c w' y') (h2 : OptExpr c w'' z') (h3 : Stmt { c with loop := true } ws nx t) (hnx : nx.c.fits .regExp = true)
    (h : St c ps (k + 2) (P .assign m :: (w0 ++ (w ++ P .semicolon n :: (w' ++ P .semicolon l :: (w'' ++ P .rParen j :: (ws ++ nx :: rest)))))) s) :
    Ok (parseForInit r kind b') s (fun a s' => bareNode a = .forStatement (some (.variableDeclaration (.mk bb (some e) :: ds) kind sp)) y' z' t sp ∧
      St c ps k (nx :: rest) s') := by
  unfold parseForInit
  ad! h ht (assign_fits ha).append.fits
  obtain ⟨x, l', hl, hx, -⟩ := moreDecls_fits hd (n := n) (rest := w' ++ P .semicolon l :: (w'' ++ P .rParen j :: (ws ++ nx :: rest)))
  rw [hl] at h
  rde! (withIn_ok (fun ps s h => hr.assign ha ps (k + 2) _ _ s hx h) h) with y ey h
  rw [← hl] at h
  exact parseForDclrs_ok hr (by simp [bareVariableDeclarator, bareOptNode, hb, ey]) hd h1 h2 h3 hnx h

/-- A `for` head with declarations and semicolons, after the keyword. -/
theorem forDecl_cases {dd : VariableDeclarator} (h : ForDeclarator c w dd) :
    (∃ v n, w = [W v n] ∧ Bindable c v ∧ dd = .mk (.bindingIdentifier v sp) none) ∨
    (∃ w1 b n w2 e, w = w1 ++ P .assign n :: w2 ∧ Pat c w1 b ∧ Assign { c with inn := false } w2 e ∧ dd = .mk b (some e)) := by
  cases h with
  | plain h => exact .inl ⟨_, _, rfl, h, rfl⟩
  | init h h' => exact .inr ⟨_, _, _, _, _, rfl, h, h', rfl⟩

theorem forDecl_fits {dd : VariableDeclarator} (h : ForDeclarator c w dd) : Begins (fun x => x.fits .regExp = true) w := by
  cases h with
  | plain h => exact .cons rfl
  | init h h' => exact (pat_fits _ h).append

theorem parseForVar_classic (hr : RecOk r) {dd : VariableDeclarator} {ds : List VariableDeclarator} {w0 : List Word}
    (hdd : ForDeclarator c w0 dd) (hd : MoreDecls c w ds) {y' z' : Option Node}
    (h1 : OptExpr c w' y') (h2 : OptExpr c w'' z') (h3 : Stmt { c with loop := true } ws nx t) (hnx : nx.c.fits .regExp = true)
    (h : St c ps (k + 1) (W cs!"var" m :: (w0 ++ (w ++ P .semicolon n :: (w' ++ P .semicolon l :: (w'' ++ P .rParen j :: (ws ++ nx :: rest)))))) s) :
    Ok (parseForVar r) s (fun a s' => bareNode a = .forStatement (some (.variableDeclaration (dd :: ds) cs!"var" sp)) y' z' t sp ∧
      St c ps k (nx :: rest) s') := by
  unfold parseForVar
  sp! h
  ad! h ht (forDecl_fits hdd).append.fits
  rcases forDecl_cases hdd with ⟨v, n', rfl, hv, rfl⟩ | ⟨w1, b, n', w2, e, rfl, hp, ha, rfl⟩
  · obtain ⟨x, l', hl, hx, hx1, hx2, hx3, hx4, hx5⟩ := moreDecls_fits hd (n := n) (rest := w' ++ P .semicolon l :: (w'' ++ P .rParen j :: (ws ++ nx :: rest)))
    rw [hl] at h
    rde! (hr.pat (.name hv) _ _ _ _ _ hx1 h) with y ey h
    obtain ⟨s', rfl⟩ := bare_bindingId ey
    lk! h ht
    rw [← hl] at h
    refine ok_else (by rw [ht.isP, hx2]; simp) (ok_else (by rw [ht.isKw, hx3]; simp) (ok_else (by rw [ht.isKw, hx5]; simp) ?_))
    exact parseForDclrs_ok hr (by simp [bareVariableDeclarator, bareOptNode, bareBinding]) hd h1 h2 h3 hnx h
  · nm! h
    rde! (hr.pat hp _ _ _ _ _ ⟨rfl, rfl⟩ h) with y ey h
    lk! h ht
    refine ok_then (by tk ht) ?_
    exact parseForInit_ok hr ey ha hd h1 h2 h3 hnx h

theorem parseForKind_ok (hk : kind = cs!"let" ∨ kind = cs!"const") (h : St c ps k (W kind m :: rest) s) :
    Ok parseForKind s (fun x s' => x = kind ∧ St c ps k (W kind m :: rest) s') := by
  unfold parseForKind
  lk! h ht
  rcases hk with rfl | rfl
  · exact ok_else (by tk ht) (ok_then (by tk ht [plain, wordy]) (pure_ok ⟨rfl, h⟩))
  · exact ok_then (by tk ht) (pure_ok ⟨rfl, h⟩)

theorem parseForLexical_classic (hr : RecOk r) {dd : VariableDeclarator} {ds : List VariableDeclarator} {w0 : List Word}
    (hk : kind = cs!"let" ∨ kind = cs!"const")
    (hdd : ForDeclarator c w0 dd) (hd : MoreDecls c w ds) {y' z' : Option Node}
    (h1 : OptExpr c w' y') (h2 : OptExpr c w'' z') (h3 : Stmt { c with loop := true } ws nx t) (hnx : nx.c.fits .regExp = true)
    (h : St c ps (k + 1) (W kind m :: (w0 ++ (w ++ P .semicolon n :: (w' ++ P .semicolon l :: (w'' ++ P .rParen j :: (ws ++ nx :: rest)))))) s) :
    Ok (parseForLexical r) s (fun a s' => bareNode a = .forStatement (some (.variableDeclaration (dd :: ds) kind sp)) y' z' t sp ∧
      St c ps k (nx :: rest) s') := by
  unfold parseForLexical
  sp! h
  refine Sat.bind (parseForKind_ok hk h) ?_
  clear h
  rintro _ _ ⟨rfl, h⟩
  ad! h ht (forDecl_fits hdd).append.fits
  refine get_ok ?_
  rcases forDecl_cases hdd with ⟨v, n', rfl, hv, rfl⟩ | ⟨w1, b, n', w2, e, rfl, hp, ha, rfl⟩
  · obtain ⟨x, l', hl, hx, hx1, hx2, hx3, hx4, hx5⟩ := moreDecls_fits hd (n := n) (rest := w' ++ P .semicolon l :: (w'' ++ P .rParen j :: (ws ++ nx :: rest)))
    rw [hl] at h
    rde! (hr.pat (.name hv) _ _ _ _ _ hx1 h) with y ey h
    obtain ⟨s', rfl⟩ := bare_bindingId ey
    lk! h ht
    rw [← hl] at h
    refine ok_else (by rw [ht.isP, hx2]; simp) (ok_else (by rw [ht.isKw, hx5]; simp) (ok_else (by rw [ht.isId, hx4]; simp) ?_))
    exact parseForDclrs_ok hr (by simp [bareVariableDeclarator, bareOptNode, bareBinding]) hd h1 h2 h3 hnx h
  · nm! h
    rde! (hr.pat hp _ _ _ _ _ ⟨rfl, rfl⟩ h) with y ey h
    lk! h ht
    refine ok_then (by tk ht) ?_
    exact parseForInit_ok hr ey ha hd h1 h2 h3 hnx h

/-! ### Heads with `in` and `of` -/

theorem toNode_bare {bb b' : Binding} (h : bareBinding b' = bb) (hn : bb.toNode = .ok a) : ∃ y, b'.toNode = .ok y ∧ bareNode y = a := by
  subst h
  cases b' <;> simp [bareBinding, Binding.toNode] at hn
  · subst hn; exact ⟨_, rfl, rfl⟩
  · subst hn; exact ⟨_, rfl, rfl⟩
  · subst hn; exact ⟨_, rfl, rfl⟩

theorem ofExcept_ok {x : Node} {y : Except Fail Node} (hy : y = .ok x) {f : Node → PM α} {Q : α → Parser → Prop} (h : Ok (f x) s Q) :
    Ok (ofExcept y >>= f) s Q := by
  subst hy; exact h

theorem parseForVar_in (hr : RecOk r) {bb : Binding} (hp : Pat c w bb) (hn : bb.toNode = .ok a) (he : Expr { c with inn := true } w' e)
    (h3 : Stmt { c with loop := true } ws nx t) (hnx : nx.c.fits .regExp = true)
    (h : St c ps (k + 1) (W cs!"var" m :: (w ++ W cs!"in" n :: (w' ++ P .rParen l :: (ws ++ nx :: rest)))) s) :
    Ok (parseForVar r) s (fun x s' => bareNode x = .forInStatement a e t false sp ∧ St c ps k (nx :: rest) s') := by
  unfold parseForVar
  sp! h
  ad! h ht (pat_fits _ hp).append.fits
  rde! (hr.pat hp _ _ _ _ _ ⟨rfl, rfl⟩ h) with y ey h
  obtain ⟨z, ez, ez'⟩ := toNode_bare ey hn
  lk! h ht
  refine ok_else (by tk ht) (ok_else (by tk ht) (ok_then (by tk ht) (ofExcept_ok ez ?_)))
  exact parseForIn_ok hr ez' he h3 hnx (h.mono (by omega))

theorem parseForLexical_in (hr : RecOk r) {bb : Binding} (hk : kind = cs!"let" ∨ kind = cs!"const")
    (hp : Pat c w bb) (hn : bb.toNode = .ok a) (he : Expr { c with inn := true } w' e)
    (h3 : Stmt { c with loop := true } ws nx t) (hnx : nx.c.fits .regExp = true)
    (h : St c ps (k + 1) (W kind m :: (w ++ W cs!"in" n :: (w' ++ P .rParen l :: (ws ++ nx :: rest)))) s) :
    Ok (parseForLexical r) s (fun x s' => bareNode x = .forInStatement a e t false sp ∧ St c ps k (nx :: rest) s') := by
  unfold parseForLexical
  sp! h
  refine Sat.bind (parseForKind_ok hk h) ?_
  clear h
  rintro _ _ ⟨rfl, h⟩
  ad! h ht (pat_fits _ hp).append.fits
  refine get_ok ?_
  rde! (hr.pat hp _ _ _ _ _ ⟨rfl, rfl⟩ h) with y ey h
  obtain ⟨z, ez, ez'⟩ := toNode_bare ey hn
  lk! h ht
  refine ok_else (by tk ht) (ok_then (by tk ht) (ofExcept_ok ez ?_))
  exact parseForIn_ok hr ez' he h3 hnx (h.mono (by omega))

theorem parseForLexical_of (hr : RecOk r) {bb : Binding} (hk : kind = cs!"let" ∨ kind = cs!"const")
    (hp : Pat c w bb) (hn : bb.toNode = .ok a) (he : Assign { c with inn := true } w' e)
    (h3 : Stmt { c with loop := true } ws nx t) (hnx : nx.c.fits .regExp = true)
    (h : St c ps (k + 1) (W kind m :: (w ++ W cs!"of" n :: (w' ++ P .rParen l :: (ws ++ nx :: rest)))) s) :
    Ok (parseForLexical r) s (fun x s' => bareNode x = .forOfStatement a e t sp ∧ St c ps k (nx :: rest) s') := by
  unfold parseForLexical
  sp! h
  refine Sat.bind (parseForKind_ok hk h) ?_
  clear h
  rintro _ _ ⟨rfl, h⟩
  ad! h ht (pat_fits _ hp).append.fits
  refine get_ok ?_
  rde! (hr.pat hp _ _ _ _ _ ⟨rfl, rfl⟩ h) with y ey h
  obtain ⟨z, ez, ez'⟩ := toNode_bare ey hn
  lk! h ht
  refine ok_else (by tk ht) (ok_else (by tk ht) (ok_then (by tk ht [plain, wordy]) (ofExcept_ok ez ?_)))
  exact parseForOf_ok hr ez' he h3 hnx (h.mono (by omega))

/-! ### Heads with expressions -/

/-- More expressions, or none, before the semicolon. -/
inductive MoreExprs (c : Ctx) : List Word → List Node → Prop
  | none : MoreExprs c [] []
  | some {n ws ds} : Sep Assign { c with inn := true } ws ds → MoreExprs c (P .comma n :: ws) ds

theorem moreExprs_ok (hr : RecOk r) {ds : List Node} (hd : MoreExprs c ws ds)
    (h : St c ps k (ws ++ P .semicolon n :: rest) s) :
    Ok (whilePunc .comma (forCommaExpr r)) s (fun xs s' => xs.map bareNode = ds ∧ St c ps k (P .semicolon n :: rest) s') := by
  cases hd with
  | none =>
    refine Sat.mono (whilePunc_none rfl h) ?_
    rintro _ _ ⟨rfl, h⟩
    exact ⟨rfl, h⟩
  | some hl =>
    refine whilePunc_sep (R := Assign) (i := { c with inn := true }) (F := SAssign true) (bare := bareNode)
      (fun n => .punct n (by decide)) (fun _ _ h => assign_fits h) ?_ (.punct _ (by decide)) rfl hl h
    intro w a hw ps k n nx rest s hF h
    unfold forCommaExpr
    eat! h (assign_fits hw).append.fits
    exact init_ok hr hw _ _ _ _ _ hF h

theorem moreExprs_fits {ds : List Node} (hd : MoreExprs c ws ds) :
    ∃ nx l, ws ++ P .semicolon n :: rest = nx :: l ∧ SAssign false nx ∧ isKw nx.c cs!"of" = false ∧ isKw nx.c cs!"in" = false := by
  cases hd with
  | none => exact ⟨_, _, rfl, .punct _ (by decide), rfl, rfl⟩
  | some _ => exact ⟨_, _, rfl, .punct _ (by decide), rfl, rfl⟩

theorem parseForExpr_none (hr : RecOk r) {y' z' : Option Node}
    (h1 : OptExpr c w' y') (h2 : OptExpr c w'' z') (h3 : Stmt { c with loop := true } ws nx t) (hnx : nx.c.fits .regExp = true)
    (h : St c ps (k + 1) (P .semicolon n :: (w' ++ P .semicolon l :: (w'' ++ P .rParen j :: (ws ++ nx :: rest)))) s) :
    Ok (parseForExpr r) s (fun a s' => bareNode a = .forStatement none y' z' t sp ∧ St c ps k (nx :: rest) s') := by
  unfold parseForExpr
  sp! h
  lk! h ht
  refine ok_then (by tk ht) ?_
  exact parseForClassic_ok hr (z := none) rfl h1 h2 h3 hnx (h.mono (by omega))

theorem parseForExpr_some (hr : RecOk r) {y' z' : Option Node} {w0 : List Word} {ds : List Node}
    (ha : Assign { c with inn := false } w0 e) (hd : MoreExprs c w ds)
    (h1 : OptExpr c w' y') (h2 : OptExpr c w'' z') (h3 : Stmt { c with loop := true } ws nx t) (hnx : nx.c.fits .regExp = true)
    (h : St c ps (k + 1) (w0 ++ (w ++ P .semicolon n :: (w' ++ P .semicolon l :: (w'' ++ P .rParen j :: (ws ++ nx :: rest))))) s) :
    Ok (parseForExpr r) s (fun a s' => bareNode a = .forStatement (some (.sequenceExpression (e :: ds) .invalid sp)) y' z' t sp ∧
      St c ps k (nx :: rest) s') := by
  unfold parseForExpr
  sp! h
  refine get_ok ?_
  obtain ⟨⟨x, n'⟩, hx, ht⟩ := begins_tok (assign_begins ha) h
  refine ok_else (by rw [ht.isP, startsExpr_isP hx]; simp) ?_
  clear ht
  obtain ⟨x, l', hl, hx, hx1, hx2⟩ := moreExprs_fits hd (n := n) (rest := w' ++ P .semicolon l :: (w'' ++ P .rParen j :: (ws ++ nx :: rest)))
  rw [hl] at h
  rde! (withIn_ok (fun ps s h => hr.assign ha ps (k + 2) _ _ s hx h) h) with y ey h
  lk! h ht
  rw [← hl] at h
  refine ok_else (by rw [ht.isKw, hx2]; simp) (ok_else (by rw [ht.isKw, hx1]; simp) ?_)
  rde! (moreExprs_ok hr hd h) with xs ex h
  es! h
  exact parseForClassic_ok hr (z := none) (by simp [bareNode, bareListNode_eq, ey, ex]) h1 h2 h3 hnx h

theorem forTarget_self {y : Node} (hy : isTarget (bareNode y) = true) : forTarget y = .ok y := by
  cases y <;> simp [bareNode, isTarget] at hy <;> rfl

theorem parseForExpr_in (hr : RecOk r) (hl : LHS f { c with inn := false } w a) (hs : a.assignTargetType = .simple)
    (he : Expr { c with inn := true } w' e)
    (h3 : Stmt { c with loop := true } ws nx t) (hnx : nx.c.fits .regExp = true)
    (h : St c ps (k + 1) (w ++ W cs!"in" n :: (w' ++ P .rParen l :: (ws ++ nx :: rest))) s) :
    Ok (parseForExpr r) s (fun x s' => bareNode x = .forInStatement a e t false sp ∧ St c ps k (nx :: rest) s') := by
  have ha : Assign { c with inn := false } w a := .cond (.bin (bin_of_lhs hl))
  unfold parseForExpr
  sp! h
  refine get_ok ?_
  obtain ⟨⟨x, n'⟩, hx, ht⟩ := begins_tok (assign_begins ha) h
  refine ok_else (by rw [ht.isP, startsExpr_isP hx]; simp) ?_
  clear ht
  rde! (withIn_ok (fun ps s h => hr.assign ha ps (k + 2) _ _ s (SExpr.name _ rfl).toSAssign h) h) with y ey h
  lk! h ht
  refine ok_then (by tk ht) ?_
  have htg : isTarget (bareNode y) = true := by rw [ey]; exact lhs_targets hl hs
  refine Sat.bind (P := fun z s' => z = y ∧ St c ps (k + 1) (W cs!"in" n :: (w' ++ P .rParen l :: (ws ++ nx :: rest))) s') ?_ ?_
  · unfold parseForTarget
    es! h
    refine ofExcept_ok (forTarget_self htg) ?_
    rw [← ey, att_bare] at hs
    exact ok_else (by rw [hs]; simp) (pure_ok ⟨rfl, h⟩)
  · clear h
    rintro _ _ ⟨rfl, h⟩
    exact parseForIn_ok hr ey he h3 hnx h

/-! ### `for` statements -/

theorem exprStart_lexical {x : Content} (h : startsExpr x = true) (h' : exprStart x = true) :
    isKw x cs!"var" = false ∧ oneOf x [cs!"let", cs!"const"] = false := by
  refine ⟨startsExpr_isKw h, ?_⟩
  cases x with
  | name v =>
    simp only [exprStart, decide_eq_true_eq, List.mem_cons, List.not_mem_nil, or_false, not_or] at h'
    simp only [startsExpr, Bool.or_eq_true, decide_eq_true_eq] at h
    simp only [oneOf, Bool.and_eq_false_iff, decide_eq_false_iff_not, List.mem_cons, List.not_mem_nil, or_false, not_or]
    right
    refine ⟨h'.2.2.1, ?_⟩
    rintro rfl
    rcases h with h | h
    · exact h (by decide)
    · exact absurd h (by decide)
  | _ => rfl

theorem varKinds_cases (h : kind ∈ varKinds) : kind = cs!"var" ∨ kind = cs!"let" ∨ kind = cs!"const" := by
  simpa [varKinds] using h

theorem lexical_kind (hk : kind = cs!"let" ∨ kind = cs!"const") : isKw (.name kind) cs!"var" = false ∧ isIdOrKw (.name kind) = true ∧
    oneOf (.name kind) [cs!"let", cs!"const"] = true := by
  rcases hk with rfl | rfl <;> exact ⟨rfl, rfl, rfl⟩

/-- The branches of `parseForStmt`. -/
theorem forStmt_var {Q : Node → Parser → Prop} (h : St c ps k (W cs!"for" n :: P .lParen m :: W cs!"var" j :: rest) s)
    (hf : ∀ s', St c ps (k + 1) (W cs!"var" j :: rest) s' → Ok (parseForVar r) s' Q) : Ok (parseForStmt r) s Q := by
  unfold parseForStmt
  sp! h
  kw! h rfl
  eat! h rfl
  lk! h ht
  exact ok_then (by tk ht) (hf _ h)

theorem forStmt_lexical {Q : Node → Parser → Prop} (hk : kind = cs!"let" ∨ kind = cs!"const")
    (h : St c ps k (W cs!"for" n :: P .lParen m :: W kind j :: rest) s)
    (hf : ∀ s', St c ps (k + 1) (W kind j :: rest) s' → Ok (parseForLexical r) s' Q) : Ok (parseForStmt r) s Q := by
  unfold parseForStmt
  sp! h
  kw! h rfl
  eat! h rfl
  lk! h ht
  have := lexical_kind hk
  exact ok_else (by rw [ht.isKw, this.1]; simp) (ok_then ⟨by rw [ht.isIdOrKw, this.2.1], by rw [ht.isLexicalDclrKw, this.2.2]⟩ (hf _ h))

theorem forStmt_expr {Q : Node → Parser → Prop}
    (hw : Begins (fun x => x.fits .regExp = true ∧ isKw x cs!"var" = false ∧ oneOf x [cs!"let", cs!"const"] = false) ws)
    (h : St c ps k (W cs!"for" n :: P .lParen m :: ws) s)
    (hf : ∀ s', St c ps (k + 1) ws s' → Ok (parseForExpr r) s' Q) : Ok (parseForStmt r) s Q := by
  unfold parseForStmt
  sp! h
  kw! h rfl
  eat! h (hw.mono fun _ h => h.1).fits
  obtain ⟨⟨x, n'⟩, w', rfl, hx⟩ := hw
  lk! h ht
  exact ok_else (by rw [ht.isKw, hx.2.1]; simp) (ok_else (by rw [ht.isLexicalDclrKw, hx.2.2]; simp) (hf _ h))

theorem exprHead (ha : Assign c w e) (hs : exprStart (first w (P .semicolon true)).c = true) :
    Begins (fun x => x.fits .regExp = true ∧ isKw x cs!"var" = false ∧ oneOf x [cs!"let", cs!"const"] = false) w := by
  obtain ⟨x, w', rfl, hx⟩ := assign_begins ha
  exact .cons ⟨startsExpr_fits hx, exprStart_lexical hx hs⟩

theorem parseForStmt_classic (hr : RecOk r) {x y z : Option Node} {l' : Bool} (h0 : ForInit c w x)
    (h1 : OptExpr c w' y) (h2 : OptExpr c w'' z) (h3 : Stmt { c with loop := true } ws nx t) :
    ReadsBefore (parseForStmt r) bareNode c
      (W cs!"for" n :: P .lParen m :: (w ++ P .semicolon j :: (w' ++ P .semicolon l :: (w'' ++ P .rParen l' :: ws))))
      nx (.forStatement x y z t sp) := by
  intro hnx ps k rest s h
  nm! h
  cases h0 with
  | none => exact forStmt_expr (.cons ⟨rfl, rfl, rfl⟩) h fun s h => parseForExpr_none hr h1 h2 h3 hnx h
  | exprs ha hs =>
    exact forStmt_expr (exprHead ha hs).append h fun s h => parseForExpr_some (w := []) hr ha .none h1 h2 h3 hnx h
  | @exprsMore _ w0 e wx es n' ha hs hl =>
    exact forStmt_expr (exprHead ha hs).append.append h fun s h => by
      nm! h
      exact parseForExpr_some (w := P .comma n' :: wx) hr ha (.some hl) h1 h2 h3 hnx h
  | decl hk hd =>
    rcases varKinds_cases hk with rfl | hk
    · exact forStmt_var h fun s h => parseForVar_classic (w := []) hr hd .none h1 h2 h3 hnx h
    · exact forStmt_lexical hk h fun s h => parseForLexical_classic (w := []) hr hk hd .none h1 h2 h3 hnx h
  | decls hk hd hl =>
    rcases varKinds_cases hk with rfl | hk
    · exact forStmt_var h fun s h => by
        simp only [List.append_eq, List.append_assoc, List.cons_append] at h
        exact parseForVar_classic (w := P .comma _ :: _) hr hd (.some hl) h1 h2 h3 hnx h
    · exact forStmt_lexical hk h fun s h => by
        simp only [List.append_eq, List.append_assoc, List.cons_append] at h
        exact parseForLexical_classic (w := P .comma _ :: _) hr hk hd (.some hl) h1 h2 h3 hnx h

theorem parseForStmt_in (hr : RecOk r) (h0 : ForTarget c w a) (he : Expr { c with inn := true } w' e) (h3 : Stmt { c with loop := true } ws nx t) :
    ReadsBefore (parseForStmt r) bareNode c
      (W cs!"for" n :: P .lParen m :: (w ++ W cs!"in" j :: (w' ++ P .rParen l :: ws))) nx (.forInStatement a e t false sp) := by
  intro hnx ps k rest s h
  nm! h
  cases h0 with
  | expr hl hs hst =>
    exact forStmt_expr (exprHead (.cond (.bin (bin_of_lhs hl))) hst).append h fun s h => parseForExpr_in hr hl hs he h3 hnx h
  | decl hk hp hn =>
    rcases varKinds_cases hk with rfl | hk
    · exact forStmt_var h fun s h => parseForVar_in hr hp hn he h3 hnx h
    · exact forStmt_lexical hk h fun s h => parseForLexical_in hr hk hp hn he h3 hnx h

theorem parseForStmt_of (hr : RecOk r) {bb : Binding} {o : Bool} (hk : kind = cs!"let" ∨ kind = cs!"const") (hp : Pat c w bb) (hn : bb.toNode = .ok a)
    (he : Assign { c with inn := true } w' e) (h3 : Stmt { c with loop := true } ws nx t) :
    ReadsBefore (parseForStmt r) bareNode c
      (W cs!"for" n :: P .lParen m :: W kind o :: (w ++ W cs!"of" j :: (w' ++ P .rParen l :: ws))) nx (.forOfStatement a e t sp) := by
  intro hnx ps k rest s h
  nm! h
  exact forStmt_lexical hk h fun s h => parseForLexical_of hr hk hp hn he h3 hnx h

end Giron.Complete

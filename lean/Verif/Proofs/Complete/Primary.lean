import Verif.Proofs.Complete.Class
/-
Grammar completeness: primary expressions.
-/
namespace Giron.Complete
open Giron M Spec Grammar Parser
variable [Env]
variable {α β : Type} {c c' : Ctx} {ps : List Giron.Params} {k : Nat} {w nx : Word} {ws rest l l' : List Word} {s : Parser}
  {v : Str} {n : Bool} {r : Rec} {t : Node}

/-- What may follow a primary expression. -/
structure SPrim (w : Word) : Prop where
  fit : w.c.fits .div = true
  arrow : isP w.c .fatArrow = false

theorem SMember.prim (h : SMember nx) : SPrim nx := ⟨h.fit, h.arrow⟩

theorem expr_fits (h : Expr c ws t) : Begins (fun x => x.fits .regExp = true) ws :=
  (expr_begins h).mono fun _ => startsExpr_fits

theorem loop_ok {f : Nat → PM α} {Q : α → Parser → Prop} (h : ∀ n, Ok (f n) s Q) : Ok (fun s => f (s.size + 1) s) s Q := h _

/-! ### Templates -/

theorem Tok.templateOf {raw cooked : Str} {hd tl : Bool} {x : Token} (h : Tok ⟨.template raw cooked hd tl, n⟩ x)
    {Q : TemplateElement → Parser → Prop} (hq : Q ⟨cooked, raw, tl⟩ s) : Ok (templateElementOf x) s Q := by
  obtain ⟨l, k, i, j, rfl⟩ := h
  exact hq

theorem withExpr_ok (hr : RecOk r) (he : Expr { c with inn := true } ws t) :
    Reads (withIn true (parseExpression r)) bareNode c 0 0 ws t (SExpr true) := by
  intro ps k nx rest s hnx h
  exact withIn_ok (fun ps s h => parseExpression_ok hr he ps k nx rest s hnx h) h

theorem St.template_fits {raw cooked : Str} {hd tl : Bool} (h : St c ps k (⟨.template raw cooked hd tl, n⟩ :: l) s)
    (hl : l ≠ []) : FitsAt .div l := by
  cases l with
  | nil => exact absurd rfl hl
  | cons x l => exact fits_template h.clash2

theorem parseTemplateElement_ok {raw cooked : Str} {hd tl : Bool} (h : St c ps k (⟨.template raw cooked hd tl, n⟩ :: l) s)
    (hl : l ≠ []) : Ok parseTemplateElement s (fun q s' => q = ⟨cooked, raw, tl⟩ ∧ St c ps k l s') := by
  unfold parseTemplateElement
  lk! h ht
  refine ok_then (by tk ht) ?_
  ad! h ht (h.template_fits hl)
  exact ht.templateOf ⟨rfl, h⟩

theorem parseTemplateHead_ok {raw cooked : Str} {tl : Bool} (h : St c ps k (⟨.template raw cooked true tl, n⟩ :: l) s)
    (hl : l ≠ []) : Ok parseTemplateHead s (fun q s' => q = ⟨cooked, raw, tl⟩ ∧ St c ps k l s') := by
  unfold parseTemplateHead
  lk! h ht
  refine ok_then (by tk ht) (ok_then ?_ ?_)
  · obtain ⟨l, k, i, j, rfl⟩ := ht; rfl
  ad! h ht (h.template_fits hl)
  exact ht.templateOf ⟨rfl, h⟩

theorem templateLoopF_ok (hr : RecOk r) {raw cooked : Str} (m : Nat) :
    ∀ {ws ws' l e s}, Star Middle { c with inn := true } ws l → Expr { c with inn := true } ws' e →
    St c ps k (ws ++ (ws' ++ ⟨.template raw cooked false true, n⟩ :: nx :: rest)) s →
    Ok (templateLoopF r m false) s (fun x s' => (x.1 = l.map Prod.snd ++ [⟨cooked, raw, true⟩] ∧
      x.2.map bareNode = l.map Prod.fst ++ [e]) ∧ St c ps k (nx :: rest) s') := by
  induction m with
  | zero => intro _ _ _ _ _ _ _ _; exact rfl
  | succ m ih =>
    intro ws ws' l e s hl he h
    unfold templateLoopF
    refine ok_else (by simp) ?_
    cases hl with
    | nil =>
      nm! h
      rd! (withExpr_ok hr he _ _ _ _ _ (.template n) h) with a h
      rd! (parseTemplateElement_ok h (by simp)) with q h
      refine Sat.bind (P := fun x s' => x = ([], []) ∧ St c ps k (nx :: rest) s') ?_ ?_
      · cases m with
        | zero => exact rfl
        | succ m =>
          unfold templateLoopF
          exact ok_then rfl (pure_ok ⟨rfl, h⟩)
      · rintro _ _ ⟨rfl, h⟩
        exact pure_ok ⟨⟨rfl, rfl⟩, h⟩
    | cons hm hl =>
      cases hm with
      | mk hx =>
        nm! h
        rd! (withExpr_ok hr hx _ _ _ _ _ (.template _) h) with a h
        rd! (parseTemplateElement_ok h (by simp)) with q h
        refine Sat.bind (ih hl he h) ?_
        rintro ⟨qs, es⟩ _ ⟨⟨e1, e2⟩, h⟩
        exact pure_ok ⟨⟨by simpa using e1, by simpa using e2⟩, h⟩

theorem parseTemplateParts_ok (hr : RecOk r) {qs : List TemplateElement} {es : List Node} (ht : Template c ws qs es) :
    Reads (parseTemplateParts r) (fun x => (x.1, x.2.1.map bareNode)) c 0 0 ws (qs, es) (fun _ => True) := by
  intro ps k nx rest s _ h
  unfold parseTemplateParts
  sp! h
  cases ht with
  | whole _ =>
    nm! h
    rd! (parseTemplateHead_ok h (by simp)) with q h
    refine Sat.bind (P := fun x s' => x = ([], []) ∧ St c ps (k + 1) (nx :: rest) s') ?_ ?_
    · refine loop_ok (f := fun n => templateLoopF r n true) fun n => ?_
      cases n with
      | zero => exact rfl
      | succ n =>
      unfold templateLoopF
      exact ok_then rfl (pure_ok ⟨rfl, h⟩)
    · clear h
      rintro _ _ ⟨rfl, h⟩
      es! h
      exact pure_ok ⟨rfl, h⟩
  | @parts _ raw ws l ws' e cooked n raw' cooked' m _ hl he =>
    nm! h
    rd! (parseTemplateHead_ok h (by simp)) with q h
    refine Sat.bind (P := fun x s' => (x.1 = l.map Prod.snd ++ [⟨cooked', raw', true⟩] ∧
      x.2.map bareNode = l.map Prod.fst ++ [e]) ∧ St c ps (k + 1) (nx :: rest) s') (templateLoopF_ok hr _ hl he h) ?_
    clear h
    rintro ⟨qs, es⟩ _ ⟨⟨e1, e2⟩, h⟩
    es! h
    dsimp only at e1 e2
    exact pure_ok ⟨by simp [e1, e2], h⟩

theorem parseTemplateLiteral_ok (hr : RecOk r) {qs : List TemplateElement} {es : List Node} (ht : Template c ws qs es) :
    Reads (parseTemplateLiteral r) bareNode c 0 0 ws (.templateLiteral qs es .invalid sp) (fun _ => True) := by
  intro ps k nx rest s _ h
  unfold parseTemplateLiteral
  rde! (parseTemplateParts_ok hr ht _ _ _ _ _ trivial h) with x e h
  simp only [Prod.mk.injEq] at e
  exact pure_ok ⟨by simp [bareNode, bareListNode_eq, e], h⟩

theorem parseTaggedTemplate_ok (hr : RecOk r) {qs : List TemplateElement} {es : List Node} (ht : Template c ws qs es) (a : Node) :
    Reads (parseTaggedTemplate r a) bareNode c 0 0 ws (.taggedTemplateExpression (bareNode a) qs es sp) (fun _ => True) := by
  intro ps k nx rest s _ h
  unfold parseTaggedTemplate
  rde! (parseTemplateParts_ok hr ht _ _ _ _ _ trivial h) with x e h
  simp only [Prod.mk.injEq] at e
  exact pure_ok ⟨by simp [bareNode, bareListNode_eq, e], h⟩

/-! ### Functions -/

theorem asyncSpan_ok {a : Bool} (h : St c ps (k + if a then 1 else 0) ws s) :
    Ok (when (a = false) startSpan) s (fun _ s' => St c ps (k + 1) ws s') := by
  cases a
  · exact startSpan_ok h
  · exact h

theorem parseFunctionExpr_ok (hr : RecOk r) {ws' : List Word} {es : List FunctionParameter} {b : Node}
    (a : Bool) (hp : Grammar.Params c ws es) (hb : Body { c with ret := true } ws' b) :
    Reads (parseFunctionExpr r a) bareNode c (if a then 1 else 0) 0 (W cs!"function" n :: (ws ++ ws'))
      (.functionExpression none es b false false a .invalid sp) (fun _ => True) := by
  intro ps k nx rest s _ h
  unfold parseFunctionExpr
  nm! h
  refine Sat.bind (asyncSpan_ok h) ?_
  clear h
  rintro _ _ h
  obtain ⟨⟨x, j⟩, w', e, rfl⟩ := params_begins hp
  obtain ⟨⟨x, j'⟩, w'', e', rfl⟩ := body_begins hb
  kw! h (by rw [e]; rfl)
  have h1 := h
  rw [e] at h1
  have ht := h1.tok
  refine get_ok ?_
  refine Sat.bind (P := fun a s' => a = none ∧ St c ps (k + 1) (ws ++ (ws' ++ nx :: rest)) s')
    (ok_then (by tk ht) (pure_ok ⟨rfl, h⟩)) ?_
  clear h
  rintro _ _ ⟨rfl, h⟩
  have hl : ws' ++ nx :: rest = ⟨.punct .lBrace, j'⟩ :: (w'' ++ nx :: rest) := by rw [e']; rfl
  rw [hl] at h
  rde! (parseFormalParams_ok hr hp _ _ _ _ _ rfl h) with xs exs h
  rw [← hl] at h
  rde! (parseFunctionBody_ok hr hb _ _ _ _ _ trivial h) with y ey h
  es! h
  refine pure_ok ⟨?_, h⟩
  simp [bareNode, bareListFunctionParameter_eq, exs, ey, bareOptNode, ht.matchesStr, says]

theorem parseFunctionExpr_named (hr : RecOk r) {ws' : List Word} {es : List FunctionParameter} {b : Node} {m : Bool}
    (a : Bool) (hv : Ref c v) (hp : Grammar.Params c ws es) (hb : Body { c with ret := true } ws' b) :
    Reads (parseFunctionExpr r a) bareNode c (if a then 1 else 0) 0 (W cs!"function" n :: W v m :: (ws ++ ws'))
      (.functionExpression (some (.identifier v (nameTarget c v) sp)) es b false false a .invalid sp) (fun _ => True) := by
  intro ps k nx rest s _ h
  unfold parseFunctionExpr
  nm! h
  refine Sat.bind (asyncSpan_ok h) ?_
  clear h
  rintro _ _ h
  obtain ⟨⟨x, j⟩, w', e, rfl⟩ := params_begins hp
  obtain ⟨⟨x, j'⟩, w'', e', rfl⟩ := body_begins hb
  kw! h rfl
  have ht := h.tok
  refine get_ok ?_
  have hl1 : ws ++ (ws' ++ nx :: rest) = ⟨.punct .lParen, j⟩ :: (w' ++ (ws' ++ nx :: rest)) := by rw [e]; rfl
  refine Sat.bind (P := fun a s' => a.map bareNode = some (.identifier v (nameTarget c v) sp) ∧ St c ps (k + 1) (ws ++ (ws' ++ nx :: rest)) s')
    (ok_else (by tk ht) ?_) ?_
  · rw [hl1] at h ⊢
    rde! (parseIdReference_ok hv _ _ _ _ _ rfl h) with a e h
    exact pure_ok ⟨by simp [e], h⟩
  clear h
  rintro a _ ⟨ea, h⟩
  have hl : ws' ++ nx :: rest = ⟨.punct .lBrace, j'⟩ :: (w'' ++ nx :: rest) := by rw [e']; rfl
  rw [hl] at h
  rde! (parseFormalParams_ok hr hp _ _ _ _ _ rfl h) with xs exs h
  rw [← hl] at h
  rde! (parseFunctionBody_ok hr hb _ _ _ _ _ trivial h) with y ey h
  es! h
  refine pure_ok ⟨?_, h⟩
  simp [bareNode, bareListFunctionParameter_eq, exs, ey, bareOptNode_eq, ea, Tok.punctuator ht]

/-! ### Lists in brackets -/

theorem arg_begins {e : ArgumentListElement} (h : Arg c ws e) : Begins (ItemStart .rParen) ws := by
  cases h with
  | expr h => exact (assign_begins h).mono fun _ h => (ItemStart.of_expr h).1
  | spread _ => exact .cons ⟨rfl, rfl, rfl⟩

theorem argument_ok (hr : RecOk r) : ReadsItem .rParen (argument r) bareArgumentListElement c (Arg c) := by
  have hc : IsClose .rParen := .inr (.inr rfl)
  intro w a ha ps k l l' s hl h
  unfold argument
  obtain ⟨nx, rest, e', hsep⟩ := hl.split
  refine get_ok ?_
  cases ha with
  | expr ha =>
    obtain ⟨⟨x, n⟩, hx, ht⟩ := begins_tok (assign_begins ha) h
    refine ok_else (by rw [ht.isP, startsExpr_isP hx]; simp) ?_
    rw [e'] at h
    rd! (init_ok hr ha _ _ _ _ _ (hsep.assign hc) h) with a h
    rw [← e'] at h
    refine Sat.bind (commaUnless_ok (by decide) hl h) ?_
    rintro _ _ h
    exact pure_ok ⟨rfl, h⟩
  | spread ha =>
    nm! h
    have ht := h.tok
    refine ok_then (by tk ht) ?_
    sp! h
    ad! h ht (assign_fits ha).append.fits
    rw [e'] at h
    rd! (init_ok hr ha _ _ _ _ _ (hsep.assign hc) h) with a h
    rw [← e'] at h
    es! h
    refine Sat.bind (commaUnless_ok (by decide) hl h) ?_
    rintro _ _ h
    exact pure_ok ⟨rfl, h⟩

theorem parseArguments_ok (hr : RecOk r) {es : List ArgumentListElement} (h : Args c ws es) :
    Reads (parseArguments r) (List.map bareArgumentListElement) c 0 0 ws es (fun nx => nx.c.fits .div = true) := by
  intro ps k nx rest s hnx h'
  cases h with
  | mk h =>
    unfold parseArguments
    nm! h'
    eat! h' (commas_fits rfl (fun _ _ h => arg_begins h) h)
    rde! (untilPunc_commas rfl (fun _ _ h => arg_begins h) (argument_ok hr) h h') with xs e h'
    eat! h' hnx
    exact pure_ok ⟨e, h'⟩

theorem elem_begins {e : ArrayExpressionElement} (h : Elem c ws e) : Begins (ItemStart .rBracket) ws := by
  cases h with
  | expr h => exact (assign_begins h).mono fun _ h => (ItemStart.of_expr h).1
  | spread _ => exact .cons ⟨rfl, rfl, rfl⟩

theorem arrayItem_ok (hr : RecOk r) : ReadsItem .rBracket (arrayItem r) (Option.map bareArrayExpressionElement) c
    (fun w a => ∃ b, a = some b ∧ Elem c w b) := by
  have hc : IsClose .rBracket := .inl rfl
  rintro w _ ⟨a, rfl, ha⟩ ps k l l' s hl h
  unfold arrayItem
  obtain ⟨nx, rest, e', hsep⟩ := hl.split
  refine get_ok ?_
  cases ha with
  | expr ha =>
    obtain ⟨⟨x, n⟩, hx, ht⟩ := begins_tok (assign_begins ha) h
    refine ok_else (by rw [ht.isP, startsExpr_isP hx]; simp) ?_
    refine ok_else (by rw [ht.isP, startsExpr_isP hx]; simp) ?_
    rw [e'] at h
    rd! (init_ok hr ha _ _ _ _ _ (hsep.assign hc) h) with a h
    rw [← e'] at h
    refine Sat.bind (commaUnless_ok (by decide) hl h) ?_
    rintro _ _ h
    exact pure_ok ⟨rfl, h⟩
  | spread ha =>
    nm! h
    have ht := h.tok
    refine ok_else (by tk ht) (ok_then (by tk ht) ?_)
    sp! h
    ad! h ht (assign_fits ha).append.fits
    rw [e'] at h
    rd! (init_ok hr ha _ _ _ _ _ (hsep.assign hc) h) with a h
    rw [← e'] at h
    refine Sat.bind (commaUnless_ok (by decide) hl h) ?_
    clear h
    rintro _ _ h
    es! h
    exact pure_ok ⟨rfl, h⟩

theorem arrayHole_ok (ps k n ws s) (hf : FitsAt .regExp ws) (h : St c ps k (P .comma n :: ws) s) :
    Ok (arrayItem r) s (fun b s' => b = none ∧ St c ps k ws s') := by
  unfold arrayItem
  lk! h ht
  refine ok_then (by tk ht) ?_
  ad! h ht hf
  exact pure_ok ⟨rfl, h⟩

theorem parseArrayLitExpr_ok (hr : RecOk r) {es : List (Option ArrayExpressionElement)} {m : Bool} (h : Holes Elem c ws es) :
    Reads (parseArrayLitExpr r) bareNode c 0 0 (P .lBracket n :: (ws ++ [P .rBracket m])) (.arrayExpression es .invalid sp)
      (fun nx => nx.c.fits .div = true) := by
  intro ps k nx rest s hnx h'
  unfold parseArrayLitExpr
  nm! h'
  sp! h'
  eat! h' (holes_fits rfl (fun _ _ h => elem_begins h) h)
  rde! (untilPunc_holes rfl (by decide) (fun _ _ h => elem_begins h) (arrayItem_ok hr) arrayHole_ok h h') with xs e h'
  eat! h' hnx
  es! h'
  exact pure_ok ⟨by simp [bareNode, bareHolesArrayExpressionElement_eq, e], h'⟩

/-! ### Parentheses -/

theorem seqItem_ok (hr : RecOk r) {c : Ctx} {l l' : List Word} (ha : Assign { c with inn := true } ws t)
    (hl : (∃ n, l = P .comma n :: l' ∧ Begins (fun x => startsExpr x = true) l') ∨ (∃ n X, l = P .rParen n :: X ∧ l' = l))
    (h : St c ps k (ws ++ l) s) :
    Ok (seqItem r) s (fun b s' => (bareNode b.1 = t ∧ b.2 = false) ∧ St c ps k l' s') := by
  unfold seqItem
  refine get_ok ?_
  obtain ⟨⟨x, n⟩, hx, ht⟩ := begins_tok (assign_begins ha) h
  refine ok_else (by rw [ht.isP, startsExpr_isP hx]; simp) ?_
  rcases hl with ⟨n, rfl, hb⟩ | ⟨n, X, rfl, rfl⟩
  · rd! (init_ok hr ha _ _ _ _ _ (.punct _ (by decide)) h) with a h
    lk! h ht
    refine ok_else (by tk ht) ?_
    eat! h (hb.mono fun _ => startsExpr_fits).fits
    obtain ⟨⟨y, m⟩, l'', rfl, hy⟩ := hb
    lk! h ht
    exact pure_ok ⟨⟨rfl, by rw [ht.matchesPunc, startsExpr_isP hy]⟩, h⟩
  · rd! (init_ok hr ha _ _ _ _ _ (.punct _ (by decide)) h) with a h
    lk! h ht
    exact ok_then (by tk ht) (pure_ok ⟨⟨rfl, rfl⟩, h⟩)

theorem sep_begins {es : List Node} (h : Sep Assign c ws es) : Begins (fun x => startsExpr x = true) ws := by
  cases h with
  | one h => exact assign_begins h
  | cons h _ => exact (assign_begins h).append

theorem seqF_ok (hr : RecOk r) (m : Nat) : ∀ {ws es s}, Sep Assign { c with inn := true } ws es →
    St c ps k (ws ++ P .rParen n :: rest) s →
    Ok (untilPuncOrRestF .rParen (seqItem r) m) s (fun xs s' => (xs.map (fun x => bareNode x.1) = es ∧ xs.any Prod.snd = false) ∧
      St c ps k (P .rParen n :: rest) s') := by
  induction m with
  | zero => intro _ _ _ _ _; exact rfl
  | succ m ih =>
    intro ws es s hl h
    unfold untilPuncOrRestF
    refine get_ok ?_
    obtain ⟨⟨x, j⟩, hx, ht⟩ := begins_tok (sep_begins hl) h
    refine ok_else (by rw [ht.isP, startsExpr_isP hx]; simp) ?_
    refine ok_else (by rw [ht.isP, startsExpr_isP hx]; simp) ?_
    cases hl with
    | one ha =>
      rde! (seqItem_ok hr ha (.inr ⟨_, _, rfl, rfl⟩) h) with a ea h
      refine Sat.bind (P := fun xs s' => xs = [] ∧ St c ps k (P .rParen n :: rest) s') ?_ ?_
      · cases m with
        | zero => exact rfl
        | succ m =>
          unfold untilPuncOrRestF
          lk! h ht
          exact ok_then (by tk ht) (pure_ok ⟨rfl, h⟩)
      · clear h
        rintro _ _ ⟨rfl, h⟩
        exact pure_ok ⟨by simp [ea], h⟩
    | cons ha hl =>
      nm! h
      rde! (seqItem_ok hr ha (.inl ⟨_, rfl, (sep_begins hl).append⟩) h) with a ea h
      rde! (ih hl h) with xs exs h
      exact pure_ok ⟨by simp [ea, exs], h⟩

/-- `assignTargetType` does not depend on positions. -/
theorem att_bare (a : Node) : (bareNode a).assignTargetType = a.assignTargetType := by
  cases a <;> simp [bareNode, Node.assignTargetType]

theorem parenAtt_bare (es : List Node) : parenAtt es = parenTarget (es.map bareNode) := by
  match es with
  | [] => rfl
  | [e] => simp [parenAtt, parenTarget, att_bare]
  | _ :: _ :: _ => rfl

theorem parseSeqOrArrow_ok (hr : RecOk r) {es : List Node} {m : Bool} (h : Sep Assign { c with inn := true } ws es) :
    Reads (parseSeqOrArrow r) bareNode c 0 0 (P .lParen n :: (ws ++ [P .rParen m])) (.sequenceExpression es (parenTarget es) sp)
      SPrim := by
  intro ps k nx rest s hnx h'
  unfold parseSeqOrArrow
  nm! h'
  sp! h'
  eat! h' ((sep_begins h).append.mono fun _ => startsExpr_fits).fits
  refine Sat.bind (P := fun xs s' => (xs.map (fun x => bareNode x.1) = es ∧ xs.any Prod.snd = false) ∧
      St c ps (k + 1) (P .rParen m :: nx :: rest) s') (seqF_ok hr _ h h') ?_
  clear h'
  rintro xs _ ⟨⟨e1, e2⟩, h⟩
  eat! h hnx.fit
  lk! h ht
  refine ok_else (by rw [e2, ht.matchesPunc, hnx.arrow]; simp) ?_
  es! h
  refine pure_ok ⟨?_, h⟩
  rw [parenAtt_bare]
  simp [bareNode, bareListNode_eq, ← e1, Function.comp_def]

/-! ### Object literals -/

theorem key_begins {p : Punctuator} {key : PropertyKey} {comp : Bool} (h : Key c p ws key comp) :
    Begins (fun x => ItemStart' .rBrace x ∧ isP x .star = false) ws := by
  cases h with
  | _ => exact .cons ⟨⟨⟨rfl, rfl, rfl⟩, rfl⟩, rfl⟩

theorem prop_begins {p : ObjectExpressionProperty} (h : Prop' c ws p) : Begins (ItemStart .rBrace) ws := by
  cases h with
  | init h _ _ => exact (key_begins h).append.mono fun _ h => h.1.1
  | shorthand _ _ => exact .cons ⟨rfl, rfl, rfl⟩
  | method h _ _ _ => exact (key_begins h).append.mono fun _ h => h.1.1
  | spread _ => exact .cons ⟨rfl, rfl, rfl⟩
  | asyncMethod _ _ _ => exact .cons ⟨rfl, rfl, rfl⟩
  | getter _ _ => exact .cons ⟨rfl, rfl, rfl⟩
  | setter _ _ _ => exact .cons ⟨rfl, rfl, rfl⟩

theorem genMethod_begins {p : ObjectExpressionProperty} (h : GenMethod c ws p) : Begins (ItemStart .rBrace) ws := by
  cases h with
  | mk _ _ _ _ => exact .cons ⟨rfl, rfl, rfl⟩

/-- A key that is one word. -/
theorem key_word {p : Punctuator} {key : PropertyKey} {x : Content} {n : Bool} (h : Key c p [⟨x, n⟩] key false) :
    isP x .star = false ∧ isP x .lParen = false ∧ (∀ p, x ≠ .punct p) ∧ (∀ b, x.braces b = b) ∧ (∀ g, x.fits g = true) := by
  generalize e : ([⟨x, n⟩] : List Word) = l at h
  cases h <;> cases e <;> exact ⟨rfl, rfl, nofun, fun _ => rfl, fun g => by cases g <;> rfl⟩

theorem propKey_ok (hr : RecOk r) {p : Punctuator} {key : PropertyKey} {comp : Bool} (hk : Key c p ws key comp)
    (hp : p = .colon ∨ p = .lParen) (h : St c ps k (ws ++ P p n :: l) s) :
    Ok (propKey r) s (fun x s' => (barePropertyKey x.1 = key ∧ x.2 = comp) ∧ St c ps k (P p n :: l) s') := by
  unfold propKey
  have hf : ∀ g, (P p n).c.fits g = true := by intro g; rcases hp with rfl | rfl <;> cases g <;> rfl
  cases hk with
  | name hv =>
    nm! h
    lk! h ht
    refine ok_then (by rw [ht.isIdOrKw]; exact hv.wordy) ?_
    sp! h
    rd! (parseIdName_ok h hv (hf _)) with x h
    es! h
    exact pure_ok ⟨⟨rfl, rfl⟩, h⟩
  | string =>
    nm! h
    lk! h ht
    refine ok_else (by tk ht) (ok_then (by tk ht) ?_)
    sp! h
    ad! h ht (hf _)
    lk! h ht'
    es! h
    refine pure_ok ⟨⟨?_, rfl⟩, h⟩
    rw [ht.value, ht'.value]; rfl
  | number =>
    nm! h
    lk! h ht
    refine ok_else (by tk ht) (ok_then (by tk ht) ?_)
    sp! h
    ad! h ht (hf _)
    lk! h ht'
    es! h
    refine pure_ok ⟨⟨?_, rfl⟩, h⟩
    rw [ht.value, ht'.value]; rfl
  | computed ha =>
    nm! h
    lk! h ht
    refine ok_else (by tk ht) (ok_else (by tk ht) (ok_then (by tk ht) ?_))
    unfold parseComputedPropertyName
    simp only [bind_assoc]
    eat! h (assign_fits ha).append.fits
    rd! (init_ok hr ha _ _ _ _ _ (.punct _ (by decide)) h) with a h
    eat! h (hf _)
    exact pure_ok ⟨⟨rfl, rfl⟩, h⟩

/-- The modifiers of a property whose key is not followed by a name. -/
theorem propHead_ok (hr : RecOk r) {x y : Content} {n m : Bool} (h : St c ps k (⟨x, n⟩ :: ⟨y, m⟩ :: ws) s)
    (hs : isP x .star = false) (hx : ∀ v, x = .name v → v ∈ modifiers → (∃ p, y = .punct p) ∧ m = false ∧ y.fits .regExp = true ∧ ∀ b, y.braces b = b) :
    Ok (propHead r) s (fun a s' => a = .more .init false false ∧ St c ps k (⟨x, n⟩ :: ⟨y, m⟩ :: ws) s') := by
  unfold propHead
  have ht := h.tok
  refine get_ok ?_
  have mem : ∀ {v}, isId x v = true → v ∈ modifiers → (∃ p, y = .punct p) ∧ m = false ∧ y.fits .regExp = true ∧ ∀ b, y.braces b = b := by
    intro v h1 h2
    cases x <;> simp [isId] at h1
    exact hx _ rfl (h1.2 ▸ h2)
  refine Sat.ite (fun hg => ?_) (fun _ => Sat.ite (fun hg => ?_) (fun _ => Sat.ite (fun hg => ?_) (fun _ => ?_)))
  · obtain ⟨h1, h2, h3, h4⟩ := mem (ht.isId _ ▸ hg) (by decide)
    unfold accessorHead
    refine Sat.bind (peekToken_ok h h3 h2 h4) ?_
    rintro t _ ⟨ht', h⟩
    exact ok_then (by rw [ht'.punctuator]; exact h1) (pure_ok ⟨rfl, h⟩)
  · obtain ⟨h1, h2, h3, h4⟩ := mem (ht.isId _ ▸ hg) (by decide)
    unfold accessorHead
    refine Sat.bind (peekToken_ok h h3 h2 h4) ?_
    rintro t _ ⟨ht', h⟩
    exact ok_then (by rw [ht'.punctuator]; exact h1) (pure_ok ⟨rfl, h⟩)
  · obtain ⟨h1, h2, h3, h4⟩ := mem (ht.isId _ ▸ hg) (by decide)
    unfold asyncHead
    refine Sat.bind (peekToken_ok h h3 h2 h4) ?_
    rintro t _ ⟨ht', h⟩
    exact ok_then (by rw [ht'.punctuator]; exact h1) (pure_ok ⟨rfl, h⟩)
  · exact ok_else (by rw [ht.isP, hs]; simp) (pure_ok ⟨rfl, h⟩)

theorem accessorHead_ok {x : Content} {v : Str} {kind : PropKind}
    (h : St c ps k (w :: ⟨x, false⟩ :: ws) s) (h1 : ∀ p, x ≠ .punct p) (h2 : isP x .lParen = false)
    (h3 : ∀ b, x.braces b = b) (h4 : ∀ g, x.fits g = true) :
    Ok (accessorHead r v kind) s (fun a s' => a = .more kind false false ∧ St c ps k (⟨x, false⟩ :: ws) s') := by
  unfold accessorHead
  refine Sat.bind (peekToken_ok h (h4 _) rfl h3) ?_
  clear h
  rintro t _ ⟨ht', h⟩
  refine ok_else (by rw [ht'.punctuator]; simp [h1]) ?_
  sp! h
  ad! h ht (h4 _)
  es! h
  lk! h ht
  exact ok_else (by rw [ht.matchesPunc, h2]; simp) (pure_ok ⟨rfl, h⟩)

theorem asyncHead_ok {x : Content}
    (h : St c ps k (w :: ⟨x, false⟩ :: ws) s) (h0 : isP x .star = false) (h1 : ∀ p, x ≠ .punct p) (h2 : isP x .lParen = false)
    (h3 : ∀ b, x.braces b = b) (h4 : ∀ g, x.fits g = true) :
    Ok (asyncHead r) s (fun a s' => a = .more .init true false ∧ St c ps k (⟨x, false⟩ :: ws) s') := by
  unfold asyncHead
  refine Sat.bind (peekToken_ok h (h4 _) rfl h3) ?_
  clear h
  rintro t _ ⟨ht', h⟩
  refine ok_else (by rw [ht'.punctuator]; simp [h1]) ?_
  sp! h
  ad! h ht (h4 _)
  es! h
  have ht := h.tok
  refine get_ok ?_
  refine Sat.bind (P := fun a s' => a = false ∧ St c ps k (⟨x, false⟩ :: ws) s')
    (ok_else (by rw [ht.matchesPunc, h0]; simp) (pure_ok ⟨rfl, h⟩)) ?_
  clear h ht
  rintro _ _ ⟨rfl, h⟩
  lk! h ht
  exact ok_else (by rw [ht.matchesPunc, h2]; simp) (pure_ok ⟨rfl, h⟩)

theorem objectItem_ok (hr : RecOk r) : ReadsItem .rBrace (objectItem r) bareObjectExpressionProperty c (Prop' c) := by
  have hc : IsClose .rBrace := .inr (.inl rfl)
  intro w a ha ps k l l' s hl h
  unfold objectItem
  obtain ⟨nx, rest, e', hsep⟩ := hl.split
  sp! h
  rename_i s1
  refine get_ok ?_
  have fin : ∀ {p : PM ObjectExpressionProperty} {s}, Ok p s (fun x s' => bareObjectExpressionProperty x = a ∧ St c ps k l s') →
      Ok (p >>= fun a => commaUnless .rBrace >>= fun _ => pure a) s (fun x s' => bareObjectExpressionProperty x = a ∧ St c ps k l' s') := by
    intro p s hp
    refine Sat.bind hp ?_
    rintro a _ ⟨ea, h⟩
    refine Sat.bind (commaUnless_ok (by decide) hl h) ?_
    rintro _ _ h
    exact pure_ok ⟨ea, h⟩
  cases ha with
  | spread ha =>
    nm! h
    have ht := h.tok
    refine ok_then (by tk ht) ?_
    ad! h ht (assign_fits ha).append.fits
    rw [e'] at h
    rd! (init_ok hr ha _ _ _ _ _ (hsep.assign hc) h) with a h
    rw [← e'] at h
    es! h
    refine Sat.bind (commaUnless_ok (by decide) hl h) ?_
    rintro _ _ h
    exact pure_ok ⟨rfl, h⟩
  | @init _ w _ _ n wv _ hk hm ha =>
    subst e'
    nm! h
    obtain ⟨⟨x, n'⟩, w', e, hx⟩ := key_begins hk
    have ht := (e ▸ h).tok
    refine ok_else (by rw [ht.matchesPunc, hx.1.2]; simp) ?_
    have hd : Ok (propHead r) s1 (fun a s' => a = .more .init false false ∧ St c ps (k + 1) (w ++ P .colon n :: (wv ++ nx :: rest)) s') := by
      subst e
      cases w' with
      | nil =>
        refine propHead_ok hr h hx.2 ?_
        rintro v rfl hv
        exact ⟨⟨_, rfl⟩, hm v n' rfl hv, rfl, fun _ => rfl⟩
      | cons y w' =>
        refine propHead_ok hr h hx.2 ?_
        rintro v rfl hv
        cases hk
    refine Sat.bind hd ?_
    clear h ht hd
    rintro _ _ ⟨rfl, h⟩
    refine Sat.bind (propKey_ok hr hk (.inl rfl) h) ?_
    clear h
    rintro ⟨key, comp⟩ _ ⟨⟨rfl, rfl⟩, h⟩
    refine fin ?_
    unfold propRest
    lk! h ht
    refine ok_then (by tk ht) ?_
    ad! h ht (assign_fits ha).append.fits
    rd! (init_ok hr ha _ _ _ _ _ (hsep.assign hc) h) with a h
    es! h
    exact pure_ok ⟨rfl, h⟩
  | @shorthand _ v _ hv hne =>
    subst e'
    nm! h
    have ht := h.tok
    refine ok_else (by tk ht) ?_
    refine Sat.bind (propHead_ok hr h rfl (by rintro _ ⟨⟩ h; exact absurd h hne)) ?_
    clear h ht
    rintro _ _ ⟨rfl, h⟩
    refine Sat.bind (P := fun x s' => (barePropertyKey x.1 = .identifier ⟨v, sp⟩ ∧ x.2 = false) ∧ St c ps (k + 1) (nx :: rest) s') ?_ ?_
    · unfold propKey
      lk! h ht
      refine ok_then (by rw [ht.isIdOrKw]; exact hv.wordy) ?_
      sp! h
      have hpn : PropName v := by
        have := hv.wordy
        simpa [PropName, wordy, and_assoc] using this
      rd! (parseIdName_ok h hpn (hsep.pat hc).div) with x h
      es! h
      exact pure_ok ⟨⟨rfl, rfl⟩, h⟩
    · clear h
      rintro ⟨key, comp⟩ _ ⟨⟨e1, rfl⟩, h⟩
      refine fin ?_
      unfold propRest
      lk! h ht
      refine ok_else (by rw [ht.isP, hsep.isP]; simp) (ok_else (by rw [ht.isP, hsep.isP]; simp)
        (ok_else (by rw [ht.isP, hsep.isP]; simp) ?_))
      es! h
      exact pure_ok ⟨by simp [bareObjectExpressionProperty, e1, bareOptPropertyValue, PropKind.str], h⟩
  | @method _ w _ _ ws _ ws' _ hk hm hp hb =>
    subst e'
    nm! h
    obtain ⟨⟨y, j⟩, w'', e, rfl⟩ := params_begins hp
    obtain ⟨⟨x, n'⟩, w', e2, hx⟩ := key_begins hk
    have ht := (e2 ▸ h).tok
    refine ok_else (by rw [ht.matchesPunc, hx.1.2]; simp) ?_
    rw [e] at h
    nm! h
    have hd : Ok (propHead r) s1 (fun a s' => a = .more .init false false ∧ St c ps (k + 1) (w ++ P .lParen j :: (w'' ++ (ws' ++ nx :: rest))) s') := by
      subst e2
      cases w' with
      | nil =>
        refine propHead_ok hr h hx.2 ?_
        rintro v rfl hv
        refine ⟨⟨_, rfl⟩, ?_, rfl, fun _ => rfl⟩
        have := hm v n' rfl hv
        rwa [e] at this
      | cons y w' =>
        refine propHead_ok hr h hx.2 ?_
        rintro v rfl hv
        cases hk
    refine Sat.bind hd ?_
    clear h ht hd
    rintro _ _ ⟨rfl, h⟩
    refine Sat.bind (propKey_ok hr hk (.inr rfl) h) ?_
    clear h
    rintro ⟨key, comp⟩ _ ⟨⟨rfl, rfl⟩, h⟩
    refine fin ?_
    unfold propRest
    lk! h ht
    refine ok_else (by tk ht) (ok_else (by tk ht) (ok_then (by tk ht) ?_))
    rw [← List.cons_append, ← e, ← List.append_assoc] at h
    unfold parseMethodDefinition
    refine Sat.bind (parseParamsAndBody_ok hr hp hb _ _ _ _ _ trivial h) ?_
    clear h
    rintro ⟨xs, b'⟩ _ ⟨e3, h⟩
    simp only [Prod.mk.injEq] at e3
    es! h
    refine pure_ok ⟨?_, h⟩
    simp [bareObjectExpressionProperty, bareOptPropertyValue, barePropertyValue, bareFnExpr, bareListFunctionParameter_eq, e3, bareOptNode]
  | @asyncMethod _ x _ ws _ ws' _ _ hk hp hb =>
    subst e'
    nm! h
    have ht := h.tok
    refine ok_else (by tk ht) ?_
    obtain ⟨k0, k1, k2, k3, k4⟩ := key_word hk
    have hd : Ok (propHead r) s1 (fun a s' => a = .more .init true false ∧ St c ps (k + 1) (⟨x, false⟩ :: (ws ++ (ws' ++ nx :: rest))) s') := by
      unfold propHead
      refine get_ok ?_
      refine ok_else (by tk ht) (ok_else (by tk ht) (ok_then (by tk ht) ?_))
      exact asyncHead_ok h k0 k2 k1 k3 k4
    refine Sat.bind hd ?_
    clear h ht hd
    rintro _ _ ⟨rfl, h⟩
    obtain ⟨⟨y, j⟩, w', e, rfl⟩ := params_begins hp
    rw [e] at h
    nm! h
    refine Sat.bind (propKey_ok hr hk (.inr rfl) h) ?_
    clear h
    rintro ⟨key, comp⟩ _ ⟨⟨rfl, rfl⟩, h⟩
    refine fin ?_
    unfold propRest
    lk! h ht
    refine ok_else (by tk ht) (ok_else (by tk ht) (ok_then (by tk ht) ?_))
    rw [← List.cons_append, ← e, ← List.append_assoc] at h
    unfold parseMethodDefinition
    refine Sat.bind (parseParamsAndBody_ok hr hp hb _ _ _ _ _ trivial h) ?_
    clear h
    rintro ⟨xs, b'⟩ _ ⟨e3, h⟩
    simp only [Prod.mk.injEq] at e3
    es! h
    refine pure_ok ⟨?_, h⟩
    simp [bareObjectExpressionProperty, bareOptPropertyValue, barePropertyValue, bareFnExpr, bareListFunctionParameter_eq, e3, bareOptNode]
  | @getter _ x _ ws _ _ m o hk hb =>
    subst e'
    nm! h
    have ht := h.tok
    refine ok_else (by tk ht) ?_
    obtain ⟨k0, k1, k2, k3, k4⟩ := key_word hk
    have hd : Ok (propHead r) s1 (fun a s' => a = .more .get false false ∧
        St c ps (k + 1) (⟨x, false⟩ :: P .lParen m :: P .rParen o :: (ws ++ nx :: rest)) s') := by
      unfold propHead
      refine get_ok ?_
      refine ok_then (by tk ht) ?_
      exact accessorHead_ok h k2 k1 k3 k4
    refine Sat.bind hd ?_
    clear h ht hd
    rintro _ _ ⟨rfl, h⟩
    refine Sat.bind (propKey_ok hr hk (.inr rfl) h) ?_
    clear h
    rintro ⟨key, comp⟩ _ ⟨⟨rfl, rfl⟩, h⟩
    refine fin ?_
    unfold propRest
    lk! h ht
    refine ok_else (by tk ht) (ok_else (by tk ht) (ok_then (by tk ht) ?_))
    unfold parseMethodDefinition
    obtain ⟨⟨y, j⟩, w', e, rfl⟩ := body_begins hb
    eat! h rfl
    eat! h (by rw [e]; rfl)
    rde! (withYieldAwait_ok (fun ps s h => parseFunctionBody_ok hr hb _ _ _ _ _ trivial h) h) with y ey h
    es! h
    refine pure_ok ⟨?_, h⟩
    simp [bareObjectExpressionProperty, bareOptPropertyValue, barePropertyValue, bareFnExpr, bareListFunctionParameter_eq, ey, bareOptNode]
  | @setter _ x _ ws _ ws' _ _ hk hp hb =>
    subst e'
    nm! h
    have ht := h.tok
    refine ok_else (by tk ht) ?_
    obtain ⟨k0, k1, k2, k3, k4⟩ := key_word hk
    have hd : Ok (propHead r) s1 (fun a s' => a = .more .set false false ∧ St c ps (k + 1) (⟨x, false⟩ :: (ws ++ (ws' ++ nx :: rest))) s') := by
      unfold propHead
      refine get_ok ?_
      refine ok_else (by tk ht) (ok_then (by tk ht) ?_)
      exact accessorHead_ok h k2 k1 k3 k4
    refine Sat.bind hd ?_
    clear h ht hd
    rintro _ _ ⟨rfl, h⟩
    obtain ⟨⟨y, j⟩, w', e, rfl⟩ := params_begins hp
    rw [e] at h
    nm! h
    refine Sat.bind (propKey_ok hr hk (.inr rfl) h) ?_
    clear h
    rintro ⟨key, comp⟩ _ ⟨⟨rfl, rfl⟩, h⟩
    refine fin ?_
    unfold propRest
    lk! h ht
    refine ok_else (by tk ht) (ok_else (by tk ht) (ok_then (by tk ht) ?_))
    rw [← List.cons_append, ← e, ← List.append_assoc] at h
    unfold parseMethodDefinition
    refine Sat.bind (parseParamsAndBody_ok hr hp hb _ _ _ _ _ trivial h) ?_
    clear h
    rintro ⟨xs, b'⟩ _ ⟨e3, h⟩
    simp only [Prod.mk.injEq] at e3
    es! h
    refine pure_ok ⟨?_, h⟩
    simp [bareObjectExpressionProperty, bareOptPropertyValue, barePropertyValue, bareFnExpr, bareListFunctionParameter_eq, e3, bareOptNode]

theorem genMethod_ok (hr : RecOk r) {p : ObjectExpressionProperty} (hg : GenMethod c ws p) :
    Reads (objectItem r) bareObjectExpressionProperty c 0 0 ws p (fun nx => ∃ n, nx = P .rBrace n) := by
  rintro ps k nx rest s ⟨n, rfl⟩ h
  unfold objectItem
  sp! h
  rename_i s1
  refine get_ok ?_
  cases hg with
  | @mk _ w key comp ws xs ws' b _ hk hkn hp hb =>
    nm! h
    have ht := h.tok
    refine ok_else (by tk ht) ?_
    obtain ⟨⟨y, j⟩, w', e, rfl⟩ := params_begins hp
    have hd : Ok (propHead r) s1 (fun a s' => (∃ p, a = .done p ∧ bareObjectExpressionProperty p =
        (.property key comp (some (.functionExpression (.mk none xs b true false false))) cs!"init" true false sp)) ∧
        St c ps k (P .rBrace n :: rest) s') := by
      unfold propHead
      refine get_ok ?_
      refine ok_else (by tk ht) (ok_else (by tk ht) (ok_else (by tk ht) (ok_then (by tk ht) ?_)))
      ad! h ht ((key_begins hk).append.mono fun _ h => h.1.1.1).fits
      rename_i s2
      have hl1 : ws ++ (ws' ++ P .rBrace n :: rest) = P .lParen j :: (w' ++ (ws' ++ P .rBrace n :: rest)) := by rw [e]; rfl
      have hk' : Ok (parsePropertyName r) s2 (fun x s' => (barePropertyKey x.1 = key ∧ x.2 = comp) ∧
          St c ps (k + 1) (ws ++ (ws' ++ P .rBrace n :: rest)) s') := by
        unfold parsePropertyName
        rw [hl1] at h ⊢
        cases hk with
        | name hv =>
          nm! h
          lk! h ht
          refine ok_then (by rw [ht.isIdOrKw]; exact hv.wordy) ?_
          sp! h
          rd! (parseIdName_ok h hv rfl) with x h
          es! h
          exact pure_ok ⟨⟨rfl, rfl⟩, h⟩
        | string => obtain ⟨v, hv⟩ := hkn _ _ rfl; cases hv
        | number => obtain ⟨v, hv⟩ := hkn _ _ rfl; cases hv
        | computed ha =>
          nm! h
          lk! h ht
          refine ok_else (by tk ht) (ok_else (by tk ht) (ok_then (by tk ht) ?_))
          unfold parseComputedPropertyName
          simp only [bind_assoc]
          eat! h (assign_fits ha).append.fits
          rd! (init_ok hr ha _ _ _ _ _ (.punct _ (by decide)) h) with a h
          eat! h rfl
          exact pure_ok ⟨⟨rfl, rfl⟩, h⟩
      refine Sat.bind hk' ?_
      clear h hk'
      rintro ⟨key, comp⟩ _ ⟨⟨rfl, rfl⟩, h⟩
      rw [← List.append_assoc] at h
      unfold parseMethodDefinition
      refine Sat.bind (Q := _) (P := fun p s' => bareObjectExpressionProperty p =
        .property (barePropertyKey key) comp (some (.functionExpression (.mk none xs b true false false))) cs!"init" true false sp ∧ St c ps k (P .rBrace n :: rest) s') ?_ ?_
      · refine Sat.bind (parseParamsAndBody_ok hr hp hb _ _ _ _ _ trivial h) ?_
        clear h
        rintro ⟨xs, b'⟩ _ ⟨e3, h⟩
        simp only [Prod.mk.injEq] at e3
        es! h
        refine pure_ok ⟨?_, h⟩
        simp [bareObjectExpressionProperty, bareOptPropertyValue, barePropertyValue, bareFnExpr, bareListFunctionParameter_eq, e3, bareOptNode]
      · rintro p _ ⟨ep, h⟩
        exact pure_ok ⟨⟨p, rfl, ep⟩, h⟩
    refine Sat.bind hd ?_
    clear h
    rintro _ _ ⟨⟨p, rfl, e⟩, h⟩
    exact pure_ok ⟨e, h⟩

theorem parseObjectLitExpr_ok (hr : RecOk r) {es : List ObjectExpressionProperty} {m : Bool}
    (h : CommasRest Prop' GenMethod c ws es) :
    Reads (parseObjectLitExpr r) bareNode c 0 0 (P .lBrace n :: (ws ++ [P .rBrace m])) (.objectExpression es .invalid sp)
      (fun _ => True) := by
  intro ps k nx rest s hnx h'
  unfold parseObjectLitExpr
  nm! h'
  sp! h'
  eat! h' (commasRest_fits' rfl (fun _ _ h => prop_begins h) (fun _ _ h => genMethod_begins h) h)
  rde! (untilPuncF_commasRest rfl (fun _ _ h => prop_begins h) (fun _ _ h => genMethod_begins h) (objectItem_ok hr)
    (fun _ _ h => genMethod_ok hr h) _ h h') with xs e h'
  eat! h' (fits_rBrace h'.clash2)
  es! h'
  exact pure_ok ⟨by simp [bareNode, bareListObjectExpressionProperty_eq, e], h'⟩

/-! ### Primary expressions -/

theorem parseLiteral_ok {val : Value} (hv : (w.c.token 0 0 0 0).value = val) :
    Reads parseLiteral bareNode c 0 0 [w] (.literal val val.toString .invalid sp) (fun nx => nx.c.fits .div = true) := by
  intro ps k nx rest s hnx h
  unfold parseLiteral
  nm! h
  sp! h
  ad! h ht hnx
  es! h
  refine pure_ok ⟨?_, h⟩
  rw [ht.value, hv]; rfl

theorem async_ref : Ref c cs!"async" := ⟨fun _ => by decide, .inl ⟨by decide, by decide, by decide, by decide⟩⟩

theorem parsePrimaryExpr_ok (hr : RecOk r) (hp : Primary c ws t) :
    Reads (parsePrimaryExpr r) bareNode c 0 0 ws t SPrim := by
  intro ps k nx rest s hnx h
  unfold parsePrimaryExpr
  refine get_ok ?_
  cases hp with
  | this =>
    have ht := h.tok
    br ht
    unfold parseThis
    nm! h
    sp! h
    ad! h ht hnx.fit
    es! h
    exact pure_ok ⟨rfl, h⟩
  | name hv hne =>
    have ht := h.tok
    have h1 : ∀ {u}, u = cs!"function" ∨ u = cs!"class" ∨ u = cs!"this" → s.current.isKw u = false := by
      intro u hu
      rw [ht.isKw]
      rw [isKw, Bool.and_eq_false_iff, decide_eq_false_iff_not, decide_eq_false_iff_not]
      rcases hv.cases with ⟨hk', -⟩ | ⟨rfl, -⟩ | ⟨rfl, -⟩
      · exact .inl hk'
      · rcases hu with rfl | rfl | rfl <;> exact .inr (by decide)
      · rcases hu with rfl | rfl | rfl <;> exact .inr (by decide)
    refine ok_else (by rw [h1 (.inl rfl)]; simp) (ok_else (by rw [ht.isId]; simp [isId, hne])
      (ok_else (by rw [h1 (.inr (.inl rfl))]; simp) (ok_else (by rw [h1 (.inr (.inr rfl))]; simp) (ok_then ?_ ?_))))
    · rw [ht.isIdOrKw]; exact hv.wordy
    · exact parseIdReference_ok hv _ _ _ _ _ hnx.fit h
  | null =>
    have ht := h.tok
    br ht
    exact parseLiteral_ok (val := .null) rfl _ _ _ _ _ hnx.fit h
  | bool hv =>
    have ht := h.tok
    rcases hv with rfl | rfl
    · br ht
      exact parseLiteral_ok (val := .str cs!"true") rfl _ _ _ _ _ hnx.fit h
    · br ht
      exact parseLiteral_ok (val := .str cs!"false") rfl _ _ _ _ _ hnx.fit h
  | @number x n =>
    have ht := h.tok
    br ht
    exact parseLiteral_ok (val := .num _) rfl _ _ _ _ _ hnx.fit h
  | @string c v o n _ =>
    have ht := h.tok
    br ht
    exact parseLiteral_ok (val := .str _) rfl _ _ _ _ _ hnx.fit h
  | regexp =>
    have ht := h.tok
    br ht
    unfold parseRegex
    nm! h
    sp! h
    ad! h ht' hnx.fit
    refine get_ok ?_
    obtain ⟨l, k', i, j, rfl⟩ := ht'
    refine Sat.bind (Sat.unwrapSome (Q := fun a s' => a = _ ∧ s' = _) rfl ⟨rfl, rfl⟩) ?_
    rintro _ _ ⟨rfl, rfl⟩
    refine Sat.bind (Sat.unwrapSome (Q := fun a s' => a = _ ∧ s' = _) rfl ⟨rfl, rfl⟩) ?_
    rintro _ _ ⟨rfl, rfl⟩
    es! h
    exact pure_ok ⟨rfl, h⟩
  | template hh =>
    obtain ⟨⟨x, j⟩, hx, ht⟩ := begins_tok (template_begins hh) h
    cases x <;> simp [isHead] at hx
    br ht
    exact parseTemplateLiteral_ok hr hh _ _ _ _ _ trivial h
  | array hh =>
    have ht := h.tok
    br ht
    exact parseArrayLitExpr_ok hr hh _ _ _ _ _ hnx.fit h
  | object hh =>
    have ht := h.tok
    br ht
    exact parseObjectLitExpr_ok hr hh _ _ _ _ _ trivial h
  | paren hh =>
    have ht := h.tok
    br ht
    exact parseSeqOrArrow_ok hr hh _ _ _ _ _ hnx h
  | function hp hb =>
    have ht := h.tok
    refine ok_then (by tk ht) ?_
    exact parseFunctionExpr_ok hr false hp hb _ _ _ _ _ trivial h
  | functionNamed hv hp hb =>
    have ht := h.tok
    refine ok_then (by tk ht) ?_
    exact parseFunctionExpr_named hr false hv hp hb _ _ _ _ _ trivial h
  | asyncFunction hp hb =>
    have ht := h.tok
    br ht
    nm! h
    unfold parseAsyncPrimaryExpr
    sp! h
    rde! (parseIdReference_ok async_ref _ _ _ _ _ rfl h) with a ea h
    refine get_ok ?_
    have ht := h.tok
    refine ok_then h.nl (ok_else (by tk ht) (ok_else (by tk ht) (ok_then (by tk ht) ?_)))
    refine parseFunctionExpr_ok (n := false) hr true hp hb _ _ _ _ _ trivial ?_
    simpa using h
  | @asyncFunctionNamed _ _ _ _ _ _ _ m hv hp hb =>
    have ht := h.tok
    br ht
    nm! h
    unfold parseAsyncPrimaryExpr
    sp! h
    rde! (parseIdReference_ok async_ref _ _ _ _ _ rfl h) with a ea h
    refine get_ok ?_
    have ht := h.tok
    refine ok_then h.nl (ok_else (by tk ht) (ok_else (by tk ht) (ok_then (by tk ht) ?_)))
    refine parseFunctionExpr_named (n := false) (m := m) hr true hv hp hb _ _ _ _ _ trivial ?_
    simpa using h
  | «class» hh =>
    have ht := h.tok
    br ht
    exact parseClassExpr_ok hr hh _ _ _ _ _ trivial h

end Giron.Complete

import Verif.Proofs.Complete.Lhs
/-
Grammar completeness: update, unary and binary expressions.
-/
namespace Giron.Complete
open Giron M Spec Grammar Parser
variable [Env]
variable {α β : Type} {c c' : Ctx} {ps : List Giron.Params} {k : Nat} {w nx : Word} {ws rest l l' : List Word} {s : Parser}
  {v : Str} {n f : Bool} {r : Rec} {t o : Node}

theorem Tok.toStr_punct {p : Punctuator} {x : Token} (h : Tok (P p n) x) : x.toStr? = some p.toStr := by
  simp [Token.toStr?, h.value, Content.token]

theorem advanceStr_punct {p : Punctuator} {g : LexGoal} (h : St c ps k (P p n :: ws) s) (hg : FitsAt g ws) :
    Ok (advanceStr g) s (fun x s' => x = p.toStr ∧ St c ps k ws s') := by
  unfold advanceStr
  ad! h ht hg
  exact Sat.unwrapSome ht.toStr_punct ⟨rfl, h⟩

/-! ### Update expressions -/

theorem parsePostfix_lhs (hr : RecOk r) (hl : LHS f c ws t) : Reads (parsePostfix r) bareNode c 0 (left f) ws t SPost := by
  intro ps k nx rest s hnx h
  unfold parsePostfix
  sp! h
  refine get_ok ?_
  rde! (lhs_ok hr hl _ _ _ _ _ hnx.toSCall h) with a ea h
  refine get_ok ?_
  have ht := h.tok
  refine ok_else ?_ (pure_ok ⟨ea, h⟩)
  rw [h.nl, ht.isUpdateOp]
  rintro ⟨h1, h2⟩
  rw [hnx.upd h1] at h2
  cases h2

theorem sCall_update {p : Punctuator} (hp : p = .inc ∨ p = .dec) : SCall (P p n) := by
  rcases hp with rfl | rfl <;> exact ⟨⟨rfl, rfl, rfl, rfl, rfl⟩, rfl⟩

theorem parsePostfix_op (hr : RecOk r) (hl : LHS true c ws t) (hs : t.assignTargetType = .simple) {p : Punctuator} (hp : p = .inc ∨ p = .dec) :
    Reads (parsePostfix r) bareNode c 0 0 (ws ++ [P p false]) (.updateExpression p.toStr t false .invalid sp) SPost := by
  intro ps k nx rest s hnx h
  unfold parsePostfix
  nm! h
  sp! h
  refine get_ok ?_
  rde! (lhs_firm hr hl _ _ _ _ _ (sCall_update hp) h) with a ea h
  refine get_ok ?_
  have ht := h.tok
  refine ok_then ⟨h.nl, ?_⟩ ?_
  · rw [ht.isUpdateOp]; rcases hp with rfl | rfl <;> rfl
  rw [← ea, att_bare] at hs
  refine ok_else (by rw [hs]; simp) ?_
  have hf : nx.c.fits .regExp = true := by
    have := h.clash2
    rcases hp with rfl | rfl
    · exact fits_inc this
    · exact fits_dec this
  rd! (advanceStr_punct h hf) with x h
  es! h
  exact pure_ok ⟨by simp [bareNode, ea], h⟩

theorem parsePrefixUpdate_ok (hr : RecOk r) {p : Punctuator} (hp : p = .inc ∨ p = .dec) (hu : Unary f c ws t) (hs : t.assignTargetType = .simple) :
    Reads (parsePrefixUpdate r) bareNode c 0 (left f) (P p n :: ws) (.updateExpression p.toStr t true .invalid sp) SPost := by
  intro ps k nx rest s hnx h
  unfold parsePrefixUpdate
  nm! h
  sp! h
  rd! (advanceStr_punct h ((unary_begins hu).append.mono fun _ h => startsExpr_fits h.start).fits) with x h
  refine get_ok ?_
  rde! (hr.unary hu _ _ _ _ _ hnx h) with a ea h
  rw [← ea, att_bare] at hs
  refine ok_else (by rw [hs]; simp) ?_
  have h : St c ps (k + left f + 1) (nx :: rest) _ := h.mono (by omega)
  es! h
  exact pure_ok ⟨by simp [bareNode, ea], h⟩

theorem parseUpdateExpr_ok (hr : RecOk r) (hu : Update f c ws t) :
    Reads (parseUpdateExpr r) bareNode c 0 (left f) ws t SPost := by
  intro ps k nx rest s hnx h
  unfold parseUpdateExpr
  refine get_ok ?_
  cases hu with
  | lhs hl =>
    obtain ⟨⟨x, n⟩, hx, ht⟩ := begins_tok (lhs_begins hl) h
    refine ok_else (by rw [ht.isUpdateOp, hx.update]; simp) ?_
    exact parsePostfix_lhs hr hl _ _ _ _ _ hnx h
  | «postfix» hl hs hp =>
    obtain ⟨⟨x, n⟩, hx, ht⟩ := begins_tok (lhs_begins hl).append h
    refine ok_else (by rw [ht.isUpdateOp, hx.update]; simp) ?_
    exact parsePostfix_op hr hl hs hp _ _ _ _ _ hnx h
  | «prefix» hp hu hs =>
    have ht := h.tok
    refine ok_then (by rw [ht.isUpdateOp]; rcases hp with rfl | rfl <;> rfl) ?_
    exact parsePrefixUpdate_ok hr hp hu hs _ _ _ _ _ hnx h

/-! ### Unary expressions -/

theorem isUnaryOp_ok (h : St c ps k (w :: ws) s) : s.current.isUnaryOp s.params.hasAwait = some (isUnary w.c c.awt) := by
  rw [h.tok.isUnaryOp, h.params.awt]

/-- The operator can be read. -/
theorem unaryOp_word {o : Content} {op : Str} (ho : UnaryOp c o op) : isUnary o c.awt = true ∧ isP o .lParen = false ∧
    ((∃ p, o = .punct p) ∨ isKeyword o = true) ∧
    (∀ {g ps k ws s}, St c ps k (⟨o, n⟩ :: ws) s → FitsAt g ws → Ok (advanceStr g) s (fun x s' => x = op ∧ St c ps k ws s')) := by
  cases ho with
  | punct hp =>
    refine ⟨by simpa [isUnary] using hp, ?_, .inl ⟨_, rfl⟩, fun h hg => advanceStr_punct h hg⟩
    simp only [List.mem_cons, List.not_mem_nil, or_false] at hp
    rcases hp with rfl | rfl | rfl | rfl <;> rfl
  | name hv =>
    refine ⟨by simp only [isUnary, hv]; rfl, rfl, ?_, fun h hg => advanceStr_ok h ?_ hg⟩ <;>
    · simp only [List.mem_cons, List.not_mem_nil, or_false] at hv
      rcases hv with rfl | rfl | rfl <;> simp [isKeyword]
  | await ha =>
    refine ⟨by simp [isUnary, ha], rfl, .inr (by simp [isKeyword]), fun h hg => advanceStr_ok h (by simp) hg⟩

theorem parseUnaryExpr_ok (hr : RecOk r) (hu : Unary f c ws t) :
    Reads (parseUnaryExpr r) bareNode c 0 (left f) ws t SPost := by
  intro ps k nx rest s hnx h
  unfold parseUnaryExpr
  refine get_ok ?_
  cases hu with
  | update hu =>
    have h' := h
    obtain ⟨⟨x, n⟩, w', ew, hx⟩ := update_begins hu
    rw [ew] at h'
    refine Sat.ite (fun _ => ?_) (fun _ => parseUpdateExpr_ok hr hu _ _ _ _ _ hnx h)
    refine Sat.bind (P := fun b s' => b = false ∧ s' = s) (Sat.unwrapSome (isUnaryOp_ok h') ⟨hx.unary, rfl⟩) ?_
    rintro _ _ ⟨rfl, rfl⟩
    exact ok_else (by simp) (parseUpdateExpr_ok hr hu _ _ _ _ _ hnx h)
  | @op _ _ _ _ _ _ n ho hu =>
    obtain ⟨h1, -, h2, h3⟩ := unaryOp_word (n := n) ho
    nm! h
    have ht := h.tok
    refine ok_then ?_ ?_
    · rw [ht.punctuator, ht.keyword]; exact h2
    refine Sat.bind (P := fun b s' => b = true ∧ s' = s) (Sat.unwrapSome (isUnaryOp_ok h) ⟨h1, rfl⟩) ?_
    rintro _ _ ⟨rfl, rfl⟩
    refine ok_then rfl ?_
    unfold parseUnaryOp
    sp! h
    rd! (h3 h ((unary_begins hu).append.mono fun _ h => startsExpr_fits h.start).fits) with x h
    rde! (hr.unary hu _ _ _ _ _ hnx h) with a ea h
    have h : St c ps (k + left f + 1) (nx :: rest) _ := h.mono (by omega)
    es! h
    exact pure_ok ⟨by simp [bareNode, ea], h⟩

theorem sPost_pow : SPost (P .pow n) := ⟨⟨⟨rfl, rfl, rfl, rfl, rfl⟩, rfl⟩, fun _ => rfl⟩

theorem parseExponentiationExpr_ok (hr : RecOk r) (he : Exp f c ws t) :
    Reads (parseExponentiationExpr r) bareNode c 0 (left f) ws t SPow := by
  intro ps k nx rest s hnx h
  unfold parseExponentiationExpr
  refine get_ok ?_
  have key : ∀ {ws}, Begins (XStart c) ws → ∀ {l s}, St c ps (k + 0) (ws ++ l) s → Ok (parsePow r) s (fun a s' => bareNode a = t ∧ St c ps (k + left f) (nx :: rest) s') →
      Ok (do
        let b ← unwrap .tokenNotStr (s.current.isUnaryOp s.params.hasAwait)
        if b then parseUnaryExpr r else parsePow r) s (fun a s' => bareNode a = t ∧ St c ps (k + left f) (nx :: rest) s') := by
    intro ws hb l s h hk
    obtain ⟨⟨x, n⟩, w', rfl, hx⟩ := hb
    refine Sat.bind (P := fun b s' => b = false ∧ s' = s) (Sat.unwrapSome (isUnaryOp_ok h) ⟨hx.unary, rfl⟩) ?_
    rintro _ _ ⟨rfl, rfl⟩
    exact ok_else (by simp) hk
  cases he with
  | unary hu =>
    cases hu with
    | update hu =>
      refine key (update_begins hu) h ?_
      unfold parsePow
      sp! h
      rde! (parseUpdateExpr_ok hr hu _ _ _ _ _ hnx.toSPost h) with a ea h
      lk! h ht
      refine ok_else (by rw [ht.isP, hnx.pow]; simp) ?_
      have h : St c ps (k + left f + 1) (nx :: rest) _ := h.mono (by omega)
      es! h
      exact pure_ok ⟨ea, h⟩
    | @op _ _ _ _ _ _ n ho hu =>
      obtain ⟨h1, -, h2, h3⟩ := unaryOp_word (n := n) ho
      refine Sat.bind (P := fun b s' => b = true ∧ s' = s) (Sat.unwrapSome (isUnaryOp_ok h) ⟨h1, rfl⟩) ?_
      rintro _ _ ⟨rfl, rfl⟩
      refine ok_then rfl ?_
      exact parseUnaryExpr_ok hr (.op ho hu) _ _ _ _ _ hnx.toSPost h
  | @pow f _ _ _ g _ _ _ hu he =>
    refine key (update_begins hu).append h ?_
    unfold parsePow
    nm! h
    sp! h
    rde! (parseUpdateExpr_ok hr hu _ _ _ _ _ sPost_pow h) with a ea h
    lk! h ht
    refine ok_then (by tk ht) ?_
    refine Sat.bind (consume_ok h rfl ((exp_begins he).append.mono fun _ h => startsExpr_fits h.start).fits) ?_
    clear h
    rintro x _ ⟨hx, h⟩
    refine Sat.bind (P := fun y s' => y = Punctuator.pow.toStr ∧ St c ps _ _ s') (Sat.unwrapSome hx.toStr_punct ⟨rfl, h⟩) ?_
    clear h
    rintro _ _ ⟨rfl, h⟩
    rde! (hr.exp he _ _ _ _ _ hnx h) with b eb h
    have h : St c ps (k + left (f || g) + 1) (nx :: rest) _ := h.mono (by cases f <;> cases g <;> simp [left] <;> omega)
    es! h
    exact pure_ok ⟨by simp only [bareNode, ea, eb]; rfl, h⟩

end Giron.Complete

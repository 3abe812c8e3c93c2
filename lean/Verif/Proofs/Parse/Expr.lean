import Verif.Proofs.Parse.Primary
/-
Specifications of the methods of `Model/Parser/Expr.lean`.
-/
namespace Giron
open M Spec
variable [Env]
namespace Parser
variable {L : Nat} {c : Cx} {r : Rec} {n : Nat} {t : Token} {s : Parser} {α β : Type}

omit [Env] in
theorem GoodE.lev {x : Ctx} {a : Node} (h : GoodE 17 L x t a) : Spec.level a = 17 :=
  Nat.le_antisymm (level_le _) h.level

/-! ### Member and call expressions -/

omit [Env] in
theorem computedGood {x : Ctx} {o p : Node} {att : ATT} {sp : Span} (ho : WF L x (.node .memberObj o))
    (hl : Spec.level o = 17) (hp : WF L x (.node .expr p)) (hsp : SpanOk L sp) :
    GoodE 17 L x t (.computedMemberExpression true o p att sp) :=
  ⟨WF.expr rfl ⟨hl, rfl⟩ ⟨fun _ => .computed, by rintro _ ⟨⟩; exact hsp, by rintro _ _ _ ⟨⟩⟩ (by simp [nodeParts, ho, hp]),
    Nat.le_refl _, Head.of rfl⟩

omit [Env] in
theorem staticGood {x : Ctx} {o : Node} {name : Str} {att att' : ATT} {sp sp' : Span}
    (ho : WF L x (.node .memberObj o)) (hl : Spec.level o = 17) (hsp : SpanOk L sp) :
    GoodE 17 L x t (.staticMemberExpression false o (.identifier name att' sp') att sp) := by
  refine ⟨WF.expr rfl ⟨hl, rfl⟩ ⟨fun _ => .static, by rintro _ ⟨⟩; exact hsp, by rintro _ _ _ ⟨⟩⟩ ?_,
    Nat.le_refl _, Head.of rfl⟩
  simp only [nodeParts, AllWF_cons, ho, true_and, AllWF_nil, and_true]
  exact WF.plain ⟨rfl, trivial, by simp [Role.isExprLike], by simp [Role.isRef]⟩ (by simp [children, nodeParts])

omit [Env] in
theorem memberObj_of {x : Ctx} {o : Node} (h : WF L x (.node .expr o)) : WF L x (.node .memberObj o) :=
  h.exprTo .memberObj (fun _ => Or.inl h.exprIs)
omit [Env] in
theorem callee_of {x : Ctx} {o : Node} (h : WF L x (.node .expr o)) : WF L x (.node .callee o) :=
  h.exprTo .callee (fun _ => Or.inl h.exprIs)

theorem parseComputedMemberExpr_sat {o : Node} (ho : WF L c.x (.node .memberObj o)) (hl : Spec.level o = 17)
    (hE : RecE L r n) (hS : RecS L r n) (hs : St L c (n + 1) t s) :
    Sat (ParseFail L) (parseComputedMemberExpr r o) s (fun a s' => ∃ t', St L c n t' s' ∧
      ∀ t, GoodE 17 L c.x t a) := by
  unfold parseComputedMemberExpr
  w_start
  w_call a ha t1
  w_call e he t2
  w_end sp hsp
  w_call b hb t3
  exact ⟨_, hs, fun _ => computedGood ho hl he.wf hsp⟩

theorem parseStaticMemberExpr_sat (r : Rec) {o : Node} (ho : WF L c.x (.node .memberObj o)) (hl : Spec.level o = 17)
    (hE : RecE L r n) (hS : RecS L r n) (hs : St L c (n + 1) t s) :
    Sat (ParseFail L) (parseStaticMemberExpr o) s (fun a s' => ∃ t', St L c n t' s' ∧
      ∀ t, GoodE 17 L c.x t a) := by
  unfold parseStaticMemberExpr
  w_start
  w_call a ha t1
  w_start
  w_call e he t2
  w_end sp hsp
  w_end sp' hsp'
  exact ⟨_, hs, fun _ => staticGood ho hl hsp'⟩

theorem parseTaggedTemplate_sat {o : Node} (ho : WF L c.x (.node .expr o)) (hl : Spec.level o = 17)
    (hE : RecE L r n) (hS : RecS L r n) (hs : St L c (n + 1) t s) :
    Sat (ParseFail L) (parseTaggedTemplate r o) s (fun a s' => ∃ t', St L c n t' s' ∧
      ∀ t, GoodE 17 L c.x t a) := by
  unfold parseTaggedTemplate
  w_call p hp t1
  obtain ⟨qs, es, sp⟩ := p
  refine ⟨_, hs, fun _ => GoodE.mk' ⟨hl, hp.1⟩ hp.2.1 ?_⟩
  simp only [nodeParts, AllWF_cons, AllWF_exprs]
  exact ⟨ho, hp.2.2⟩

/-- `super` in the slots where it may stand -/
structure SuperQ (L : Nat) (x : Ctx) (a : Node) : Prop where
  obj : WF L x (.node .memberObj a)
  callee : WF L x (.node .callee a)
  level : Spec.level a = 17

instance : Does .adv L c r parseSuper (fun _ => True) (fun _ a _ => SuperQ L c.x a) :=
  ⟨fun {n t s} hE hS hs _ => by
    unfold parseSuper
    w_start
    w_call a ha t1
    w_cur
    w_if h
    w_end sp hsp
    exact ⟨_, hs, WF.plain ⟨Or.inr rfl, trivial, by simp [Role.isExprLike], by simp [Role.isRef]⟩ (by simp [children, nodeParts]),
      WF.plain ⟨Or.inr rfl, trivial, by simp [Role.isExprLike], by simp [Role.isRef]⟩ (by simp [children, nodeParts]), rfl⟩⟩

omit [Env] in
theorem St.tight (hs : St L c n t s) : St L c (s.size + 1) t s := ⟨hs.1, hs.2, hs.3, hs.4, Nat.lt_succ_self _, hs.6⟩

theorem memberLoopF_sat (m : Nat) {o : Node} {t0 : Token} (ho : GoodE 17 L c.x t0 o) (hE : RecE L r n)
    (hS : RecS L r n) (hs : St L c n t s) (hm : s.size < m) :
    Sat (ParseFail L) (memberLoopF r m o) s (fun a s' => ∃ t', St L c n t' s' ∧ GoodE 17 L c.x t0 a) := by
  induction m generalizing t s o with
  | zero => omega
  | succ m ih =>
    unfold memberLoopF
    w_cur
    have hsz := hs.size
    have hE' : RecE L r s.size := hE.mono (Nat.le_of_lt hsz)
    have hS' : RecS L r s.size := hS.mono (Nat.le_of_lt hsz)
    have next : ∀ a s', (∃ t', St L c s.size t' s' ∧ ∀ t, GoodE 17 L c.x t a) →
        Sat (ParseFail L) (memberLoopF r m a) s' (fun a s' => ∃ t', St L c n t' s' ∧ GoodE 17 L c.x t0 a) := by
      rintro a s' ⟨t', hs', ha⟩
      exact ih (ha t0) (hs'.mono (Nat.le_of_lt hsz)) (by have := hs'.size; omega)
    w_if h
    · exact Sat.bind (parseComputedMemberExpr_sat (memberObj_of ho.wf) ho.lev hE' hS' hs.tight) next
    w_if h
    · exact Sat.bind (parseStaticMemberExpr_sat r (memberObj_of ho.wf) ho.lev hE' hS' hs.tight) next
    w_if h
    · exact Sat.bind (parseTaggedTemplate_sat ho.wf ho.lev hE' hS' hs.tight) next
    · exact ⟨_, hs, ho⟩

instance : Does .adv L c r (parseMemberHead r) (fun _ => True) (fun t a _ => GoodE 17 L c.x t a) :=
  ⟨fun {n t s} hE hS hs _ => by
    unfold parseMemberHead
    w_cur
    w_if h
    · w_call o ho t1
      w_cur
      w_if h
      · exact (parseComputedMemberExpr_sat ho.obj ho.level hE hS (hs.mono (Nat.le_succ _))).mono
          (fun a s' ⟨t', h1, h2⟩ => ⟨t', h1, h2 _⟩)
      w_if h
      exact (parseStaticMemberExpr_sat r ho.obj ho.level hE hS (hs.mono (Nat.le_succ _))).mono
          (fun a s' ⟨t', h1, h2⟩ => ⟨t', h1, h2 _⟩)
    · w_tail a ha t1
      exact ha⟩

instance : Does .adv L c r (parseMemberExpr r) (fun _ => True) (fun t a _ => GoodE 17 L c.x t a) :=
  ⟨fun {n t s} hE hS hs _ => by
    unfold parseMemberExpr
    w_call o ho t1
    exact memberLoopF_sat _ ho hE hS hs (Nat.lt_succ_self _)⟩

omit [Env] in
theorem callGood {x : Ctx} {o : Node} {args : List ArgumentListElement} {sp : Span} {att : ATT} (hatt : att = .invalid)
    (ho : WF L x (.node .callee o))
    (hl : Spec.level o = 17) (hargs : ∀ a ∈ args, WF L x (.arg a)) (hsp : SpanOk L sp) :
    GoodE 17 L x t (.callExpression o args att sp) := by
  subst hatt
  refine GoodE.mk' hl hsp ?_
  simp only [nodeParts, AllWF_cons, AllWF_map]
  exact ⟨ho, hargs⟩

theorem callLoopF_sat (m : Nat) {o : Node} {t0 : Token} (ho : GoodE 17 L c.x t0 o) (hE : RecE L r n)
    (hS : RecS L r n) (hs : St L c n t s) (hm : s.size < m) :
    Sat (ParseFail L) (callLoopF r m o) s (fun a s' => ∃ t', St L c n t' s' ∧ GoodE 17 L c.x t0 a) := by
  induction m generalizing t s o with
  | zero => omega
  | succ m ih =>
    unfold callLoopF
    w_cur
    have hsz := hs.size
    have hE' : RecE L r s.size := hE.mono (Nat.le_of_lt hsz)
    have hS' : RecS L r s.size := hS.mono (Nat.le_of_lt hsz)
    have next : ∀ a s', (∃ t', St L c s.size t' s' ∧ ∀ t, GoodE 17 L c.x t a) →
        Sat (ParseFail L) (callLoopF r m a) s' (fun a s' => ∃ t', St L c n t' s' ∧ GoodE 17 L c.x t0 a) := by
      rintro a s' ⟨t', hs', ha⟩
      exact ih (ha t0) (hs'.mono (Nat.le_of_lt hsz)) (by have := hs'.size; omega)
    w_if h
    · refine Does.call_adv hE' hS' hs.tight trivial ?_
      intro args s1 t1 hs1 hargs
      refine peekSpan_bind hs1 (fun sp hsp => ?_)
      exact next _ _ ⟨_, hs1, fun _ => callGood rfl (callee_of ho.wf) ho.lev hargs hsp⟩
    w_if h
    · exact Sat.bind (parseComputedMemberExpr_sat (memberObj_of ho.wf) ho.lev hE' hS' hs.tight) next
    w_if h
    · exact Sat.bind (parseStaticMemberExpr_sat r (memberObj_of ho.wf) ho.lev hE' hS' hs.tight) next
    w_if h
    · exact Sat.bind (parseTaggedTemplate_sat ho.wf ho.lev hE' hS' hs.tight) next
    · exact ⟨_, hs, ho⟩

theorem parseCallExprTail_sat {o : Node} {t0 : Token} (ho : GoodE 17 L c.x t0 o) (hE : RecE L r n)
    (hS : RecS L r n) (hs : St L c n t s) :
    Sat (ParseFail L) (parseCallExprTail r o) s (fun a s' => ∃ t', St L c n t' s' ∧ GoodE 17 L c.x t0 a) := by
  unfold parseCallExprTail
  refine Sat.bind (callLoopF_sat _ ho hE hS hs (Nat.lt_succ_self _)) ?_
  rintro a s ⟨t', hs, ha⟩
  w_end sp hsp
  exact ⟨_, hs, ha⟩

instance : Does .adv L c r (parseCallHead r) (fun _ => True) (fun t a _ => GoodE 17 L c.x t a) :=
  ⟨fun {n t s} hE hS hs _ => by
    unfold parseCallHead
    w_cur
    w_if h
    · w_call o ho t1
      w_cur
      w_if h
      · w_call args hargs t2
        w_peek sp hsp
        exact ⟨_, hs, callGood rfl ho.callee ho.level hargs hsp⟩
      w_if h
      · exact (parseComputedMemberExpr_sat ho.obj ho.level hE hS (hs.mono (Nat.le_succ _))).mono
          (fun a s' ⟨t', h1, h2⟩ => ⟨t', h1, h2 _⟩)
      w_if h
      exact (parseStaticMemberExpr_sat r ho.obj ho.level hE hS (hs.mono (Nat.le_succ _))).mono
          (fun a s' ⟨t', h1, h2⟩ => ⟨t', h1, h2 _⟩)
    · w_tail a ha t1
      exact ha⟩

instance : Does .adv L c r (parseCallExpr r) (fun _ => True) (fun t a _ => GoodE 17 L c.x t a) :=
  ⟨fun {n t s} hE hS hs _ => by
    unfold parseCallExpr
    w_start
    w_call o ho t1
    exact parseCallExprTail_sat ho hE hS hs⟩

theorem parseNewTarget_sat (r : Rec) {nt t0 : Token} {sp : Span} (hnt : nt.isKw cs!"new" = true)
    (hE : RecE L r n) (hS : RecS L r n) (hs : St L c n t s) :
    Sat (ParseFail L) (parseNewTarget nt sp) s (fun a s' => ∃ t', St L c n t' s' ∧ GoodE 17 L c.x t0 a) := by
  unfold parseNewTarget
  w_call a ha t1
  w_cur
  w_if h
  w_call b hb t2
  subst hb
  rw [value_of_isKw hnt, value_of_isId h]
  refine unwrap_bind (fun _ _ => ?_) (by simp [Value.string?])
  refine unwrap_bind (fun _ _ => ?_) (by simp [Value.string?])
  w_end sp' hsp'
  refine ⟨_, hs, GoodE.mk' trivial hsp' ?_⟩
  simp only [nodeParts, AllWF_cons, AllWF_nil, and_true]
  constructor <;> exact WF.plain ⟨rfl, trivial, by simp [Role.isExprLike], by simp [Role.isRef]⟩ (by simp [children, nodeParts])

omit [Env] in
theorem newGood {x : Ctx} {o : Node} {args : List ArgumentListElement} {sp : Span} {att : ATT} (hatt : att = .invalid)
    (ho : WF L x (.node .expr o))
    (hl : Spec.level o = 17) (hargs : ∀ a ∈ args, WF L x (.arg a)) (hsp : SpanOk L sp) :
    GoodE 17 L x t (.newExpression o args att sp) := by
  subst hatt
  refine GoodE.mk' hl hsp ?_
  simp only [nodeParts, AllWF_cons, AllWF_map]
  exact ⟨ho, hargs⟩

theorem parseNewCallee_sat {t0 : Token} (hE : RecE L r n) (hS : RecS L r n) (hs : St L c n t s) :
    Sat (ParseFail L) (parseNewCallee r) s (fun a s' => ∃ t', St L c n t' s' ∧ GoodE 17 L c.x t0 a) := by
  unfold parseNewCallee
  w_call o ho t1
  w_cur
  w_sub (fun l => ∀ a ∈ l, WF L c.x (.arg a))
  · w_if h
    · w_tail l hl t2
      exact hl
    · exact ⟨_, hs, by simp⟩
  · rintro l s ⟨t2, hs, hl⟩
    w_end sp hsp
    exact parseCallExprTail_sat (newGood rfl ho.wf ho.lev hl hsp) hE hS hs

instance : Does .adv L c r (parseNewExpr r) (fun _ => True) (fun t a _ => GoodE 17 L c.x t a) :=
  ⟨fun {n t s} hE hS hs _ => by
    unfold parseNewExpr
    w_start
    w_call nt hnt t1
    obtain ⟨rfl, hnt⟩ := hnt
    w_peek sp hsp
    w_cur
    w_if h
    · exact parseNewTarget_sat r hnt hE hS hs
    w_if h
    · w_call o ho t2
      w_end sp' hsp'
      exact ⟨_, hs, newGood rfl ho.wf ho.lev (by simp) hsp'⟩
    · exact parseNewCallee_sat hE hS hs⟩

instance : Does .adv L c r (parseLeftHandSideExpr r) (fun _ => True) (fun t a _ => GoodE 17 L c.x t a) :=
  ⟨fun {n t s} hE hS hs _ => by
    unfold parseLeftHandSideExpr
    w_cur
    w_if h
    · w_tail a ha t1
      exact ha
    · w_tail a ha t1
      exact ha⟩

/-! ### Unary operators -/

omit [Env] in
theorem updateOp_mem {o : Str} (h : t.isUpdateOp = true) (ho : t.toStr? = some o) : o ∈ updateOps := by
  unfold Token.isUpdateOp at h
  split at h
  · rename_i hv
    simp only [Token.toStr?, hv, Option.some.injEq] at ho
    subst ho
    decide
  · rename_i hv
    simp only [Token.toStr?, hv, Option.some.injEq] at ho
    subst ho
    decide
  · cases h

omit [Env] in
theorem updateOp_not_eof (htok : TokOk L t) (h : t.isUpdateOp = true) : t.tokentype ≠ .eof := by
  unfold Token.isUpdateOp at h
  split at h
  · rename_i hv
    exact not_eof_of_value htok hv (by simp)
  · rename_i hv
    exact not_eof_of_value htok hv (by simp)
  · cases h

omit [Env] in
theorem updateGood {x : Ctx} {a : Node} {o : Str} {p : Bool} {sp : Span} {att : ATT} (hatt : att = .invalid)
    (ha : WF L x (.node .expr a))
    (hs : ¬ (a.assignTargetType = .invalid ∨ a.assignTargetType = .strict)) (ho : o ∈ updateOps) (hsp : SpanOk L sp) :
    GoodE 16 L x t (.updateExpression o a p att sp) := by
  subst hatt
  have : a.assignTargetType = .simple := by
    cases h : a.assignTargetType <;> simp_all
  exact GoodE.mk' ⟨ho, exprOk_plain ha this⟩ hsp (by simp [nodeParts, ha])

theorem fail_tok {e : ErrorType} {col : Nat} {Q : α → Parser → Prop} (h : TokOk L t) :
    Sat (ParseFail L) (fail (.err ⟨t.lineNum, col, e⟩) : PM α) s Q := ⟨h.2.1, h.2.2⟩

instance : Does .adv L c r (parsePrefixUpdate r) (fun t => t.isUpdateOp = true) (fun t a _ => GoodE 16 L c.x t a) :=
  ⟨fun {n t s} hE hS hs hp => by
    have htok := hs.tok
    unfold parsePrefixUpdate
    w_start
    have hne := updateOp_not_eof htok hp
    w_call o ho t1
    have ht1 := hs.tok
    w_cur
    w_call e he t2
    w_if h
    · exact fail_tok ht1
    · w_end sp hsp
      exact ⟨_, hs, updateGood rfl he.wf h (updateOp_mem hp ho) hsp⟩⟩

instance : Does .adv L c r (parsePostfix r) (fun _ => True) (fun t a _ => GoodE 16 L c.x t a) :=
  ⟨fun {n t s} hE hS hs hp => by
    have htok := hs.tok
    unfold parsePostfix
    w_start
    w_cur
    w_call e he t1
    w_get
    w_if h
    · w_if h1
      · exact fail_tok htok
      · have hne := updateOp_not_eof hs.tok h.2
        w_call o ho t2
        w_end sp hsp
        exact ⟨_, hs, updateGood rfl he.wf h1 (updateOp_mem h.2 ho) hsp⟩
    · exact ⟨_, hs, he.lower (by decide)⟩⟩

instance : Does .adv L c r (parseUpdateExpr r) (fun _ => True) (fun t a _ => GoodE 16 L c.x t a) :=
  ⟨fun {n t s} hE hS hs hp => by
    unfold parseUpdateExpr
    w_cur
    w_if h
    · w_tail a ha t1
      exact ha
    · w_tail a ha t1
      exact ha⟩

omit [Env] in
theorem unaryOp_mem {o : Str} {aw : Bool} (h : t.isUnaryOp aw = some true) (ho : t.toStr? = some o) :
    o ∈ unaryOps ∧ t.value ≠ .null := by
  unfold Token.isUnaryOp at h
  split at h
  · cases h
  · rename_i k hk
    simp only [Option.some.injEq, Bool.or_eq_true] at h
    rcases h with h | h
    · unfold Token.isUnaryPunc at h
      split at h
      all_goals first
        | cases h; done
        | (rename_i hv
           simp only [Token.toStr?, hv, Option.some.injEq] at ho
           subst ho
           refine ⟨by decide, by simp [hv]⟩)
    · subst h
      refine ⟨?_, ?_⟩
      · unfold Token.isUnaryKeyword at hk
        split at hk
        · simp only [ho, Option.some.injEq, Bool.or_eq_true, Bool.and_eq_true, beq_iff_eq] at hk
          rcases hk with ((rfl | rfl) | rfl) | ⟨rfl, -⟩ <;> decide
        · cases hk
      · intro hv
        simp [Token.toStr?, hv] at ho

omit [Env] in
theorem unaryOp_not_eof {aw : Bool} (htok : TokOk L t) (h : t.isUnaryOp aw = some true) : t.tokentype ≠ .eof := by
  intro he
  have := htok.1
  simp only [TokShape, he] at this
  simp [Token.isUnaryOp, Token.isUnaryKeyword, he, Token.isUnaryPunc, this] at h

instance : Does .adv L c r (parseUnaryOp r) (fun t => t.isUnaryOp c.params.hasAwait = some true)
    (fun t a _ => GoodE 15 L c.x t a) :=
  ⟨fun {n t s} hE hS hs hp => by
    have htok := hs.tok
    unfold parseUnaryOp
    w_start
    have hne := unaryOp_not_eof htok hp
    w_call o ho t1
    w_call e he t2
    w_end sp hsp
    exact ⟨_, hs, GoodE.mk' ⟨⟨(unaryOp_mem hp ho).1, he.level⟩, rfl⟩ hsp (by simp [nodeParts, he.wf])⟩⟩

instance : Does .adv L c r (parseUnaryExpr r) (fun _ => True) (fun t a _ => GoodE 15 L c.x t a) :=
  ⟨fun {n t s} hE hS hs hp => by
    unfold parseUnaryExpr
    w_get
    w_if h
    · refine unwrap_bind (fun b hb => ?_) (fun _ => trivial)
      w_if h1
      · subst h1
        w_tail a ha t1
        exact ha
      · w_tail a ha t1
        exact ha.lower (by decide)
    · w_tail a ha t1
      exact ha.lower (by decide)⟩

instance : Does .adv L c r (parsePow r) (fun _ => True) (fun t a _ => GoodE 14 L c.x t a) :=
  ⟨fun {n t s} hE hS hs hp => by
    unfold parsePow
    w_start
    w_call l hl t1
    w_cur
    w_if h
    · w_call a ha t2
      obtain ⟨rfl, hv⟩ := ha
      simp only [Token.toStr?, hv]
      refine unwrap_bind (fun o ho => ?_) (by simp)
      simp only [Option.some.injEq] at ho
      subst ho
      w_call e he t3
      w_end sp hsp
      exact ⟨_, hs, GoodE.mk' ⟨by decide, by simpa [Punctuator.toStr] using ⟨hl.level, he.level⟩⟩ hsp
        (by simp [nodeParts, hl.wf, he.wf]) (hlv := by show 14 ≤ 2 + binPrec cs!"**"; decide)⟩
    · w_end sp hsp
      exact ⟨_, hs, hl.lower (by decide)⟩⟩

instance : Does .adv L c r (parseExponentiationExpr r) (fun _ => True) (fun t a _ => GoodE 14 L c.x t a) :=
  ⟨fun {n t s} hE hS hs hp => by
    unfold parseExponentiationExpr
    w_get
    refine unwrap_bind (fun b hb => ?_) (fun _ => trivial)
    w_if h1
    · w_tail a ha t1
      exact ha.lower (by decide)
    · w_tail a ha t1
      exact ha⟩

end Parser
end Giron

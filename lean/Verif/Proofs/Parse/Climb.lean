import Verif.Proofs.Parse.Expr
/-
Specifications of the methods of `Model/Parser/Expr.lean`, continued: binary operators and assignment.
-/
namespace Giron
open M Spec
variable [Env]
namespace Parser
variable {L : Nat} {c : Cx} {r : Rec} {n : Nat} {t : Token} {s : Parser} {α β : Type}

omit [Env] in
theorem ite_le_of {c : Prop} [Decidable c] {a b k : Nat} (ha : a ≤ k) (hb : b ≤ k) : (if c then a else b) ≤ k := by
  by_cases h : c <;> simp [h, ha, hb]

omit [Env] in
theorem precedence_le (t : Token) (b : Bool) : t.precedence b ≤ 11 := by
  unfold Token.precedence
  split
  · repeat' (refine ite_le_of (by decide) ?_)
    decide
  · repeat' (refine ite_le_of (by decide) ?_)
    decide
  · decide

omit [Env] in
/-- the operator string of a binary operator token -/
theorem binOp_str {b : Bool} {o : Str} (hp : 1 ≤ t.precedence b) (ho : t.toStr? = some o) :
    binPrec o = t.precedence b ∧ o ≠ cs!"**" ∧ t.tokentype ≠ .eof := by
  unfold Token.precedence at hp ⊢
  split at hp
  · rename_i ht
    simp only [ht]
    unfold Token.toStr? at ho
    split at ho
    · rename_i v hv
      simp [Token.matchesPunc, hv] at hp
    · rename_i p hv
      simp only [Option.some.injEq] at ho
      subst ho
      simp only [Token.matchesPunc, hv, Value.punc.injEq] at hp ⊢
      revert hp
      cases p <;> decide
    · cases ho
  · rename_i ht
    simp only [ht]
    split at hp
    · rename_i h
      rw [if_pos h]
      simp only [Token.toStr?, value_of_matchesStr h, Option.some.injEq] at ho
      subst ho
      exact ⟨by decide, by decide, by decide⟩
    · rename_i h
      rw [if_neg h]
      split at hp
      · rename_i h'
        rw [if_pos h']
        simp only [Bool.and_eq_true] at h'
        simp only [Token.toStr?, value_of_matchesStr h'.1, Option.some.injEq] at ho
        subst ho
        exact ⟨by decide, by decide, by decide⟩
      · omega
  · omega

omit [Env] in
theorem prec_not_eof {b : Bool} (hp : 1 ≤ t.precedence b) : t.tokentype ≠ .eof := by
  intro h
  simp [Token.precedence, h] at hp

/-- The invariant of the inner loop: the operand binds tighter than the operator before it and the one after. -/
structure Operand (L : Nat) (c : Cx) (p : Nat) (rhs : Node) (t : Token) : Prop where
  wf : WF L c.x (.node .expr rhs)
  left : 2 + p < Spec.level rhs
  right : t.isBinOp = true → 2 + t.precedence c.params.hasIn ≤ Spec.level rhs

theorem climbInnerF_sat (m : Nat) {p : Nat} {rhs : Node} (hr : Operand L c p rhs t)
    (hE : RecE L r n) (hS : RecS L r n) (hs : St L c n t s) (hm : s.size < m) :
    Sat (ParseFail L) (climbInnerF r p m rhs) s (fun a s' => ∃ t', St L c n t' s' ∧
      WF L c.x (.node .expr a) ∧ 2 + p < Spec.level a ∧ NoOp c (p + 1) t') := by
  induction m generalizing t s rhs with
  | zero => omega
  | succ m ih =>
    unfold climbInnerF
    w_get
    have hsz := hs.size
    w_if h
    · obtain ⟨h1, h2⟩ := h
      have hE1 : RecE L r (s.size + 1) := hE.mono hsz
      have hS' : RecS L r s.size := hS.mono (Nat.le_of_lt hsz)
      refine Does.call_advE hE1 hS' hs.tight ⟨h1, Nat.le_refl _, by omega, hr.wf, hr.right h1⟩ ?_
      rintro a s' t' hs' ⟨ha, hno⟩
      refine ih ⟨ha.wf, ?_, ?_⟩ (hs'.mono (Nat.le_of_lt hsz)) (by have := hs'.size; omega)
      · have := ha.level; omega
      · intro hb
        have := hno hb
        have := ha.level
        omega
    · refine ⟨_, hs, hr.wf, hr.left, fun hb => ?_⟩
      have : ¬ t.precedence c.params.hasIn > p := fun h' => h ⟨hb, h'⟩
      omega

theorem climbStep_sat {lhs : Node} (h1 : 1 ≤ t.precedence c.params.hasIn)
    (hw : WF L c.x (.node .expr lhs)) (hl : 2 + t.precedence c.params.hasIn ≤ Spec.level lhs)
    (hE : RecE L r n) (hS : RecS L r n) (hs : St L c (n + 1) t s) :
    Sat (ParseFail L) (climbStep r lhs) s (fun a s' => ∃ t', St L c n t' s' ∧
      (∀ t0, GoodE (2 + t.precedence c.params.hasIn) L c.x t0 a) ∧
      Spec.level a = 2 + t.precedence c.params.hasIn ∧
      NoOp c (t.precedence c.params.hasIn + 1) t') := by
  unfold climbStep
  have hne := prec_not_eof h1
  w_call a ha t1
  subst ha
  w_call e he t2
  w_get
  have hle := precedence_le t c.params.hasIn
  refine Sat.bind (climbInnerF_sat _ ⟨he.wf, ?_, fun _ => ?_⟩ hE hS hs (Nat.lt_succ_self _)) ?_
  · have := he.level; omega
  · have := he.level; have := precedence_le t2 c.params.hasIn; omega
  · rintro rhs s ⟨t3, hs, h3, h4, h5⟩
    refine unwrap_bind (fun o ho => ?_) (fun _ => trivial)
    obtain ⟨e1, e2, -⟩ := binOp_str h1 ho
    w_end sp hsp
    w_start
    refine ⟨_, hs, fun _ => GoodE.mk' ⟨by omega, ?_⟩ hsp (by simp [nodeParts, hw, h3])
      (hlv := by simp [Spec.level, e1]), by simp [Spec.level, e1], h5⟩
    rw [if_neg e2, e1]
    exact ⟨hl, h4⟩

theorem climbF_sat (m : Nat) {prec : Nat} {lhs : Node} {t0 : Token} (hp : 1 ≤ prec)
    (hg : GoodE (2 + prec) L c.x t0 lhs)
    (hl : t.isBinOp = true → 2 + t.precedence c.params.hasIn ≤ Spec.level lhs)
    (hE : RecE L r n) (hS : RecS L r n) (hs : St L c n t s) (hm : s.size < m) :
    Sat (ParseFail L) (climbF r prec m lhs) s (fun a s' => ∃ t', St L c n t' s' ∧
      GoodE (2 + prec) L c.x t0 a ∧ NoOp c prec t') := by
  induction m generalizing t s lhs with
  | zero => omega
  | succ m ih =>
    unfold climbF
    w_get
    have hsz := hs.size
    w_if h
    · obtain ⟨h1, h2⟩ := h
      have hE' : RecE L r s.size := hE.mono (Nat.le_of_lt hsz)
      have hS' : RecS L r s.size := hS.mono (Nat.le_of_lt hsz)
      refine Sat.bind (climbStep_sat (by omega) hg.wf (hl h1) hE' hS' hs.tight) ?_
      rintro a s' ⟨t', hs', ha, hlev, hno⟩
      refine ih ((ha t0).lower (by omega)) ?_ (hs'.mono (Nat.le_of_lt hsz)) (by have := hs'.size; omega)
      intro hb
      have := hno hb
      omega
    · refine ⟨_, hs, hg, fun hb => ?_⟩
      have : ¬ t.precedence c.params.hasIn ≥ prec := fun h' => h ⟨hb, h'⟩
      omega

theorem precedenceClimbing_sat {prec : Nat} {lhs : Node} {t0 : Token} (hp : 1 ≤ prec)
    (hg : GoodE (2 + prec) L c.x t0 lhs)
    (hl : t.isBinOp = true → 2 + t.precedence c.params.hasIn ≤ Spec.level lhs)
    (hE : RecE L r n) (hS : RecS L r n) (hs : St L c n t s) :
    Sat (ParseFail L) (precedenceClimbing r lhs prec) s (fun a s' => ∃ t', St L c n t' s' ∧
      GoodE (2 + prec) L c.x t0 a ∧ NoOp c prec t') := by
  unfold precedenceClimbing
  refine Sat.bind (climbF_sat _ hp hg hl hE hS hs (Nat.lt_succ_self _)) ?_
  rintro a s ⟨t', hs, ha⟩
  w_end sp hsp
  exact ⟨_, hs, ha⟩

instance {lhs : Node} {prec : Nat} : Does .adv L c r (precedenceClimbing r lhs prec)
    (fun t => ClimbPre L c lhs prec t) (fun t a t' => GoodE (2 + prec) L c.x t a ∧ NoOp c prec t') :=
  ⟨fun {n t s} hE hS hs hp => by
    unfold precedenceClimbing
    refine Sat.bind (P := fun a s' => ∃ t', St L c n t' s' ∧ GoodE (2 + prec) L c.x t a ∧ NoOp c prec t') ?_ ?_
    · show Sat _ (climbF r prec (s.size + 1) lhs) s _
      unfold climbF
      w_get
      have h1 := hp.hprec
      have h2 := hp.pos
      have hsz := hs.size
      have hsz' : s.size ≤ n := Nat.le_of_lt_succ hsz
      refine Sat.ite (fun _ => ?_) (fun h => absurd ⟨hp.op, h1⟩ h)
      refine Sat.bind (climbStep_sat (by omega) hp.wf hp.lev (hE.mono hsz') (hS.mono hsz') hs.tight) ?_
      rintro a s' ⟨t', hs', ha, hlev, hno⟩
      refine climbF_sat _ h2 ((ha t).lower (by omega)) (fun hb => ?_) hE hS (hs'.mono hsz') hs'.size
      have := hno hb
      omega
    · rintro a s ⟨t', hs, ha⟩
      w_end sp hsp
      exact ⟨_, hs, ha⟩⟩

instance : Does .adv L c r (parseBinaryExpr r) (fun _ => True)
    (fun t a t' => GoodE 2 L c.x t a ∧ NoOp c 1 t') :=
  ⟨fun {n t s} hE hS hs _ => by
    unfold parseBinaryExpr
    w_start
    w_call l hl t1
    refine (precedenceClimbing_sat (Nat.le_refl 1) (hl.lower (by decide)) (fun _ => ?_) hE hS hs).mono ?_
    · have := hl.level
      have := precedence_le t1 c.params.hasIn
      omega
    · rintro a s ⟨t', hs, ha, hno⟩
      exact ⟨_, hs, ha.lower (by decide), hno⟩⟩

instance : Does .adv L c r (parseConditionalExpr r) (fun _ => True)
    (fun t a t' => GoodE 1 L c.x t a ∧ (a.assignTargetType = .simple → NoOp c 1 t')) :=
  ⟨fun {n t s} hE hS hs _ => by
    unfold parseConditionalExpr
    w_start
    w_call e he t1
    w_cur
    w_if h
    · w_call a ha t2
      w_call e1 he1 t3
      w_call b hb t4
      w_call e2 he2 t5
      w_end sp hsp
      refine ⟨_, hs, GoodE.mk' he.1.level hsp ?_, by simp [Node.assignTargetType]⟩
      simp [nodeParts, he.1.wf, he1.wf, he2.wf]
    · exact ⟨_, hs, he.1.lower (by decide), fun _ => he.2⟩⟩

/-! ### Assignment -/

theorem parseSingleParamArrow_sat {name : Str} {t0 : Token} (hn : NameIn c.x.strict name) (hE : RecE L r n) (hS : RecS L r n)
    (hs : St L c n t s) :
    Sat (ParseFail L) (parseSingleParamArrow r name) s (fun a s' => ∃ t', St L c n t' s' ∧ GoodE 0 L c.x t0 a ∧
      a.assignTargetType = .invalid) := by
  unfold parseSingleParamArrow
  w_call a ha t1
  w_call p hp t2
  obtain ⟨b, e⟩ := p
  w_end sp hsp
  exact ⟨_, hs, GoodE.mk' ⟨trivial, rfl, rfl, rfl⟩ hsp (arrowOneWF hn hp), rfl⟩

omit [Env] in
theorem yieldOk {b : Bool} : NameIn b cs!"yield" := ⟨Or.inr (Or.inl rfl), fun _ => by decide⟩

instance : Does .adv L c r (parseYieldExpr r) (fun _ => True) (fun t a _ => GoodE 0 L c.x t a) :=
  ⟨fun {n t s} hE hS hs _ => by
    unfold parseYieldExpr
    w_start
    w_call a ha t1
    w_get
    w_if h
    · w_if h1
      · w_call a' ha' t2
        w_call e he t3
        w_end sp hsp
        exact ⟨_, hs, GoodE.mk' trivial hsp (by simp [nodeParts, he.wf])⟩
      w_if h1
      · exact (parseSingleParamArrow_sat yieldOk hE hS hs).mono (fun a s' ⟨t', h1, h2, _⟩ => ⟨t', h1, h2⟩)
      · w_call e he t3
        w_end sp hsp
        exact ⟨_, hs, GoodE.mk' trivial hsp (by simp [nodeParts, he.wf])⟩
    · w_end sp hsp
      exact ⟨_, hs, GoodE.mk' trivial hsp (by simp [nodeParts])⟩⟩

theorem arrowIfIdentifier_sat {l : Node} {t0 : Token} (hl : GoodE 0 L c.x t0 l)
    (hno : l.assignTargetType = .simple → NoOp c 1 t) (hE : RecE L r n) (hS : RecS L r n)
    (hs : St L c n t s) :
    Sat (ParseFail L) (arrowIfIdentifier r l) s (fun a s' => ∃ t', St L c n t' s' ∧ GoodE 0 L c.x t0 a ∧
      (a.assignTargetType = .simple → NoOp c 1 t')) := by
  unfold arrowIfIdentifier
  split
  · rename_i name att sp
    w_cur
    w_if h
    · refine (parseSingleParamArrow_sat (t0 := t0) (((hl.wf.loc' rfl).2.2.1 rfl rfl).name _ _ _ rfl) hE hS hs).mono ?_
      rintro a s' ⟨t', h1, h2, h3⟩
      exact ⟨t', h1, h2, by simp [h3]⟩
    · exact ⟨_, hs, hl, hno⟩
  · exact ⟨_, hs, hl, hno⟩

omit [Env] in
theorem asgGood {x : Ctx} {l e : Node} {o : Str} {sp : Span} {att : ATT} (hatt : att = .invalid)
    (hl : WF L x (.node .target l)) (he : WF L x (.node .expr e)) (ho : o ∈ assignOps)
    (hs : o ≠ cs!"=" → SimpleTarget x.strict l) (hsp : SpanOk L sp) :
    GoodE 0 L x t (.assignmentExpression o l e att sp) := by
  subst hatt
  exact GoodE.mk' ⟨ho, hs⟩ hsp (by simp [nodeParts, hl, he])

theorem parseAssignTail_sat {l : Node} {t0 : Token} (hl : GoodE 0 L c.x t0 l) (_hne : t.tokentype ≠ .eof)
    (hE : RecE L r n) (hS : RecS L r n) (hs : St L c n t s) :
    Sat (ParseFail L) (parseAssignTail r l) s (fun a s' => ∃ t', St L c n t' s' ∧ GoodE 0 L c.x t0 a) := by
  have htok := hs.tok
  unfold parseAssignTail
  w_call a ha t1
  subst ha
  refine (toAssignmentPattern_ok l hl.wf).ofExcept_bind ?_
  intro a ha
  w_if h
  · exact error_sat htok
  · simp only [ne_eq, Decidable.not_not] at h
    have hw : WF L c.x (.node .target a) := by
      rcases ha with ⟨-, -, ha⟩ | rfl
      · exact ha
      · exact targetWF (Or.inl rfl) hl.wf (exprOk_plain hl.wf h)
    w_call e he t2
    w_end sp hsp
    exact ⟨_, hs, asgGood rfl hw he.wf (by decide) (fun h => absurd rfl h) hsp⟩

omit [Env] in
/-- `==` is listed among the assignment operators, but never gets there -/
theorem assignOp_str (h : t.isAssignOp = true) (ht : t.tokentype = .punctuator) (hno : NoOp c 1 t) :
    ∃ p, t.value = .punc p ∧ p.toStr ∈ assignOps := by
  unfold Token.isAssignOp at h
  split at h
  all_goals first
    | cases h; done
    | (rename_i hv
       refine ⟨_, hv, ?_⟩
       first
         | decide
         | (have := hno (by simp [Token.isBinOp, ht, Token.matchesPunc, hv])
            simp [Token.precedence, ht, Token.matchesPunc, hv] at this))

omit [Env] in
theorem isAssignOp_punc (h : t.isAssignOp = true) : ∃ p, t.value = .punc p := by
  unfold Token.isAssignOp at h
  split at h <;> first | cases h; done | (rename_i hv; exact ⟨_, hv⟩)

theorem parseOpAssignTail_sat {l : Node} {t0 : Token} (hl : GoodE 0 L c.x t0 l)
    (hno : l.assignTargetType = .simple → NoOp c 1 t) (ht : t.tokentype = .punctuator) (ha : t.isAssignOp = true)
    (hE : RecE L r n) (hS : RecS L r n) (hs : St L c n t s) :
    Sat (ParseFail L) (parseOpAssignTail r l) s (fun a s' => ∃ t', St L c n t' s' ∧ GoodE 0 L c.x t0 a) := by
  have htok := hs.tok
  unfold parseOpAssignTail
  have hne : t.tokentype ≠ .eof := by rw [ht]; decide
  w_call a ha' t1
  subst ha'
  obtain ⟨p, hp⟩ := isAssignOp_punc ha
  simp only [hp, Value.punc?]
  refine unwrap_bind (fun q hq => ?_) (by simp)
  simp only [Option.some.injEq] at hq
  subst hq
  w_if h
  · exact error_sat htok
  · simp only [ne_eq, Decidable.not_not] at h
    obtain ⟨p', hp', hmem⟩ := assignOp_str ha ht (hno h)
    rw [hp] at hp'
    cases hp'
    have hst := exprOk_plain hl.wf h
    w_call e he t2
    w_end sp hsp
    exact ⟨_, hs, asgGood rfl (targetWF (Or.inl rfl) hl.wf hst) he.wf hmem (fun _ => hst) hsp⟩

instance : Does .adv L c r (parseAssignmentExpr r) (fun _ => True) (fun t a _ => GoodE 0 L c.x t a) :=
  ⟨fun {n t s} hE hS hs _ => by
    unfold parseAssignmentExpr
    w_get
    w_if h
    · w_tail a ha t1
      exact ha
    · w_start
      w_call l hl t1
      refine Sat.bind (arrowIfIdentifier_sat (hl.1.lower (by decide)) hl.2 hE hS hs) ?_
      rintro l s ⟨t2, hs, hl, hno⟩
      w_cur
      w_if h
      · exact parseAssignTail_sat hl (not_eof_of_isP h) hE hS hs
      w_if h
      · exact parseOpAssignTail_sat hl hno h.1 h.2 hE hS hs
      · w_end sp hsp
        exact ⟨_, hs, hl⟩⟩

end Parser
end Giron

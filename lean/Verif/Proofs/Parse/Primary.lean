import Verif.Proofs.Parse.Convert
/-
Specifications of the methods of `Model/Parser/Primary.lean`.
-/
namespace Giron
open M Spec
variable [Env]
namespace Parser
variable {L : Nat} {c : Cx} {r : Rec} {n : Nat} {t : Token} {s : Parser} {α β : Type}

/-! ### Templates -/

omit [Env] in
theorem templateTok (h : TokOk L t) (ht : t.tokentype = .template) :
    ∃ ck b, t.cooked = some ck ∧ t.tail = some b := by
  have := h.1
  simp only [TokShape, ht] at this
  obtain ⟨_, ⟨ck, h1⟩, b, h2⟩ := this
  exact ⟨ck, b, h1, h2⟩

theorem templateElementOf_sat (h : TokOk L t) (ht : t.tokentype = .template) {c : Cx} {t' : Token}
    (hs : St L c n t' s) : Sat (ParseFail L) (templateElementOf t) s (fun _ s' => St L c n t' s') := by
  obtain ⟨ck, b, h1, h2⟩ := templateTok h ht
  unfold templateElementOf
  rw [h1, h2]
  exact hs

instance : Does .adv L c r parseTemplateHead (fun _ => True) (fun _ _ _ => True) :=
  ⟨fun {n t s} hE hS hs _ => by
    have htok := hs.tok
    unfold parseTemplateHead
    w_cur
    w_if h
    w_if h1
    have hne : t.tokentype ≠ .eof := by rw [h]; decide
    w_call a ha t1
    subst ha
    exact (templateElementOf_sat htok h hs).mono (fun _ _ h => ⟨_, h, trivial⟩)⟩

instance : Does .adv L c r parseTemplateElement (fun _ => True) (fun _ _ _ => True) :=
  ⟨fun {n t s} hE hS hs _ => by
    have htok := hs.tok
    unfold parseTemplateElement
    w_cur
    w_if h
    have hne : t.tokentype ≠ .eof := by rw [h]; decide
    w_call a ha t1
    subst ha
    exact (templateElementOf_sat htok h hs).mono (fun _ _ h => ⟨_, h, trivial⟩)⟩

/-- exactly the last quasi is a tail -/
def TailOk (qs : List TemplateElement) : Prop :=
  ∀ i q, qs[i]? = some q → (q.tail = true ↔ i + 1 = qs.length)

theorem templateLoopF_sat (m : Nat) (q0 : TemplateElement) (hE : RecE L r n) (hS : RecS L r n) (hs : St L c n t s)
    (hm : s.size < m) :
    Sat (ParseFail L) (templateLoopF r m q0.tail) s (fun p s' => ∃ t', St L c n t' s' ∧
      p.1.length = p.2.length ∧ TailOk (q0 :: p.1) ∧ ∀ e ∈ p.2, WF L c.x (.node .expr e)) := by
  induction m generalizing t s n q0 with
  | zero => omega
  | succ m ih =>
    unfold templateLoopF
    refine Sat.ite (fun h => ⟨_, hs, rfl, ?_, by simp⟩) (fun h => ?_)
    · intro i q hq
      cases i with
      | zero => simp at hq; subst hq; simp [h]
      | succ i => simp at hq
    · have hsz := hs.size
      have hs' : St L c (s.size + 1) t s := ⟨hs.1, hs.2, hs.3, hs.4, Nat.lt_succ_self _, hs.6⟩
      have hE1 : RecE L r (s.size + 1) := hE.mono hsz
      have hE' : RecE L r s.size := hE.mono (Nat.le_of_lt hsz)
      have hS' : RecS L r s.size := hS.mono (Nat.le_of_lt hsz)
      refine Does.call_advE hE1 hS' hs' trivial ?_
      intro e s1 t1 hs1 he
      refine Does.call_keep hE' hS' hs1 trivial ?_
      intro q s2 t2 hs2 hq
      refine Sat.bind (ih q hE' hS' hs2 (by have := hs2.size; omega)) ?_
      rintro ⟨qs, es⟩ s3 ⟨t3, hs3, h1, h2, h3⟩
      refine ⟨_, hs3.mono (Nat.le_of_lt hsz), by simpa using h1, ?_, ?_⟩
      · intro i q' hq'
        cases i with
        | zero => simp at hq'; subst hq'; simp [h]
        | succ i =>
          have := h2 i q' (by simpa using hq')
          simp only [List.length_cons] at this ⊢
          rw [this]; omega
      · simp only [List.mem_cons]
        rintro x (rfl | hx)
        · exact he.wf
        · exact h3 x hx

instance : Does .adv L c r (parseTemplateParts r) (fun _ => True)
    (fun _ p _ => TemplateOk p.1 p.2.1 ∧ SpanOk L p.2.2 ∧ ∀ e ∈ p.2.1, WF L c.x (.node .expr e)) :=
  ⟨fun {n t s} hE hS hs _ => by
    unfold parseTemplateParts
    w_start
    w_call q hq t1
    refine Sat.bind (templateLoopF_sat _ q hE hS hs (Nat.lt_succ_self _)) ?_
    rintro ⟨qs, es⟩ s ⟨t2, hs, h1, h2, h3⟩
    w_end sp hsp
    exact ⟨_, hs, ⟨by simpa using h1, h2⟩, hsp, h3⟩⟩

instance : Does .adv L c r (parseTemplateLiteral r) (fun _ => True) (fun t a _ => GoodE 17 L c.x t a) :=
  ⟨fun {n t s} hE hS hs _ => by
    unfold parseTemplateLiteral
    w_call p hp t1
    obtain ⟨qs, es, sp⟩ := p
    exact ⟨_, hs, GoodE.mk' hp.1 hp.2.1 (by simpa [nodeParts] using hp.2.2)⟩⟩

/-! ### Functions and arguments -/

omit [Env] in
theorem idParts {x : Ctx} {o : Option Node} (h : ∀ m, o = some m → ∃ t, IdentQ L x t m) :
    ∀ m, o = some m → WF L x (.node .nameId m) := fun m hm => by
  obtain ⟨t, ht⟩ := h m hm
  exact ht.nameId

omit [Env] in
/-- No token is both a punctuator and the string `*`. -/
theorem notStar {t : Token} (h : TokOk L t) : (decide (t.tokentype = .punctuator) && t.matchesStr cs!"*") = false := by
  by_cases hp : t.tokentype = .punctuator
  · have hs := h.1
    simp only [TokShape, hp] at hs
    obtain ⟨p, hv⟩ := hs
    simp [Token.matchesStr, hv]
  · simp [hp]

omit [Env] in
theorem literalOk_of_token {t : Token} (h : TokOk L t) (hp : isLiteralToken t = true) : LiteralOk t.value := by
  have hs := h.1
  intro p hv
  simp only [isLiteralToken] at hp
  unfold TokShape at hs
  split at hp <;> rename_i ht <;> simp [ht, hv] at hs hp

instance {a : Bool} : Does .adv L c r (parseFunctionExpr r a) (fun _ => True) (fun _ a _ => ∀ t, GoodE 17 L c.x t a) :=
  ⟨fun {n t s} hE hS hs _ => by
    unfold parseFunctionExpr
    refine Sat.bind (P := fun _ s' => St L c (n + 1) t s') ?_ ?_
    · unfold when
      refine Sat.ite (fun _ => ?_) (fun _ => hs)
      have := startSpan_bind (f := fun _ => (Pure.pure () : PM Unit)) (Q := fun _ s' => St L c (n + 1) t s') hs
        (fun _ h => h)
      exact this
    · intro _ s hs
      w_call a' ha' t1
      have htok1 := hs.tok
      w_cur
      w_sub (fun o => ∀ m, o = some m → ∃ t, IdentQ L c.x t m)
      · w_if h
        · exact ⟨_, hs, by simp⟩
        · w_call i hi t2
          exact ⟨_, hs, by rintro _ ⟨⟩; exact ⟨_, hi⟩⟩
      · rintro o s ⟨t2, hs, ho⟩
        w_call ps hps t3
        w_call b hb t4
        w_end sp hsp
        refine ⟨_, hs, fun _ => GoodE.mk' ⟨hps.rest, notStar htok1, rfl⟩ hsp ?_⟩
        simp only [nodeParts, AllWF_fnParts]
        exact ⟨idParts ho, hps.wf, hb⟩⟩

instance : Does .advE L c r (argument r) (fun _ => True) (fun _ a _ => WF L c.x (.arg a)) :=
  ⟨fun {n t s} hE1 hS hs _ => by
    have hE := hE1.mono (Nat.le_succ n)
    unfold argument
    w_cur
    w_if h
    · w_start
      w_call a ha t1
      w_call e he t2
      w_end sp hsp
      w_call u hu t3
      exact ⟨_, hs, WF.plain trivial (by simp [children, he.wf])⟩
    · w_call e he t2
      w_call u hu t3
      exact ⟨_, hs, WF.plain trivial (by simp [children, he.wf])⟩⟩

instance : Does .adv L c r (parseArguments r) (fun _ => True) (fun _ l _ => ∀ a ∈ l, WF L c.x (.arg a)) :=
  ⟨fun {n t s} hE hS hs _ => by
    unfold parseArguments
    w_call a ha t1
    w_call l hl t2
    w_call b hb t3
    refine ⟨_, hs, fun x hx => ?_⟩
    obtain ⟨_, _, h⟩ := hl.1 x hx
    exact h⟩

/-! ### Parentheses and arrow functions -/

/-- An item between parentheses. -/
def SeqN (L : Nat) (x : Ctx) (e : Node) : Prop :=
  WF L x (.node .expr e) ∨ ∃ b sp, e = .restElement b sp ∧ GoodB L x b

/-- An item between parentheses, with its flag. -/
def SeqQ (L : Nat) (x : Ctx) (p : Node × Bool) : Prop :=
  WF L x (.node .expr p.1) ∨ (p.2 = true ∧ ∃ b sp, p.1 = .restElement b sp ∧ GoodB L x b)

instance : Does .advE L c r (seqItem r) (fun _ => True) (fun _ p _ => SeqQ L c.x p) :=
  ⟨fun {n t s} hE1 hS hs _ => by
    have hE := hE1.mono (Nat.le_succ n)
    unfold seqItem
    w_cur
    w_if h
    · w_start
      w_call a ha t1
      w_call b hb t2
      w_end sp hsp
      exact ⟨_, hs, Or.inr ⟨rfl, _, _, rfl, hb⟩⟩
    · w_call e he t1
      w_cur
      w_if h1
      · exact ⟨_, hs, Or.inl he.wf⟩
      · w_call a ha t2
        w_cur
        exact ⟨_, hs, Or.inl he.wf⟩⟩

theorem OkE.ofExcept_bind {e : Except Fail α} {P : α → Prop} {f : α → PM β} {Q : β → Parser → Prop} (h : OkE L e P)
    (hf : ∀ a, P a → Sat (ParseFail L) (f a) s Q) : Sat (ParseFail L) (ofExcept e >>= f) s Q := by
  cases e with
  | error f => exact h
  | ok a => exact hf a h

theorem nodeToParam_sat {last : Bool} {e : Node} (he : SeqN L c.x e) (hs : St L c n t s) :
    Sat (ParseFail L) (nodeToParam last e) s (fun p s' => St L c n t s' ∧ WF L c.x (.param .arrow p) ∧
      (isParamRest p = true → last = true)) := by
  unfold nodeToParam
  rcases he with he | ⟨b, sp, rfl, hb⟩
  · refine (toBindingPattern_ok e he).ofExcept_bind ?_
    intro a ha
    split
    · exact ⟨hs, WF.plain ha.1 (by simp [children, Mode.left, ha.2]), by simp [isParamRest]⟩
    · exact ⟨hs, WF.plain ha (by simp [children]), by simp [isParamRest]⟩
    · exact ⟨hs, WF.plain ha.1 (by simpa [children] using ha.2), by simp [isParamRest]⟩
    · exact ⟨hs, WF.plain ha.1 (by simpa [children] using ha.2), by simp [isParamRest]⟩
    · exact ha.elim
    · w_err
  · have : OkE L (toBindingPattern (.restElement b sp)) (fun a => a = .restElement b sp) := rfl
    refine this.ofExcept_bind ?_
    rintro _ rfl
    w_if h
    exact ⟨hs, WF.plain ⟨hb.isB, hb.named⟩ (by simp [children, hb.wf]), fun _ => h⟩

theorem seqToArrowParams_sat {l : List Node} (hl : ∀ e ∈ l, SeqN L c.x e) (hs : St L c n t s) :
    Sat (ParseFail L) (seqToArrowParams l) s (fun ps s' => St L c n t s' ∧ ParamsQ L c.x .arrow ps ∧
      ps.length = l.length) := by
  induction l generalizing s with
  | nil => exact ⟨hs, .nil, rfl⟩
  | cons e l ih =>
    unfold seqToArrowParams
    refine Sat.bind (nodeToParam_sat (hl e (by simp)) hs) ?_
    rintro p s1 ⟨hs1, hp, hr⟩
    refine Sat.bind (ih (fun e he => hl e (by simp [he])) hs1) ?_
    rintro ps s2 ⟨hs2, hps, hlen⟩
    refine ⟨hs2, ⟨restLast_cons (fun hne => ?_) hps.rest, ?_⟩, by simp [hlen]⟩
    · cases h : isParamRest p with
      | false => rfl
      | true =>
        have := hr h
        simp only [List.isEmpty_iff] at this
        subst this
        simp at hlen
        exact absurd hlen hne
    · simp only [List.mem_cons]
      rintro q (rfl | hq)
      · exact hp
      · exact hps.wf q hq

theorem seqToArrow_sat {l : List Node} (hl : ∀ e ∈ l, SeqN L c.x e) {t0 : Token} (hE : RecE L r n) (hS : RecS L r n)
    (hs : St L c n t s) :
    Sat (ParseFail L) (seqToArrow r l) s (fun a s' => ∃ t', St L c n t' s' ∧ GoodE 17 L c.x t0 a) := by
  unfold seqToArrow
  refine Sat.bind (seqToArrowParams_sat hl hs) ?_
  rintro ps s ⟨hs, hps, -⟩
  w_call a ha t1
  w_call p hp t2
  obtain ⟨b, e⟩ := p
  w_end sp hsp
  refine ⟨_, hs, GoodE.mk' ⟨hps.rest, rfl, rfl, rfl⟩ hsp ?_⟩
  simp only [nodeParts, AllWF_fnParts]
  exact ⟨by simp, hps.wf, hp⟩

omit [Env] in
theorem parenAtt_simple {x : Ctx} {es : List Node} {sp : Span} {att : ATT} (h : parenAtt es = .simple)
    (hw : ∀ e ∈ es, WF L x (.node .expr e)) : SimpleTarget x.strict (.sequenceExpression es att sp) := by
  unfold parenAtt at h
  split at h
  · exact .paren (exprOk_plain (hw _ (by simp)) h)
  · cases h

instance : Does .adv L c r (parseSeqOrArrow r) (fun _ => True) (fun t a _ => GoodE 17 L c.x t a) :=
  ⟨fun {n t s} hE hS hs _ => by
    unfold parseSeqOrArrow
    w_start
    w_call a ha t1
    w_call l hl t2
    w_call b hb t3
    w_cur
    have hall := hl.all
    w_if h
    · refine seqToArrow_sat ?_ hE hS hs
      intro e he
      simp only [List.mem_map] at he
      obtain ⟨p, hp, rfl⟩ := he
      obtain ⟨_, _, hq⟩ := hall p hp
      exact hq.imp id (fun h => h.2)
    · have hw : ∀ e ∈ l.map Prod.fst, WF L c.x (.node .expr e) := by
        intro e he
        simp only [List.mem_map] at he
        obtain ⟨p, hp, rfl⟩ := he
        obtain ⟨_, _, hq⟩ := hall p hp
        rcases hq with hq | ⟨hq, -⟩
        · exact hq
        · refine absurd ?_ h
          simp only [Bool.or_eq_true, List.any_eq_true]
          exact Or.inl ⟨p, hp, hq⟩
      w_end sp hsp
      refine ⟨_, hs, ⟨WF.expr rfl trivial ⟨fun h => parenAtt_simple h hw, ?_, by rintro _ _ _ ⟨⟩⟩ ?_, ?_, ?_⟩⟩
      · rintro _ ⟨⟩; exact hsp
      · simpa only [nodeParts, AllWF_exprs] using hw
      · exact Nat.le_refl _
      · exact Head.of rfl⟩

/-! ### Array and object literals -/

instance : Does .advE L c r (arrayItem r) (fun _ => True) (fun _ o _ => ∀ e, o = some e → WF L c.x (.arrElem e)) :=
  ⟨fun {n t s} hE1 hS hs _ => by
    have hE := hE1.mono (Nat.le_succ n)
    unfold arrayItem
    w_cur
    w_if h
    · w_call a ha t1
      exact ⟨_, hs, by simp⟩
    · w_if h1
      · w_start
        w_call a ha t1
        w_call e he t2
        w_call u hu t3
        w_end sp hsp
        exact ⟨_, hs, by rintro _ ⟨⟩; exact WF.plain hsp (by simp [children, he.wf])⟩
      · w_call e he t1
        w_call u hu t2
        exact ⟨_, hs, by rintro _ ⟨⟩; exact WF.plain trivial (by simp [children, he.wf])⟩⟩

instance : Does .adv L c r (parseArrayLitExpr r) (fun _ => True) (fun t a _ => GoodE 17 L c.x t a) :=
  ⟨fun {n t s} hE hS hs _ => by
    unfold parseArrayLitExpr
    w_start
    w_call a ha t1
    w_call l hl t2
    w_call b hb t3
    w_end sp hsp
    refine ⟨_, hs, GoodE.mk' trivial hsp ?_⟩
    simp only [nodeParts, AllWF_reduceOption]
    intro e he
    obtain ⟨_, _, h⟩ := hl.1 _ he
    exact h e rfl⟩

omit [Env] in
theorem propFn {x : Ctx} {k : PropertyKey} {v : PropertyValue} {f : FnExpr} {sp : Span} {cp m : Bool} {kind : Str}
    (hk : WF L x (.key k)) (hf : WF L x (.fn f)) (hsp : SpanOk L sp) (hkind : kind ∈ propKinds)
    (hv : v = .functionExpression f ∨ v = .asyncFunctionExpression f) :
    WF L x (.prop (.property k cp (some v) kind m false sp)) := by
  refine WF.plain ⟨hsp, hkind, by simp⟩ ?_
  have : WF L x (.propVal v) := by
    rcases hv with rfl | rfl <;> exact WF.plain trivial (by simp [children, hf])
  simp [children, hk, this]

theorem parseMethodDefinition_sat {k : PropertyKey} {kind : PropKind} {a g cp : Bool} (hk : WF L c.x (.key k))
    (hE : RecE L r n) (hS : RecS L r n) (hs : St L c (n + 1) t s) :
    Sat (ParseFail L) (parseMethodDefinition r k kind a g cp) s (fun p s' => ∃ t', St L c n t' s' ∧
      WF L c.x (.prop p)) := by
  unfold parseMethodDefinition
  cases kind with
  | get =>
    w_call a' ha' t1
    w_call b' hb' t2
    w_call b hb t3
    w_end sp hsp
    exact ⟨_, hs, propFn hk (fnWF .nil hb) hsp (by decide) (Or.inl rfl)⟩
  | set =>
    w_call p hp t1
    w_end sp hsp
    exact ⟨_, hs, propFn hk (fnWF hp.1 hp.2) hsp (by decide) (Or.inl rfl)⟩
  | init =>
    w_call p hp t1
    w_end sp hsp
    cases a
    · exact ⟨_, hs, propFn hk (fnWF hp.1 hp.2) hsp (by decide) (Or.inl rfl)⟩
    · exact ⟨_, hs, propFn hk (fnWF hp.1 hp.2) hsp (by decide) (Or.inr rfl)⟩

theorem peekToken_bind {f : Token → PM α} {Q : α → Parser → Prop} (hs : St L c n t s)
    (hf : ∀ t' s', TokOk L t' → St L c n t s' → Sat (ParseFail L) (f t') s' Q) :
    Sat (ParseFail L) (peekToken >>= f) s Q := by
  refine Sat.bind (P := fun t' s' => TokOk L t' ∧ St L c n t s') ?_ (fun t' s' h => hf t' s' h.1 h.2)
  unfold peekToken
  generalize hst : (some (ScannerState.mk s.scanner.start s.scanner.current s.scanner.line
    s.scanner.col s.scanner.newline s.scanner.rawString s.scanner.curly)) = st
  refine Sat.bind (P := fun _ s' => s' = { s with scanner := { s.scanner with state := st } }) (by rw [← hst]; rfl) ?_
  rintro _ _ rfl
  have hn := next_sat (sc := { s.scanner with state := st }) .regExp hs.inv.pos hs.inv.back
  refine Sat.bind (P := fun t' s' => ∃ sc', s' = { s with scanner := sc' } ∧
      TokOk L t' ∧ Pos L sc' ∧ s.scanner.line ≤ sc'.line ∧ sc'.state = st ∧ sc'.unscanned = none ∧
      ∃ k, sc'.rest = s.scanner.rest.drop k ∧
        ((∃ t0, s.scanner.unscanned = some t0 ∧ t' = t0 ∧ k = 0 ∧ (t'.tokentype = .eof → s.scanner.rest = [])) ∨
         (s.scanner.unscanned = none ∧ ((t'.tokentype = .eof ∧ sc'.rest = []) ∨
           (t'.tokentype ≠ .eof ∧ sc'.rest.length < s.scanner.rest.length))))) ?_ ?_
  · unfold liftScanner
    unfold Sat at hn ⊢
    cases hx : Scanner.next .regExp { s.scanner with state := st } with
    | error f => rw [hx] at hn; simp only [hx]; exact hn.parse
    | ok p => rw [hx] at hn; simp only [hx]; exact ⟨_, rfl, hn⟩
  · rintro t' _ ⟨sc', rfl, h1, h2, h3, h4, h5, k, hr, h6⟩
    subst hst
    have hres : Scanner.restoreState t' sc' = .ok ((), { sc' with
      state := none, start := s.scanner.start, current := s.scanner.current, line := s.scanner.line,
      col := s.scanner.col, newline := s.scanner.newline, rawString := s.scanner.rawString,
      curly := s.scanner.curly, unscanned := some t' }) := by
      unfold Scanner.restoreState; rw [h4]
    refine Sat.bind (P := fun _ s' => s' = { s with scanner := { sc' with
      state := none, start := s.scanner.start, current := s.scanner.current, line := s.scanner.line,
      col := s.scanner.col, newline := s.scanner.newline, rawString := s.scanner.rawString,
      curly := s.scanner.curly, unscanned := some t' } }) ?_ ?_
    · unfold liftScanner Sat
      simp only [hres]
    · rintro _ _ rfl
      refine ⟨h1, ⟨⟨?_, hs.inv.cur, ?_, ?_, hs.inv.markers⟩, hs.ctx, hs.params, hs.stack, ?_, hs.current⟩⟩
      · refine ⟨hs.inv.pos.1, ?_⟩
        have := h2.2
        simp only at this ⊢
        omega
      · rintro _ ⟨⟩
        refine ⟨h1, fun he => ?_⟩
        rcases h6 with ⟨t0, -, -, rfl, hb⟩ | ⟨-, ⟨-, hb⟩ | ⟨hb, -⟩⟩
        · simp only [List.drop_zero] at hr; simp only [hr]; exact hb he
        · exact hb
        · exact absurd he hb
      · intro he
        obtain ⟨e1, e2⟩ := hs.inv.eof he
        refine ⟨by simp [hr, e1], ?_⟩
        rintro _ ⟨⟩
        rcases h6 with ⟨t0, hu, rfl, rfl, hb⟩ | ⟨-, ⟨hb, -⟩ | ⟨-, hb⟩⟩
        · exact e2 _ hu
        · exact hb
        · rw [e1] at hb; simp at hb
      · have := hs.size
        unfold size at this ⊢
        simp only
        rcases h6 with ⟨t0, hu, rfl, rfl, hb⟩ | ⟨hu, ⟨hb, hb'⟩ | ⟨hb, hb'⟩⟩
        · simp only [hu, List.drop_zero] at this hr
          rw [hr]; exact this
        · simp only [hu, hb', hb, if_pos, List.length_nil] at this ⊢; omega
        · simp only [hu, if_neg hb] at this ⊢; omega

/-- What the modifiers of a property definition lead to. -/
def HeadQ (L : Nat) (c : Cx) (n : Nat) (h : PropHead) (s : Parser) : Prop :=
  match h with
  | .done p => ∃ t, St L c n t s ∧ WF L c.x (.prop p)
  | .more .. => ∃ t, St L c (n + 1) t s

theorem accessorHead_sat {name : Str} {kind : PropKind} (hE : RecE L r n) (hS : RecS L r n)
    (hs : St L c (n + 1) t s) (hne : t.tokentype ≠ .eof) :
    Sat (ParseFail L) (accessorHead r name kind) s (HeadQ L c n) := by
  unfold accessorHead
  refine peekToken_bind hs (fun t' s _ hs => ?_)
  w_if h
  · exact ⟨_, hs⟩
  · w_start
    w_call a ha t1
    w_end sp hsp
    w_cur
    w_if h1
    · refine Sat.bind (parseMethodDefinition_sat keyIdent hE hS (hs.mono (Nat.le_succ _))) ?_
      rintro p s ⟨t2, hs, hp⟩
      exact ⟨_, hs, hp⟩
    · exact ⟨_, hs.mono (Nat.le_succ _)⟩

theorem asyncHead_sat (hE : RecE L r n) (hS : RecS L r n)
    (hs : St L c (n + 1) t s) (hne : t.tokentype ≠ .eof) :
    Sat (ParseFail L) (asyncHead r) s (HeadQ L c n) := by
  unfold asyncHead
  refine peekToken_bind hs (fun t' s _ hs => ?_)
  w_if h
  · exact ⟨_, hs⟩
  · w_start
    w_call a ha t1
    w_end sp hsp
    w_cur
    w_sub (fun _ : Bool => True)
    · w_if h1
      · w_call b hb t2
        exact ⟨_, hs, trivial⟩
      · exact ⟨_, hs, trivial⟩
    · rintro g s ⟨t2, hs, -⟩
      w_cur
      w_if h1
      · refine Sat.bind (parseMethodDefinition_sat keyIdent hE hS (hs.mono (Nat.le_succ _))) ?_
        rintro p s ⟨t2, hs, hp⟩
        exact ⟨_, hs, hp⟩
      · exact ⟨_, hs.mono (Nat.le_succ _)⟩

theorem propHead_sat (hE : RecE L r n) (hS : RecS L r n) (hs : St L c (n + 1) t s) :
    Sat (ParseFail L) (propHead r) s (HeadQ L c n) := by
  unfold propHead
  w_cur
  w_if h
  · exact accessorHead_sat hE hS hs (not_eof_of_isId h)
  · w_if h
    · exact accessorHead_sat hE hS hs (not_eof_of_isId h)
    · w_if h
      · exact asyncHead_sat hE hS hs (not_eof_of_isId h)
      · w_if h
        · w_call a ha t1
          w_call k hk t2
          refine Sat.bind (parseMethodDefinition_sat hk hE hS (hs.mono (Nat.le_succ _))) ?_
          rintro p s ⟨t3, hs, hp⟩
          exact ⟨_, hs, hp⟩
        · exact ⟨_, hs⟩

instance : Does .adv L c r (propKey r) (fun _ => True) (fun _ p _ => WF L c.x (.key p.1)) :=
  ⟨fun {n t s} hE hS hs _ => by
    unfold propKey
    w_cur
    w_if h
    · w_start
      w_call a ha t1
      w_end sp hsp
      exact ⟨_, hs, keyIdent⟩
    · w_if h
      · w_start
        have hne : t.tokentype ≠ .eof := by rcases h with h | h <;> rw [h] <;> decide
        have htok := hs.tok
        w_call a ha t1
        subst ha
        w_cur
        w_end sp hsp
        exact ⟨_, hs, keyLit (KeyOk.tok htok (Or.inr h))⟩
      · w_if h
        w_call k hk t1
        exact ⟨_, hs, hk⟩⟩

omit [Env] in
theorem PropKind.mem (k : PropKind) : k.str ∈ propKinds := by cases k <;> decide

theorem propRest_sat {k : PropertyKey} {kind : PropKind} {a g cp : Bool} (hk : WF L c.x (.key k))
    (hE : RecE L r n) (hS : RecS L r n) (hs : St L c n t s) :
    Sat (ParseFail L) (propRest r k cp kind a g) s (fun p s' => ∃ t', St L c n t' s' ∧ WF L c.x (.prop p)) := by
  unfold propRest
  w_cur
  have hv : ∀ {e}, WF L c.x (.node .expr e) → WF L c.x (.propVal (.expression e)) :=
    fun h => WF.plain trivial (by simp [children, h])
  w_if h
  · w_call a' ha' t1
    w_call e he t2
    w_end sp hsp
    exact ⟨_, hs, WF.plain ⟨hsp, kind.mem, by simp⟩ (by simp [children, hk, hv he.wf])⟩
  · w_if h
    · w_call a' ha' t1
      w_call e he t2
      w_end sp hsp
      exact ⟨_, hs, WF.plain ⟨hsp, kind.mem, by simp⟩ (by simp [children, hk, hv he.wf])⟩
    · w_if h
      · refine (parseMethodDefinition_sat hk hE hS (hs.mono (Nat.le_succ _))).mono ?_
        rintro p s ⟨t2, hs, hp⟩
        exact ⟨_, hs, hp⟩
      · w_end sp hsp
        exact ⟨_, hs, WF.plain ⟨hsp, kind.mem, by simp⟩ (by simp [children, hk])⟩

instance : Does .adv L c r (objectItem r) (fun _ => True) (fun _ p _ => WF L c.x (.prop p)) :=
  ⟨fun {n t s} hE hS hs _ => by
    have htok := hs.tok
    unfold objectItem
    w_start
    w_cur
    w_if h
    · have hne : t.tokentype ≠ .eof := not_eof_of_isP (isP_of_matches htok h)
      w_call a ha t1
      w_call e he t2
      w_end sp hsp
      w_call u hu t3
      exact ⟨_, hs, WF.plain hsp (by simp [children, he.wf])⟩
    · refine Sat.bind (propHead_sat hE hS hs) ?_
      intro hd s hhd
      cases hd with
      | done p => exact hhd
      | more kind a g =>
        obtain ⟨t1, hs⟩ := hhd
        w_call k hk t2
        refine Sat.bind (propRest_sat hk hE hS hs) ?_
        rintro p s ⟨t3, hs, hp⟩
        w_call u hu t4
        exact ⟨_, hs, hp⟩⟩

instance : Does .adv L c r (parseObjectLitExpr r) (fun _ => True) (fun t a _ => GoodE 17 L c.x t a) :=
  ⟨fun {n t s} hE hS hs _ => by
    unfold parseObjectLitExpr
    w_start
    w_call a ha t1
    w_call l hl t2
    w_call b hb t3
    w_end sp hsp
    refine ⟨_, hs, GoodE.mk' trivial hsp ?_⟩
    simp only [nodeParts, AllWF_map]
    intro e he
    obtain ⟨_, _, h⟩ := hl.1 _ he
    exact h⟩

/-! ### The rest -/

omit [Env] in
theorem arrowOneWF {x : Ctx} {name : Str} {b : Node} {e : Bool} (hn : NameIn x.strict name) (hb : ArrowBody L x (b, e)) :
    AllWF L x (fnParts .nameId .arrow none [.bindingIdentifier name] (if e then .expr else .fnBody) b) := by
  simp only [AllWF_fnParts]
  refine ⟨by simp, ?_, hb⟩
  simp only [List.mem_singleton]
  rintro _ rfl
  exact WF.plain hn (by simp [children])

instance : Does .adv L c r (parseAsyncPrimaryExpr r) (fun _ => True) (fun t a _ => GoodE 17 L c.x t a) :=
  ⟨fun {n t s} hE hS hs _ => by
    unfold parseAsyncPrimaryExpr
    w_start
    w_call i hi t1
    w_get
    w_if h
    · w_if h1
      · exact ⟨_, hs, hi.1⟩
      · w_if h2
        w_if h3
        · w_tail f hf t2
          exact hf _
        · w_call j hj t2
          obtain ⟨name, att, sp, rfl, hn⟩ := hj.name
          refine Sat.bind (P := fun a s' => a = name ∧ s' = s) ⟨rfl, rfl⟩ ?_
          rintro _ _ ⟨rfl, rfl⟩
          w_get
          w_if h4
          have hne : t2.tokentype ≠ .eof := not_eof_of_isP (isP_of_matches hs.tok h4.2)
          w_call a ha t3
          w_call p hp t4
          obtain ⟨b, e⟩ := p
          w_end sp' hsp
          exact ⟨_, hs, GoodE.mk' ⟨trivial, rfl, rfl, rfl⟩ hsp (arrowOneWF hn hp)⟩
    · w_end sp hsp
      exact ⟨_, hs, hi.1⟩⟩

instance : Does .adv L c r parseLiteral (fun t => isLiteralToken t = true) (fun t a _ => GoodE 17 L c.x t a) :=
  ⟨fun {n t s} hE hS hs hp => by
    have htok := hs.tok
    unfold parseLiteral
    w_start
    have hne : t.tokentype ≠ .eof := by
      intro h; simp [isLiteralToken, h] at hp
    w_call a ha t1
    subst ha
    w_end sp hsp
    refine ⟨_, hs, WF.expr rfl (literalOk_of_token htok hp) (ExprOk.of (by simp [Node.assignTargetType]) rfl ?_)
      (by simp [nodeParts]), Nat.le_refl _, ?_⟩
    · rintro _ ⟨⟩; exact hsp
    · intro v raw att sp h
      simp only [Node.literal.injEq] at h
      have h := h.1
      have hsh := htok.1
      simp only [isLiteralToken] at hp
      unfold TokShape at hsh
      split at hp <;> rename_i ht <;> simp only [ht, h] at hsh
      · simp at hsh
      · exact Or.inr (Or.inr ht)
      · simp only [Value.str.injEq] at hsh
        exact hsh.imp id Or.inl
      · simp at hsh
      · cases hp⟩

instance : Does .adv L c r parseRegex (fun t => t.tokentype = .regularExpression) (fun t a _ => GoodE 17 L c.x t a) :=
  ⟨fun {n t s} hE hS hs hp => by
    have htok := hs.tok
    unfold parseRegex
    w_start
    have hne : t.tokentype ≠ .eof := by rw [hp]; decide
    w_call a ha t1
    subst ha
    w_cur
    have hsh := htok.1
    simp only [TokShape, hp] at hsh
    obtain ⟨_, ⟨p, h1⟩, f, h2⟩ := hsh
    rw [h1, h2]
    refine unwrap_bind (fun _ _ => ?_) (by simp)
    refine unwrap_bind (fun _ _ => ?_) (by simp)
    w_end sp hsp
    exact ⟨_, hs, GoodE.mk' trivial hsp (by simp [nodeParts])⟩⟩

instance : Does .adv L c r parseThis (fun t => t.tokentype ≠ .eof) (fun t a _ => GoodE 17 L c.x t a) :=
  ⟨fun {n t s} hE hS hs hp => by
    unfold parseThis
    w_start
    w_call a ha t1
    w_end sp hsp
    exact ⟨_, hs, GoodE.mk' trivial hsp (by simp [nodeParts])⟩⟩

instance : Does .adv L c r (parsePrimaryExpr r) (fun _ => True) (fun t a _ => GoodE 17 L c.x t a) :=
  ⟨fun {n t s} hE hS hs _ => by
    unfold parsePrimaryExpr
    w_cur
    w_if h
    · w_tail a ha t1
      exact ha _
    w_if h
    · w_tail a ha t1
      exact ha
    w_if h
    · w_tail a ha t1
      exact ha
    w_if h
    · w_tail a ha t1
      exact ha
    w_if h
    · w_tail a ha t1
      exact ha.1
    w_if h
    · w_tail a ha t1
      exact ha
    w_if h
    · w_tail a ha t1
      exact ha
    w_if h
    · w_tail a ha t1
      exact ha
    w_if h
    · w_tail a ha t1
      exact ha
    w_if h
    · w_tail a ha t1
      exact ha
    w_if h
    w_tail a ha t1
    exact ha⟩

end Parser
end Giron

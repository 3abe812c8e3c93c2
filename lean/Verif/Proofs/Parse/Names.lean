import Verif.Proofs.Parse.Build
/-
Specifications of the methods of `Model/Parser/Names.lean`.
-/
namespace Giron
open M Spec
variable [Env]
namespace Parser
variable {L : Nat} {c : Cx} {r : Rec} {n : Nat} {t : Token} {s : Parser} {α β : Type}

omit [Env] in
theorem reserved_isKeyword : ∀ v ∈ reserved, Scanner.isKeyword v = true := by decide

omit [Env] in
theorem NameOk.of_not_keyword {v : Str} (h : Scanner.isKeyword v = false) : NameOk v :=
  Or.inl (fun hv => by rw [reserved_isKeyword v hv] at h; cases h)

omit [Env] in
theorem type_of_punc (h : TokOk L t) {p : Punctuator} (hv : t.value = .punc p) : t.tokentype = .punctuator := by
  have := h.1
  unfold TokShape at this
  split at this <;> simp_all

omit [Env] in
theorem isP_of_matches (h : TokOk L t) {p : Punctuator} (hm : t.matchesPunc p = true) : t.isP p = true := by
  simp [Token.isP, type_of_punc h (value_of_matchesPunc hm), hm]

omit [Env] in
theorem value_of_isKw {v : Str} (h : t.isKw v = true) : t.value = .str v := by
  simp [Token.isKw] at h; exact value_of_matchesStr h.2
omit [Env] in
theorem value_of_isId {v : Str} (h : t.isId v = true) : t.value = .str v := by
  simp [Token.isId] at h; exact value_of_matchesStr h.2

omit [Env] in
theorem string_of_isIdOrKw (h : TokOk L t) (hi : t.isIdOrKw = true) : ∃ v, t.value = .str v := by
  have := h.1
  simp [Token.isIdOrKw] at hi
  rcases hi with hi | hi <;> simp only [TokShape, hi] at this <;> obtain ⟨v, hv, _⟩ := this <;> exact ⟨v, hv⟩

omit [Env] in
theorem name_of_identifier (h : TokOk L t) (hi : t.tokentype = .identifier) :
    ∃ v, t.value = .str v ∧ NameOk v := by
  have := h.1
  simp only [TokShape, hi] at this
  obtain ⟨v, hv, hk, _⟩ := this
  exact ⟨v, hv, NameOk.of_not_keyword hk⟩

/-- unwrapping an option that may be `none` -/
theorem unwrap_bind {p : PanicSite} {o : Option α} {f : α → PM β} {Q : β → Parser → Prop}
    (h : ∀ a, o = some a → Sat (ParseFail L) (f a) s Q) (hp : o = none → ParseFail L (.panic p)) :
    Sat (ParseFail L) (unwrap p o >>= f) s Q := by
  cases o with
  | none => exact hp rfl
  | some a => exact h a rfl

/-- a computation that does not touch the state -/
theorem ofExcept_bind {e : Except Fail α} {f : α → PM β} {Q : β → Parser → Prop}
    (h : ∀ a, e = .ok a → Sat (ParseFail L) (f a) s Q) (hp : ∀ f, e = .error f → ParseFail L f) :
    Sat (ParseFail L) (ofExcept e >>= f) s Q := by
  cases e with
  | error f => exact hp f rfl
  | ok a => exact h a rfl

instance : Does .keep L c r strictReservedCheck (fun _ => True) (fun _ _ _ => True) :=
  ⟨fun hE hS hs _ => by
    unfold strictReservedCheck
    w_get
    w_if h
    · refine unwrap_bind (fun b _ => ?_) (fun _ => trivial)
      w_if h
      exact ⟨_, hs, trivial⟩
    · exact ⟨_, hs, trivial⟩⟩

/-- it makes no progress, and needs no entry point -/
theorem strictReservedCheck_bind {f : Unit → PM α} {Q : α → Parser → Prop} (hs : St L c n t s)
    (hf : ∀ s, St L c n t s → (c.ctx.strict = true → ∀ v, t.value = .str v → v ∉ strictWords) →
      Sat (ParseFail L) (f ()) s Q) : Sat (ParseFail L) (strictReservedCheck >>= f) s Q := by
  refine Sat.bind (P := fun _ s' => St L c n t s' ∧
    (c.ctx.strict = true → ∀ v, t.value = .str v → v ∉ strictWords)) ?_ (fun _ s' h => hf s' h.1 h.2)
  unfold strictReservedCheck
  w_get
  w_if h
  · refine unwrap_bind (fun b hb => ?_) (fun _ => trivial)
    w_if h
    refine ⟨hs, fun _ v hv hm => h ?_⟩
    simp only [Token.isStrictReservedKw, Token.toStr?, hv, Option.some.injEq] at hb
    rw [← hb]
    clear hb h hv
    revert v
    decide
  · exact ⟨hs, fun h' => absurd h' h⟩

instance {g : LexGoal} : Does .adv L c r (advanceStr g) (fun t => t.tokentype ≠ .eof)
    (fun t a _ => t.toStr? = some a) :=
  ⟨fun hE hS hs hp => by
    unfold advanceStr
    w_call a ha t1
    subst ha
    exact Sat.unwrap (fun a h => ⟨_, hs, h⟩) (fun _ => trivial)⟩

instance {g : LexGoal} : Does .adv L c r (parseIdName g) (fun _ => True)
    (fun t a _ => t.isIdOrKw = true ∧ t.value = .str a) :=
  ⟨fun {n t s} hE hS hs hp => by
    unfold parseIdName
    w_cur
    w_if h
    obtain ⟨v, hv⟩ := string_of_isIdOrKw hs.tok h
    w_call a ha t1
    subst ha
    exact Sat.unwrapSome (a := v) (by simp [hv, Value.string?]) ⟨_, hs, h, hv⟩⟩

/-- An identifier node with a proper name. -/
def IdentQ (L : Nat) (x : Ctx) (t : Token) (a : Node) : Prop := GoodE 17 L x t a ∧ isIdent a = true

omit [Env] in
theorem goodIdent {x : Ctx} {name : Str} {att : ATT} {sp : Span} (h : NameIn x.strict name) (hsp : SpanOk L sp)
    (ha : att = .simple → x.strict = true → ¬ EvalOrArguments name) : GoodE 17 L x t (.identifier name att sp) :=
  ⟨WF.expr rfl trivial ⟨fun h => .ident (ha h), by rintro _ ⟨⟩; exact hsp, by rintro _ _ _ ⟨⟩; exact h⟩
    (by simp [nodeParts]), Nat.le_refl _, Head.of rfl⟩

omit [Env] in
theorem IdentQ.name {x : Ctx} {a : Node} (h : IdentQ L x t a) :
    ∃ name att sp, a = .identifier name att sp ∧ NameIn x.strict name := by
  obtain ⟨h, hi⟩ := h
  cases a <;> simp [isIdent] at hi
  exact ⟨_, _, _, rfl, ((h.wf.loc' rfl).2.2.1 rfl rfl).name _ _ _ rfl⟩

omit [Env] in
theorem IdentQ.nameId {x : Ctx} {a : Node} (h : IdentQ L x t a) : WF L x (.node .nameId a) := by
  obtain ⟨name, att, sp, rfl, hn⟩ := h.name
  exact WF.plain ⟨rfl, trivial, by simp [Role.isExprLike], by rintro _ _ _ _ ⟨⟩; exact hn⟩ (by simp [children, nodeParts])

instance : Does .adv L c r parseIdReference (fun _ => True) (fun t a _ => IdentQ L c.x t a) :=
  ⟨fun {n t s} hE hS hs _ => by
    have htok := hs.tok
    unfold parseIdReference
    w_start
    refine strictReservedCheck_bind hs ?_
    intro s hs hsw
    w_get
    w_if h
    · obtain ⟨v, hv, hn⟩ := name_of_identifier htok h
      w_call a ha t1
      simp only [Token.toStr?, hv, Option.some.injEq] at ha
      subst ha
      w_end sp hsp
      refine ⟨_, hs, goodIdent ⟨hn, fun h => hsw h v hv⟩ hsp ?_, rfl⟩
      intro h1 h2 h3
      simp only [idAtt] at h1
      have : c.ctx.strict = true := h2
      rcases h3 with rfl | rfl <;> simp [this] at h1
    · w_if h
      · w_if h1
        w_call a ha t1
        simp only [Token.toStr?, value_of_isKw h, Option.some.injEq] at ha
        subst ha
        w_end sp hsp
        refine ⟨_, hs, goodIdent ⟨Or.inr (Or.inl rfl), fun _ => by decide⟩ hsp ?_, rfl⟩
        rintro - - (h3 | h3) <;> exact absurd h3 (by decide)
      · w_if h
        · w_if h1
          w_call a ha t1
          simp only [Token.toStr?, value_of_isKw h, Option.some.injEq] at ha
          subst ha
          w_end sp hsp
          refine ⟨_, hs, goodIdent ⟨Or.inr (Or.inr rfl), fun _ => by decide⟩ hsp ?_, rfl⟩
          rintro - - (h3 | h3) <;> exact absurd h3 (by decide)⟩

/-- A binding identifier with a proper name. -/
def BindIdQ (L : Nat) (x : Ctx) (b : Binding) : Prop :=
  ∃ name sp, b = .bindingIdentifier name sp ∧ NameIn x.strict name ∧ SpanOk L sp

omit [Env] in
theorem BindIdQ.good {x : Ctx} {b : Binding} (h : BindIdQ L x b) : GoodB L x b := by
  obtain ⟨name, sp, rfl, h1, _⟩ := h
  exact ⟨WF.plain h1.1 (by simp [children]), rfl, .id h1⟩

omit [Env] in
theorem bindIdNode {x : Ctx} {name : Str} {sp : Span} (h : NameIn x.strict name) :
    WF L x (.node .bindId (.bindingIdentifier name sp)) :=
  WF.plain ⟨rfl, h, by simp [Role.isExprLike], by simp [Role.isRef]⟩ (by simp [children, nodeParts])

instance : Does .adv L c r parseBindingId (fun _ => True) (fun _ b _ => BindIdQ L c.x b) :=
  ⟨fun {n t s} hE hS hs _ => by
    have htok := hs.tok
    unfold parseBindingId
    w_start
    refine strictReservedCheck_bind hs ?_
    intro s hs hsw
    w_cur
    w_if h
    obtain ⟨v, hv, hn⟩ : ∃ v, t.value = .str v ∧ NameOk v := by
      rcases h with h | h | h
      · exact name_of_identifier htok h
      · exact ⟨_, value_of_isKw h, Or.inr (Or.inl rfl)⟩
      · exact ⟨_, value_of_isKw h, Or.inr (Or.inr rfl)⟩
    have hne : t.tokentype ≠ .eof := not_eof_of_value htok hv (by simp)
    w_call a ha t1
    simp only [Token.toStr?, hv, Option.some.injEq] at ha
    subst ha
    w_end sp hsp
    exact ⟨_, hs, _, _, rfl, ⟨hn, fun h => hsw h v hv⟩, hsp⟩⟩

instance : Does .advE L c r (commaExpr r) (fun _ => True) (fun _ a _ => ∃ t, GoodE 0 L c.x t a) :=
  ⟨fun {n t s} hE1 hS hs _ => by
    have hE := hE1.mono (Nat.le_succ n)
    unfold commaExpr
    w_call a ha t1
    w_tail b hb t2
    exact ⟨_, hb⟩⟩

instance : Does .advE L c r (parseExpression r) (fun _ => True) (fun t a _ => GoodE 0 L c.x t a) :=
  ⟨fun {n t s} hE1 hS hs _ => by
    have hE := hE1.mono (Nat.le_succ n)
    unfold parseExpression
    w_start
    w_call e he t1
    w_cur
    w_if h
    · w_call l hl t2
      w_end sp hsp
      w_ret
      obtain ⟨hl, hne⟩ := hl
      have hne := hne (isP_of_matches (by assumption) h)
      refine GoodE.mk' trivial hsp ?_ (h3 := ?_)
      · simp only [nodeParts, AllWF_exprs, List.mem_cons]
        rintro x (rfl | hx)
        · exact he.wf
        · obtain ⟨_, _, _, _, hx⟩ := hl x hx
          exact hx.wf
      · simp [Node.assignTargetType, hne]
    · exact ⟨_, hs, he⟩⟩

/-! ### Directive prologues -/

/-- the context with another strictness -/
def Cx.setStrict (c : Cx) (b : Bool) : Cx := { c with ctx := { c.ctx with strict := b } }

/-- How strictness evolves along a directive prologue. -/
inductive Prol (L : Nat) (x : Ctx) : Bool → List Node → Bool → Prop
  | nil {b} : Prol L x b [] b
  | cons {b b' t e sp l} (h : GoodE 0 L { x with strict := b } t e)
      (hl : Prol L x (b || isUseStrictLiteral e) l b') : Prol L x b (.expressionStatement e sp :: l) b'

omit [Env] in
theorem Prol.unstrict {x : Ctx} {z b b' : Bool} {l : List Node} (h : Prol L { x with strict := z } b l b') :
    Prol L x b l b' := by
  induction h with
  | nil => exact .nil
  | cons h _ ih => exact .cons h ih

omit [Env] in
theorem directive_literal {n : Node} {v : Str} (h : directive? n = some v) :
    ∃ raw att sp sp', n = .expressionStatement (.literal (.str v) raw att sp) sp' := by
  unfold directive? at h
  split at h
  · split at h
    · cases h
    · cases h; exact ⟨_, _, _, _, rfl⟩
  · cases h

omit [Env] in
theorem Prol.strict {x : Ctx} {b b' : Bool} {l rest : List Node} (h : Prol L x b l b')
    (hr : ∀ n l', rest = n :: l' → directive? n = none) :
    (b = true → b' = true) ∧ (usesStrict (l ++ rest) = true → b' = true) := by
  induction h with
  | nil =>
    refine ⟨id, fun hu => ?_⟩
    cases rest with
    | nil => simp [usesStrict, prologue] at hu
    | cons n l' => simp [usesStrict, prologue, hr n l' rfl] at hu
  | @cons b b' t e sp l h hl ih =>
    refine ⟨fun hb => ih.1 (by simp [hb]), fun hu => ?_⟩
    simp only [List.cons_append, usesStrict, prologue] at hu
    split at hu
    · rename_i v hv
      simp only [List.contains_cons, Bool.or_eq_true, beq_iff_eq] at hu
      rcases hu with hu | hu
      · obtain ⟨raw, att, sp1, sp2, he⟩ := directive_literal hv
        cases he
        exact ih.1 (by simp [isUseStrictLiteral, hu])
      · exact ih.2 hu
    · simp at hu

omit [Env] in
theorem stmtOfExpr {x : Ctx} {e : Node} {sp : Span} (h : WF L x (.node .expr e)) :
    WF L x (.node .stmt (.expressionStatement e sp)) :=
  WF.plain ⟨rfl, trivial, by simp [Role.isExprLike], by simp [Role.isRef]⟩ (by simp [children, nodeParts, h])

omit [Env] in
theorem Prol.wf {x : Ctx} {b b' : Bool} {l rest : List Node} (h : Prol L x b l b') (y : Bool)
    (hy : y = true → b = true ∨ usesStrict (l ++ rest) = true) :
    ∀ n ∈ l, WF L { x with strict := y } (.node .stmt n) := by
  induction h with
  | nil => simp
  | @cons b b' t e sp l h hl ih =>
    have hle : ∀ z z' : Bool, (z = true → z' = true) → Ctx.Le { x with strict := z } { x with strict := z' } :=
      fun z z' hz => ⟨hz, id, id, id⟩
    rcases Bool.eq_false_or_eq_true b with rfl | rfl
    · simp only [List.mem_cons]
      rintro n (rfl | hn)
      · exact (stmtOfExpr h.wf).mono (hle _ _ (fun _ => rfl))
      · exact ih (fun _ => Or.inl rfl) n hn
    · simp only [Bool.false_or, Bool.false_eq_true, false_or] at ih hy
      cases hd : directive? (.expressionStatement e sp) with
      | none =>
        have hf : y = false := by
          simp only [usesStrict, List.cons_append, prologue, hd] at hy
          cases y
          · rfl
          · exact absurd (hy rfl) (by simp)
        subst hf
        simp only [List.mem_cons]
        rintro n (rfl | hn)
        · exact stmtOfExpr h.wf
        · exact ih (by simp) n hn
      | some v =>
        obtain ⟨raw, att, sp1, sp2, he⟩ := directive_literal hd
        cases he
        simp only [List.mem_cons]
        rintro n (rfl | hn)
        · exact stmtOfExpr (h.wf.lit rfl)
        · refine ih (fun hy' => ?_) n hn
          have := hy hy'
          simp only [usesStrict, List.cons_append, prologue, hd, List.contains_cons, Bool.or_eq_true,
            beq_iff_eq] at this
          rcases this with hv | hv
          · left; simp [isUseStrictLiteral, hv]
          · right; exact hv

theorem parseDirective_sat (hE1 : RecE L r (n + 1)) (hS : RecS L r n) (hs : St L c (n + 1) t s) :
    Sat (ParseFail L) (parseDirective r) s (fun a s' => ∃ t' e sp,
      a = .expressionStatement e sp ∧ GoodE 0 L c.x t e ∧
      St L (c.setStrict (c.ctx.strict || isUseStrictLiteral e)) n t' s') := by
  have hE := hE1.mono (Nat.le_succ n)
  unfold parseDirective
  w_start
  w_call e he t1
  refine Sat.bind (P := fun _ s' => St L (c.setStrict (c.ctx.strict || isUseStrictLiteral e)) n t1 s') ?_ ?_
  · unfold when
    cases hu : isUseStrictLiteral e with
    | true =>
      rw [if_pos rfl, Bool.or_true]
      exact ⟨⟨hs.inv.pos, hs.inv.cur, hs.inv.back, hs.inv.eof, hs.inv.markers⟩, by simp [Cx.setStrict, hs.ctx],
        hs.params, hs.stack, hs.size, hs.current⟩
    | false =>
      rw [if_neg (by simp), Bool.or_false]
      exact hs
  · intro _ s hs
    w_call u hu t2
    w_end sp hsp
    exact ⟨_, _, _, rfl, he, hs⟩

omit [Env] in
theorem Cx.setStrict_setStrict (c : Cx) (a b : Bool) : (c.setStrict a).setStrict b = c.setStrict b := rfl
omit [Env] in
theorem Cx.setStrict_self (c : Cx) : c.setStrict c.ctx.strict = c := rfl
omit [Env] in
theorem Cx.x_setStrict (c : Cx) (b : Bool) : (c.setStrict b).x = { c.x with strict := b } := rfl
omit [Env] in
theorem Cx.strict_setStrict (c : Cx) (b : Bool) : (c.setStrict b).ctx.strict = b := rfl

theorem directiveProloguesF_sat (m : Nat) (hE : RecE L r n) (hS : RecS L r n) (hs : St L c n t s) (hm : s.size < m) :
    Sat (ParseFail L) (directiveProloguesF r m) s (fun l s' => ∃ t' b, Prol L c.x c.ctx.strict l b ∧
      St L (c.setStrict b) n t' s' ∧ t'.tokentype ≠ .stringLiteral) := by
  induction m generalizing t s c with
  | zero => omega
  | succ m ih =>
    unfold directiveProloguesF
    refine cur_bind hs (Sat.ite (fun hp => ?_) (fun h => ⟨_, _, .nil, hs, h⟩))
    have hs' : St L c (s.size + 1) t s := ⟨hs.1, hs.2, hs.3, hs.4, Nat.lt_succ_self _, hs.6⟩
    have hsz := hs.size
    refine Sat.bind (parseDirective_sat (hE.mono hsz) (hS.mono (Nat.le_of_lt hsz)) hs') ?_
    rintro a s1 ⟨t1, e, sp, rfl, he, h1⟩
    refine Sat.bind (ih (h1.mono (Nat.le_of_lt hsz)) (by have := h1.size; omega)) ?_
    rintro l s2 ⟨t2, b, h2, h3, h4⟩
    exact ⟨t2, b, .cons he h2.unstrict, h3, h4⟩

theorem parseDirectivePrologues_sat (hE : RecE L r n) (hS : RecS L r n) (hs : St L c n t s) :
    Sat (ParseFail L) (parseDirectivePrologues r) s (fun l s' => ∃ t' b, Prol L c.x c.ctx.strict l b ∧
      St L (c.setStrict b) n t' s' ∧ t'.tokentype ≠ .stringLiteral) :=
  directiveProloguesF_sat _ hE hS hs (Nat.lt_succ_self _)

instance : Does .keep L c r (parseStatementList r) (fun _ => True)
    (fun t l _ => AllQ (fun t a _ => GoodS .stmt L c.x t a) l ∧
      ∀ x l', l = x :: l' → GoodS .stmt L c.x t x) :=
  ⟨fun {n t s} hE hS hs _ => by
    unfold parseStatementList
    w_tail l hl t1
    exact ⟨hl.1, fun x l' h => by obtain ⟨t', h'⟩ := hl.2 x l' h; exact h'⟩⟩

omit [Env] in
theorem le_enter_block {x : Ctx} {b : Bool} {body : List Node} {sp : Span}
    (h : (x.strict || usesStrict body) = true → b = true) :
    Ctx.Le (enter x (.node .fnBody (.blockStatement body sp))) { x with strict := b } := by
  constructor
  · simpa [enter, Item.startsStrict, Node.startsStrict, Role.isFnBody] using h
  all_goals simp +contextual [enter]

instance : Does .adv L c r (parseFunctionBodyBlock r) (fun _ => True)
    (fun _ a _ => WF L c.x (.node .fnBody a)) :=
  ⟨fun {n t s} hE hS hs _ => by
    unfold parseFunctionBodyBlock
    w_start
    w_call a ha t1
    w_get
    refine Sat.bind (parseDirectivePrologues_sat hE hS hs) ?_
    rintro pro s ⟨t2, b, hpro, hs, ht2⟩
    refine get_bind hs (fun s1 e1' e2' e3' => ?_)
    simp only [e2']
    w_call l hl t3
    refine modifyCtx_bind (g := fun x => { x with inIteration := (c.setStrict b).ctx.inIteration }) hs ?_
    intro s hs
    replace hs : St L (c.setStrict b) n t3 s := hs
    w_call u hu t4
    refine modifyCtx_bind (g := fun x => { x with strict := c.ctx.strict }) hs ?_
    intro s hs
    replace hs : St L c n t4 s := hs
    w_end sp hsp
    refine ⟨_, hs, ?_⟩
    obtain ⟨hl1, hl2⟩ := hl
    have hr : ∀ x l', l = x :: l' → directive? x = none := by
      intro x l' h
      have := (hl2 x l' h).head
      cases hd : directive? x with
      | none => rfl
      | some v => exact absurd (this v hd) ht2
    have hst := hpro.strict hr
    have hle : Ctx.Le (enter c.x (.node .fnBody (.blockStatement (pro ++ l) sp))) { c.x with strict := b } :=
      le_enter_block (by
        simp only [Bool.or_eq_true]
        rintro (h | h)
        · exact hst.1 h
        · exact hst.2 h)
    refine .mk ⟨rfl, trivial, by simp [Role.isExprLike], by simp [Role.isRef]⟩ ?_
    show AllWF _ _ (children _)
    simp only [children, nodeParts, AllWF_map, List.mem_append]
    rintro x (hx | hx)
    · have := hpro.wf (rest := l) (c.ctx.strict || usesStrict (pro ++ l)) (by simp) x hx
      refine this.mono ⟨?_, ?_, ?_, ?_⟩
      · intro h; simpa [enter, Item.startsStrict, Node.startsStrict, Role.isFnBody, Cx.x] using h
      all_goals simp +contextual [enter]
    · obtain ⟨_, _, hx⟩ := hl1 x hx
      exact hx.wf.mono hle⟩

omit [Env] in
theorem fnBody_ret {x : Ctx} {b : Bool} {n : Node} (h : WF L { x with ret := b } (.node .fnBody n)) :
    WF L x (.node .fnBody n) := by
  have e : enter { x with ret := b } (.node .fnBody n) = enter x (.node .fnBody n) := by
    simp [enter, Item.isFnBody, Role.isFnBody]
  exact .mk (e ▸ h.loc) (fun k hk => e ▸ h.kids k hk)

instance : Does .adv L c r (parseFunctionBody r) (fun _ => True)
    (fun _ a _ => WF L c.x (.node .fnBody a)) :=
  ⟨fun {n t s} hE hS hs _ => by
    unfold parseFunctionBody
    w_get
    refine modifyCtx_bind (g := fun x => { x with inFunction := true }) hs ?_
    intro s hs
    w_call a ha t1
    refine modifyCtx_bind (g := fun x => { x with inFunction := c.ctx.inFunction }) hs ?_
    intro s hs
    exact ⟨_, hs, fnBody_ret ha⟩⟩

/-- The body of an arrow function: a block, or an expression. -/
def ArrowBody (L : Nat) (x : Ctx) (p : Node × Bool) : Prop :=
  WF L x (.node (if p.2 then .expr else .fnBody) p.1)

instance : Does .advE L c r (parseArrowBody r) (fun _ => True) (fun _ p _ => ArrowBody L c.x p) :=
  ⟨fun {n t s} hE1 hS hs _ => by
    have hE := hE1.mono (Nat.le_succ n)
    unfold parseArrowBody
    w_cur
    w_if h
    · w_call b hb t1
      exact ⟨_, hs, hb⟩
    · w_call b hb t1
      exact ⟨_, hs, hb.wf⟩⟩

end Parser
end Giron

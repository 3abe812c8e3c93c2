import Verif.Proofs.Parse.State
/-
Specifications of parser methods as type class instances, so that a proof finds the specification of a callee by
its name; the combinators and loops.
-/
namespace Giron
open M Spec
variable [Env]
namespace Parser

/-- What the context means for the tree. -/
def Cx.x (c : Cx) : Ctx := ⟨c.ctx.strict, c.params.hasReturn, c.ctx.inIteration, c.ctx.inSwitch⟩

/-- the context inside `withParams f` -/
def Cx.withP (c : Cx) (f : Params → Params) : Cx := { c with params := f c.params, stack := c.params :: c.stack }
/-- inside `withIn b` -/
def Cx.setIn (c : Cx) (b : Bool) : Cx := c.withP (fun p => { p with hasIn := b })
/-- inside `withDefault b` -/
def Cx.setDefault (c : Cx) (b : Bool) : Cx := c.withP (fun p => { p with hasDefault := b })
/-- inside `withReturn b` -/
def Cx.setReturn (c : Cx) (b : Bool) : Cx := c.withP (fun p => { p with hasReturn := b })
/-- inside `withYield b` -/
def Cx.setYield (c : Cx) (b : Bool) : Cx := c.withP (fun p => { p with hasYield := b })
/-- inside `withAwait b` -/
def Cx.setAwait (c : Cx) (b : Bool) : Cx := c.withP (fun p => { p with hasAwait := b })
/-- inside `withYieldAwait y a` -/
def Cx.setYA (c : Cx) (y a : Bool) : Cx := c.withP (fun p => { p with hasYield := y, hasAwait := a })

omit [Env] in
@[simp] theorem Cx.x_setIn (c : Cx) (b) : (c.setIn b).x = c.x := rfl
omit [Env] in
@[simp] theorem Cx.x_setDefault (c : Cx) (b) : (c.setDefault b).x = c.x := rfl
omit [Env] in
@[simp] theorem Cx.x_setYield (c : Cx) (b) : (c.setYield b).x = c.x := rfl
omit [Env] in
@[simp] theorem Cx.x_setAwait (c : Cx) (b) : (c.setAwait b).x = c.x := rfl
omit [Env] in
@[simp] theorem Cx.x_setYA (c : Cx) (y a) : (c.setYA y a).x = c.x := rfl
omit [Env] in
@[simp] theorem Cx.x_setReturn (c : Cx) (b) : (c.setReturn b).x = { c.x with ret := b } := rfl

/-- A result that is a string literal came from a string token (or is `true`/`false`). -/
def Head (t : Token) (a : Node) : Prop :=
  ∀ v raw att sp, a = .literal (.str v) raw att sp → v = cs!"true" ∨ v = cs!"false" ∨ t.tokentype = .stringLiteral

/-- A result that is a directive came from a string token. -/
def SHead (t : Token) (a : Node) : Prop := ∀ v, directive? a = some v → t.tokentype = .stringLiteral

/-- A well-formed expression that binds at least at level `lv`. -/
structure GoodE (lv : Nat) (L : Nat) (x : Ctx) (t : Token) (a : Node) : Prop where
  wf : WF L x (.node .expr a)
  level : lv ≤ level a
  head : Head t a

/-- A well-formed statement in slot `r`. -/
structure GoodS (r : Role) (L : Nat) (x : Ctx) (t : Token) (a : Node) : Prop where
  wf : WF L x (.node r a)
  head : SHead t a

/-- A well-formed declared binding. -/
structure GoodB (L : Nat) (x : Ctx) (b : Binding) : Prop where
  wf : WF L x (.binding .declared b)
  isB : isBinding b = true
  named : BindIn x.strict b

/-- What `precedenceClimbing lhs prec` needs of the current token. -/
structure ClimbPre (L : Nat) (c : Cx) (lhs : Node) (prec : Nat) (t : Token) : Prop where
  op : t.isBinOp = true
  hprec : prec ≤ t.precedence c.params.hasIn
  pos : 1 ≤ prec
  wf : WF L c.x (.node .expr lhs)
  lev : 2 + t.precedence c.params.hasIn ≤ level lhs

/-- No operator of at least this precedence follows. -/
def NoOp (c : Cx) (prec : Nat) (t : Token) : Prop :=
  t.isBinOp = true → t.precedence c.params.hasIn < prec

/-- `f` makes progress, for all states of size at most `n`. -/
def RecSpec (L n : Nat) (f : PM α) (P : Cx → Token → Prop) (Q : Cx → Token → α → Token → Prop) : Prop :=
  ∀ c m t s, m < n → St L c (m + 1) t s → P c t →
    Sat (ParseFail L) f s (fun a s' => ∃ t', St L c m t' s' ∧ Q c t a t')

/-- The expression entry points are good for states of size at most `n`. -/
structure RecE (L : Nat) (r : Rec) (n : Nat) : Prop where
  assignmentExpr : RecSpec L n r.assignmentExpr (fun _ _ => True) (fun c t a _ => GoodE 0 L c.x t a)
  unaryExpr : RecSpec L n r.unaryExpr (fun _ _ => True) (fun c t a _ => GoodE 15 L c.x t a)
  exponentiationExpr : RecSpec L n r.exponentiationExpr (fun _ _ => True) (fun c t a _ => GoodE 14 L c.x t a)
  newExpr : RecSpec L n r.newExpr (fun _ _ => True) (fun c t a _ => GoodE 17 L c.x t a)
  leftHandSideExpr : RecSpec L n r.leftHandSideExpr (fun _ _ => True) (fun c t a _ => GoodE 17 L c.x t a)
  bindingIdOrPat : RecSpec L n r.bindingIdOrPat (fun _ _ => True) (fun c _ b _ => GoodB L c.x b)
  precedenceClimbing : ∀ lhs prec, RecSpec L n (r.precedenceClimbing lhs prec) (fun c t => ClimbPre L c lhs prec t)
    (fun c t a t' => GoodE (2 + prec) L c.x t a ∧ NoOp c prec t')

/-- The statement entry points are good for states of size at most `n`. -/
structure RecS (L : Nat) (r : Rec) (n : Nat) : Prop where
  stmtListItem : RecSpec L n r.stmtListItem (fun _ _ => True) (fun c t a _ => GoodS .stmt L c.x t a)
  statement : RecSpec L n r.statement (fun _ _ => True) (fun c t a _ => GoodS .sub L c.x t a)

variable {L : Nat} {c : Cx} {r : Rec} {n : Nat} {t : Token} {s : Parser} {α β : Type}

omit [Env] in
theorem RecSpec.mono [Env] {m} {f : PM α} {P Q} (h : RecSpec L n f P Q) (hm : m ≤ n) : RecSpec L m f P Q :=
  fun c k t s hk => h c k t s (by omega)

theorem RecE.mono {m} (h : RecE L r n) (hm : m ≤ n) : RecE L r m :=
  ⟨h.1.mono hm, h.2.mono hm, h.3.mono hm, h.4.mono hm, h.5.mono hm, h.6.mono hm,
    fun l p => (h.7 l p).mono hm⟩

theorem RecS.mono {m} (h : RecS L r n) (hm : m ≤ n) : RecS L r m := ⟨h.1.mono hm, h.2.mono hm⟩

/-- How a method uses the entry points: `adv` makes progress and re-enters only after progress; `advE` may re-enter
the expression entry points at once; `advS` also the statement entry points; `keep` may make no progress. -/
inductive Lvl | adv | advE | advS | keep

/-- how far the expression entry points must be good -/
@[reducible] def Lvl.es : Lvl → Nat
  | .adv => 0 | .advE => 1 | .advS => 1 | .keep => 0
/-- how far the statement entry points must be good -/
@[reducible] def Lvl.ss : Lvl → Nat
  | .adv => 0 | .advE => 0 | .advS => 1 | .keep => 0
/-- the progress -/
@[reducible] def Lvl.as : Lvl → Nat
  | .keep => 0 | _ => 1

/-- The specification of a method. -/
class Does (k : Lvl) (L : Nat) (c : Cx) (r : Rec) (f : PM α) (P : outParam (Token → Prop))
    (Q : outParam (Token → α → Token → Prop)) : Prop where
  sat : ∀ {n t s}, RecE L r (n + k.es) → RecS L r (n + k.ss) → St L c (n + k.as) t s → P t →
    Sat (ParseFail L) f s (fun a s' => ∃ t', St L c n t' s' ∧ Q t a t')

section
variable {f : PM α} {P : Token → Prop} {Q : Token → α → Token → Prop}

instance (priority := 50) Does.advE [h : Does .adv L c r f P Q] : Does .advE L c r f P Q :=
  ⟨fun hE hS hs hp => h.sat (hE.mono (Nat.le_add_right ..)) hS hs hp⟩

instance (priority := 50) Does.advS [h : Does .advE L c r f P Q] : Does .advS L c r f P Q :=
  ⟨fun hE hS hs hp => h.sat hE (hS.mono (Nat.le_add_right ..)) hs hp⟩

instance (priority := 50) Does.keep [h : Does .advS L c r f P Q] : Does .keep L c r f P Q :=
  ⟨fun {n t s} hE hS hs hp => by
    cases n with
    | zero => exact absurd hs.size (Nat.not_lt_zero _)
    | succ m => exact (h.sat (n := m) hE hS hs hp).mono (fun _ _ ⟨t', h1, h2⟩ => ⟨t', h1.mono (Nat.le_succ _), h2⟩)⟩

theorem Does.call_keep {g : α → PM β} {R : β → Parser → Prop} [h : Does .keep L c r f P Q] (hE : RecE L r n)
    (hS : RecS L r n) (hs : St L c n t s) (hp : P t)
    (hk : ∀ a s' t', St L c n t' s' → Q t a t' → Sat (ParseFail L) (g a) s' R) :
    Sat (ParseFail L) (f >>= g) s R :=
  Sat.bind (h.sat hE hS hs hp) (fun a s' ⟨t', h1, h2⟩ => hk a s' t' h1 h2)

theorem Does.call_adv {g : α → PM β} {R : β → Parser → Prop} [h : Does .adv L c r f P Q] (hE : RecE L r n)
    (hS : RecS L r n) (hs : St L c (n + 1) t s) (hp : P t)
    (hk : ∀ a s' t', St L c n t' s' → Q t a t' → Sat (ParseFail L) (g a) s' R) :
    Sat (ParseFail L) (f >>= g) s R :=
  Sat.bind (h.sat hE hS hs hp) (fun a s' ⟨t', h1, h2⟩ => hk a s' t' h1 h2)

theorem Does.call_advE {g : α → PM β} {R : β → Parser → Prop} [h : Does .advE L c r f P Q] (hE : RecE L r (n + 1))
    (hS : RecS L r n) (hs : St L c (n + 1) t s) (hp : P t)
    (hk : ∀ a s' t', St L c n t' s' → Q t a t' → Sat (ParseFail L) (g a) s' R) :
    Sat (ParseFail L) (f >>= g) s R :=
  Sat.bind (h.sat hE hS hs hp) (fun a s' ⟨t', h1, h2⟩ => hk a s' t' h1 h2)

theorem Does.call_advS {g : α → PM β} {R : β → Parser → Prop} [h : Does .advS L c r f P Q] (hE : RecE L r (n + 1))
    (hS : RecS L r (n + 1)) (hs : St L c (n + 1) t s) (hp : P t)
    (hk : ∀ a s' t', St L c n t' s' → Q t a t' → Sat (ParseFail L) (g a) s' R) :
    Sat (ParseFail L) (f >>= g) s R :=
  Sat.bind (h.sat hE hS hs hp) (fun a s' ⟨t', h1, h2⟩ => hk a s' t' h1 h2)

theorem Does.tail_keep {R : α → Parser → Prop} [h : Does .keep L c r f P Q] (hE : RecE L r n)
    (hS : RecS L r n) (hs : St L c n t s) (hp : P t) (hk : ∀ a s' t', St L c n t' s' → Q t a t' → R a s') :
    Sat (ParseFail L) f s R :=
  Sat.mono (h.sat hE hS hs hp) (fun a s' ⟨t', h1, h2⟩ => hk a s' t' h1 h2)

theorem Does.tail_adv {R : α → Parser → Prop} [h : Does .adv L c r f P Q] (hE : RecE L r n)
    (hS : RecS L r n) (hs : St L c (n + 1) t s) (hp : P t)
    (hk : ∀ a s' t', St L c n t' s' → Q t a t' → R a s') :
    Sat (ParseFail L) f s R :=
  Sat.mono (h.sat hE hS hs hp) (fun a s' ⟨t', h1, h2⟩ => hk a s' t' h1 h2)

theorem Does.tail_advE {R : α → Parser → Prop} [h : Does .advE L c r f P Q] (hE : RecE L r (n + 1))
    (hS : RecS L r n) (hs : St L c (n + 1) t s) (hp : P t)
    (hk : ∀ a s' t', St L c n t' s' → Q t a t' → R a s') :
    Sat (ParseFail L) f s R :=
  Sat.mono (h.sat hE hS hs hp) (fun a s' ⟨t', h1, h2⟩ => hk a s' t' h1 h2)

theorem Does.tail_advS {R : α → Parser → Prop} [h : Does .advS L c r f P Q] (hE : RecE L r (n + 1))
    (hS : RecS L r (n + 1)) (hs : St L c (n + 1) t s) (hp : P t)
    (hk : ∀ a s' t', St L c n t' s' → Q t a t' → R a s') :
    Sat (ParseFail L) f s R :=
  Sat.mono (h.sat hE hS hs hp) (fun a s' ⟨t', h1, h2⟩ => hk a s' t' h1 h2)

theorem withParams_sat {k : Lvl} {g : Params → Params} (h : Does k L (c.withP g) r f P Q) :
    Does k L c r (withParams g f) P Q :=
  ⟨fun {n t s} hE hS hs hp => by
    unfold withParams
    refine Sat.bind (P := fun _ s' => s' = { s with paramsStack := s.params :: s.paramsStack }) rfl ?_
    rintro _ _ rfl
    refine Sat.bind (P := fun _ s' => s' = { s with params := g s.params, paramsStack := s.params :: s.paramsStack }) rfl ?_
    rintro _ _ rfl
    refine Sat.bind (h.sat hE hS (t := t)
      (s := { s with params := g s.params, paramsStack := s.params :: s.paramsStack })
      ⟨⟨hs.inv.1, hs.inv.2, hs.inv.3, hs.inv.4, hs.inv.5⟩, hs.ctx, by simp [Cx.withP, hs.params],
        by simp [Cx.withP, hs.params, hs.stack], hs.size, hs.current⟩ hp) ?_
    rintro a s' ⟨t', h1, h2⟩
    have hst : s'.paramsStack = c.params :: c.stack := h1.stack
    refine Sat.bind (P := fun _ s'' => s'' = { s' with params := c.params, paramsStack := c.stack }) ?_ ?_
    · have e : restoreParams s' = .ok ((), { s' with params := c.params, paramsStack := c.stack }) := by
        unfold restoreParams; rw [hst]
      unfold Sat; rw [e]
    · rintro _ _ rfl
      exact ⟨t', ⟨⟨h1.inv.1, h1.inv.2, h1.inv.3, h1.inv.4, h1.inv.5⟩, h1.ctx, rfl, rfl, h1.size, h1.current⟩, h2⟩⟩

instance {k : Lvl} {g : Params → Params} [h : Does k L (c.withP g) r f P Q] : Does k L c r (withParams g f) P Q :=
  withParams_sat h
instance {k : Lvl} {b : Bool} [h : Does k L (c.setIn b) r f P Q] : Does k L c r (withIn b f) P Q :=
  withParams_sat h
instance {k : Lvl} {b : Bool} [h : Does k L (c.setDefault b) r f P Q] : Does k L c r (withDefault b f) P Q :=
  withParams_sat h
instance {k : Lvl} {b : Bool} [h : Does k L (c.setReturn b) r f P Q] : Does k L c r (withReturn b f) P Q :=
  withParams_sat h
instance {k : Lvl} {b : Bool} [h : Does k L (c.setYield b) r f P Q] : Does k L c r (withYield b f) P Q :=
  withParams_sat h
instance {k : Lvl} {b : Bool} [h : Does k L (c.setAwait b) r f P Q] : Does k L c r (withAwait b f) P Q :=
  withParams_sat h
instance {k : Lvl} {y a : Bool} [h : Does k L (c.setYA y a) r f P Q] : Does k L c r (withYieldAwait y a f) P Q :=
  withParams_sat h
end

/-! ### The entry points -/

instance : Does .advE L c r r.assignmentExpr (fun _ => True) (fun t a _ => GoodE 0 L c.x t a) :=
  ⟨fun hE _ hs hp => hE.assignmentExpr _ _ _ _ (by simp) hs hp⟩
instance : Does .advE L c r r.unaryExpr (fun _ => True) (fun t a _ => GoodE 15 L c.x t a) :=
  ⟨fun hE _ hs hp => hE.unaryExpr _ _ _ _ (by simp) hs hp⟩
instance : Does .advE L c r r.exponentiationExpr (fun _ => True) (fun t a _ => GoodE 14 L c.x t a) :=
  ⟨fun hE _ hs hp => hE.exponentiationExpr _ _ _ _ (by simp) hs hp⟩
instance : Does .advE L c r r.newExpr (fun _ => True) (fun t a _ => GoodE 17 L c.x t a) :=
  ⟨fun hE _ hs hp => hE.newExpr _ _ _ _ (by simp) hs hp⟩
instance : Does .advE L c r r.leftHandSideExpr (fun _ => True) (fun t a _ => GoodE 17 L c.x t a) :=
  ⟨fun hE _ hs hp => hE.leftHandSideExpr _ _ _ _ (by simp) hs hp⟩
instance : Does .advE L c r r.bindingIdOrPat (fun _ => True) (fun _ b _ => GoodB L c.x b) :=
  ⟨fun hE _ hs hp => hE.bindingIdOrPat _ _ _ _ (by simp) hs hp⟩
instance {lhs : Node} {prec : Nat} : Does .advE L c r (r.precedenceClimbing lhs prec)
    (fun t => ClimbPre L c lhs prec t)
    (fun t a t' => GoodE (2 + prec) L c.x t a ∧ NoOp c prec t') :=
  ⟨fun hE _ hs hp => hE.precedenceClimbing _ _ _ _ _ _ (by simp) hs hp⟩
instance : Does .advS L c r r.stmtListItem (fun _ => True) (fun t a _ => GoodS .stmt L c.x t a) :=
  ⟨fun _ hS hs hp => hS.stmtListItem _ _ _ _ (by simp) hs hp⟩
instance : Does .advS L c r r.statement (fun _ => True) (fun t a _ => GoodS .sub L c.x t a) :=
  ⟨fun _ hS hs hp => hS.statement _ _ _ _ (by simp) hs hp⟩

/-! ### Tokens -/

instance {g : LexGoal} : Does .adv L c r (advance g) (fun t => t.tokentype ≠ .eof) (fun t a _ => t = a) :=
  ⟨fun _ _ hs hp => (advance_sat g hs hp).mono (fun _ _ ⟨h1, t', h2⟩ => ⟨t', h2, h1.symm⟩)⟩

instance {g : LexGoal} : Does .keep L c r (advance g) (fun _ => True) (fun t a _ => t = a) :=
  ⟨fun _ _ hs _ => (advance_keep g hs).mono (fun _ _ ⟨h1, t', h2⟩ => ⟨t', h2, h1.symm⟩)⟩

omit [Env] in
theorem not_eof_of_value {v : Value} (h : TokOk L t) (hv : t.value = v) (hn : v ≠ .null) : t.tokentype ≠ .eof := by
  intro he
  have := h.1
  simp only [TokShape, he] at this
  exact hn (hv.symm.trans this)

omit [Env] in
theorem value_of_matchesPunc {p : Punctuator} (h : t.matchesPunc p = true) : t.value = .punc p := by
  simpa [Token.matchesPunc] using h
omit [Env] in
theorem value_of_matchesStr {v : Str} (h : t.matchesStr v = true) : t.value = .str v := by
  simpa [Token.matchesStr] using h
omit [Env] in
theorem value_of_isP {p : Punctuator} (h : t.isP p = true) : t.value = .punc p := by
  simp [Token.isP] at h; exact value_of_matchesPunc h.2
omit [Env] in
theorem type_of_isP {p : Punctuator} (h : t.isP p = true) : t.tokentype = .punctuator := by
  simp [Token.isP] at h; exact h.1
omit [Env] in
theorem type_of_isKw {v : Str} (h : t.isKw v = true) : t.tokentype = .keyword := by
  simp [Token.isKw] at h; exact h.1
omit [Env] in
theorem type_of_isId {v : Str} (h : t.isId v = true) : t.tokentype = .identifier := by
  simp [Token.isId] at h; exact h.1
omit [Env] in
theorem not_eof_of_isP {p : Punctuator} (h : t.isP p = true) : t.tokentype ≠ .eof := by
  rw [type_of_isP h]; decide
omit [Env] in
theorem not_eof_of_isKw {v : Str} (h : t.isKw v = true) : t.tokentype ≠ .eof := by
  rw [type_of_isKw h]; decide
omit [Env] in
theorem not_eof_of_isId {v : Str} (h : t.isId v = true) : t.tokentype ≠ .eof := by
  rw [type_of_isId h]; decide
omit [Env] in
theorem not_eof_of_isIdOrKw (h : t.isIdOrKw = true) : t.tokentype ≠ .eof := by
  simp [Token.isIdOrKw] at h
  rcases h with h | h <;> rw [h] <;> decide

instance {p : Punctuator} {g : LexGoal} :
    Does .adv L c r (consume p g) (fun _ => True) (fun t a _ => t = a ∧ t.value = .punc p) :=
  ⟨fun _ _ hs _ => by
    unfold consume
    refine cur_bind hs (Sat.ite (fun h => ?_) (fun _ => unexpectedCurrent_sat hs))
    have hv := value_of_matchesPunc h
    exact (advance_sat g hs (not_eof_of_value hs.tok hv (by simp))).mono (fun _ _ ⟨h1, t', h2⟩ => ⟨t', h2, h1.symm, hv⟩)⟩

instance {v : Str} {g : LexGoal} :
    Does .adv L c r (consumeKw v g) (fun _ => True) (fun t a _ => t = a ∧ t.isKw v = true) :=
  ⟨fun _ _ hs _ => by
    unfold consumeKw
    refine cur_bind hs (Sat.ite (fun h => ?_) (fun _ => unexpectedCurrent_sat hs))
    exact (advance_sat g hs (not_eof_of_isKw h)).mono (fun _ _ ⟨h1, t', h2⟩ => ⟨t', h2, h1.symm, h⟩)⟩

instance {v : Str} {g : LexGoal} :
    Does .adv L c r (consumeId v g) (fun _ => True) (fun t a _ => t = a ∧ t.isId v = true) :=
  ⟨fun _ _ hs _ => by
    unfold consumeId
    refine cur_bind hs (Sat.ite (fun h => ?_) (fun _ => unexpectedCurrent_sat hs))
    exact (advance_sat g hs (not_eof_of_isId h)).mono (fun _ _ ⟨h1, t', h2⟩ => ⟨t', h2, h1.symm, h⟩)⟩

instance {g : LexGoal} : Does .keep L c r (consumeSemicolon g) (fun _ => True) (fun _ _ _ => True) :=
  ⟨fun _ _ hs _ => by
    unfold consumeSemicolon
    refine get_bind hs (fun s0 e1 e2 e3 => ?_)
    refine Sat.ite (fun _ => ?_) (fun _ => Sat.ite (fun _ => Sat.ite (fun _ => ?_) (fun _ =>
      Sat.ite (fun _ => ?_) (fun _ => unexpectedCurrent_sat hs))) (fun _ => ?_))
    · exact Sat.bind (advance_keep g hs) (fun _ _ ⟨_, t', h2⟩ => ⟨t', h2, trivial⟩)
    all_goals exact ⟨_, hs, trivial⟩⟩

instance {p : Punctuator} : Does .keep L c r (commaUnless p) (fun _ => True) (fun _ _ _ => True) :=
  ⟨fun hE hS hs _ => by
    unfold commaUnless
    refine cur_bind hs (Sat.ite (fun _ => ⟨_, hs, trivial⟩) (fun _ => ?_))
    exact Does.call_keep hE hS hs trivial (fun _ _ _ hs' _ => ⟨_, hs', trivial⟩)⟩

/-! ### Loops -/

section
variable {f : PM α} {P : Token → Prop} {Q : Token → α → Token → Prop}

/-- all elements satisfy `Q`, read with some token -/
def AllQ (Q : Token → α → Token → Prop) (l : List α) : Prop := ∀ x ∈ l, ∃ t t', Q t x t'

omit [Env] in
theorem AllQ.nil : AllQ Q [] := by intro x hx; simp at hx
omit [Env] in
theorem AllQ.cons {x : α} {l : List α} {t' : Token} (h : Q t x t') (hl : AllQ Q l) : AllQ Q (x :: l) := by
  intro y hy
  rcases List.mem_cons.1 hy with rfl | hy
  · exact ⟨_, _, h⟩
  · exact hl y hy

theorem whilePuncF_sat {p : Punctuator} [h : Does .advS L c r f P Q] (hP : ∀ t, t.isP p = true → P t) (m : Nat)
    (hE : RecE L r n) (hS : RecS L r n) (hs : St L c n t s) (hm : s.size < m) :
    Sat (ParseFail L) (whilePuncF p f m) s
      (fun l s' => ∃ t', St L c n t' s' ∧ AllQ (fun t x t' => t.isP p = true ∧ Q t x t') l ∧
        (t.isP p = true → l ≠ [])) := by
  induction m generalizing t s with
  | zero => omega
  | succ m ih =>
    unfold whilePuncF
    refine cur_bind hs (Sat.ite (fun hp => ?_) (fun h => ⟨_, hs, AllQ.nil, fun h' => absurd h' h⟩))
    have hs' : St L c (s.size + 1) t s := ⟨hs.1, hs.2, hs.3, hs.4, Nat.lt_succ_self _, hs.6⟩
    have hsz := hs.size
    refine Sat.bind (h.sat (hE.mono hsz) (hS.mono hsz) hs' (hP t hp)) ?_
    rintro a s1 ⟨t1, h1, h2⟩
    refine Sat.bind (ih (h1.mono (Nat.le_of_lt hsz)) (by have := h1.size; omega)) ?_
    rintro l s2 ⟨t2, h3, h4, -⟩
    exact ⟨t2, h3, AllQ.cons ⟨hp, h2⟩ h4, by simp⟩

theorem untilPuncF_sat {p : Punctuator} [h : Does .advS L c r f (fun _ => True) Q] (m : Nat)
    (hE : RecE L r n) (hS : RecS L r n) (hs : St L c n t s) (hm : s.size < m) :
    Sat (ParseFail L) (untilPuncF p f m) s (fun l s' => ∃ t', St L c n t' s' ∧ AllQ Q l ∧
      (∀ x l', l = x :: l' → ∃ t', Q t x t')) := by
  induction m generalizing t s with
  | zero => omega
  | succ m ih =>
    unfold untilPuncF
    refine cur_bind hs (Sat.ite (fun hp => ⟨_, hs, AllQ.nil, by simp⟩) (fun _ => ?_))
    have hs' : St L c (s.size + 1) t s := ⟨hs.1, hs.2, hs.3, hs.4, Nat.lt_succ_self _, hs.6⟩
    have hsz := hs.size
    refine Sat.bind (h.sat (hE.mono hsz) (hS.mono hsz) hs' trivial) ?_
    rintro a s1 ⟨t1, h1, h2⟩
    refine Sat.bind (ih (h1.mono (Nat.le_of_lt hsz)) (by have := h1.size; omega)) ?_
    rintro l s2 ⟨t2, h3, h4, -⟩
    exact ⟨t2, h3, AllQ.cons h2 h4, by rintro x l' ⟨rfl, rfl⟩; exact ⟨_, h2⟩⟩

theorem untilEofF_sat {f : PM Node} {Q : Token → Node → Token → Prop} [h : Does .advS L c r f (fun _ => True) Q]
    (m : Nat) (hE : RecE L r n) (hS : RecS L r n) (hs : St L c n t s) (hm : s.size < m) :
    Sat (ParseFail L) (untilEofF f m) s (fun l s' => ∃ t', St L c n t' s' ∧ AllQ Q l ∧
      (∀ x l', l = x :: l' → ∃ t', Q t x t') ∧ t'.tokentype = .eof) := by
  induction m generalizing t s with
  | zero => omega
  | succ m ih =>
    unfold untilEofF
    refine cur_bind hs (Sat.ite (fun hp => ⟨_, hs, AllQ.nil, by simp, hp⟩) (fun _ => ?_))
    have hs' : St L c (s.size + 1) t s := ⟨hs.1, hs.2, hs.3, hs.4, Nat.lt_succ_self _, hs.6⟩
    have hsz := hs.size
    refine Sat.bind (h.sat (hE.mono hsz) (hS.mono hsz) hs' trivial) ?_
    rintro a s1 ⟨t1, h1, h2⟩
    refine Sat.bind (ih (h1.mono (Nat.le_of_lt hsz)) (by have := h1.size; omega)) ?_
    rintro l s2 ⟨t2, h3, h4, -, h5⟩
    exact ⟨t2, h3, AllQ.cons h2 h4, by rintro x l' ⟨rfl, rfl⟩; exact ⟨_, h2⟩, h5⟩

/-- All elements satisfy `Q`, and all but the last were not read from `...`. -/
def OrRest (Q : Token → α → Token → Prop) : List α → Prop
  | [] => True
  | [x] => ∃ t t', Q t x t'
  | x :: y :: l => (∃ t t', t.isP .ellipsis = false ∧ Q t x t') ∧ OrRest Q (y :: l)

omit [Env] in
theorem OrRest.cons {x : α} {l : List α} {t' : Token} (he : t.isP .ellipsis = false) (h : Q t x t')
    (hl : OrRest Q l) : OrRest Q (x :: l) := by
  cases l with
  | nil => exact ⟨_, _, h⟩
  | cons y l => exact ⟨⟨_, _, he, h⟩, hl⟩

omit [Env] in
theorem OrRest.all {l : List α} (h : OrRest Q l) : AllQ Q l := by
  induction l with
  | nil => exact AllQ.nil
  | cons x l ih =>
    cases l with
    | nil => obtain ⟨t, t', h⟩ := h; exact AllQ.cons h AllQ.nil
    | cons y l => obtain ⟨⟨t, t', _, h⟩, h'⟩ := h; exact AllQ.cons h (ih h')

omit [Env] in
theorem OrRest.restLast {l : List α} {isRest : α → Bool} (h : OrRest Q l)
    (hr : ∀ t x t', Q t x t' → isRest x = true → t.isP .ellipsis = true) : RestLast isRest l := by
  induction l with
  | nil => trivial
  | cons x l ih =>
    cases l with
    | nil => trivial
    | cons y l =>
      obtain ⟨⟨t, t', he, h⟩, h'⟩ := h
      refine ⟨?_, ih h'⟩
      cases hx : isRest x with
      | false => rfl
      | true => rw [hr t x t' h hx] at he; exact absurd he (by decide)

theorem untilPuncOrRestF_sat {p : Punctuator} [h : Does .advS L c r f (fun _ => True) Q] (m : Nat)
    (hE : RecE L r n) (hS : RecS L r n) (hs : St L c n t s) (hm : s.size < m) :
    Sat (ParseFail L) (untilPuncOrRestF p f m) s (fun l s' => ∃ t', St L c n t' s' ∧ OrRest Q l) := by
  induction m generalizing t s with
  | zero => omega
  | succ m ih =>
    unfold untilPuncOrRestF
    refine cur_bind hs (Sat.ite (fun hp => ⟨_, hs, trivial⟩) (fun _ => ?_))
    have hs' : St L c (s.size + 1) t s := ⟨hs.1, hs.2, hs.3, hs.4, Nat.lt_succ_self _, hs.6⟩
    have hsz := hs.size
    have hf := h.sat (hE.mono hsz) (hS.mono hsz) hs' trivial
    refine Sat.ite (fun hr => ?_) (fun hr => ?_)
    · refine Sat.bind hf ?_
      rintro a s1 ⟨t1, h1, h2⟩
      exact ⟨t1, h1.mono (Nat.le_of_lt hsz), _, _, h2⟩
    · refine Sat.bind hf ?_
      rintro a s1 ⟨t1, h1, h2⟩
      refine Sat.bind (ih (h1.mono (Nat.le_of_lt hsz)) (by have := h1.size; omega)) ?_
      rintro l s2 ⟨t2, h3, h4⟩
      exact ⟨t2, h3, OrRest.cons (by simpa using hr) h2 h4⟩

instance {p : Punctuator} [h : Does .advS L c r f (fun _ => True) Q] :
    Does .keep L c r (whilePunc p f) (fun _ => True)
      (fun t l _ => AllQ (fun t x t' => t.isP p = true ∧ Q t x t') l ∧ (t.isP p = true → l ≠ [])) :=
  ⟨fun hE hS hs _ => whilePuncF_sat (fun _ _ => trivial) _ hE hS hs (Nat.lt_succ_self _)⟩

instance {p : Punctuator} [h : Does .advS L c r f (fun _ => True) Q] :
    Does .keep L c r (untilPunc p f) (fun _ => True)
      (fun t l _ => AllQ Q l ∧ (∀ x l', l = x :: l' → ∃ t', Q t x t')) :=
  ⟨fun hE hS hs _ => untilPuncF_sat _ hE hS hs (Nat.lt_succ_self _)⟩

instance {f : PM Node} {Q : Token → Node → Token → Prop} [h : Does .advS L c r f (fun _ => True) Q] :
    Does .keep L c r (untilEof f) (fun _ => True)
      (fun t l t' => AllQ Q l ∧ (∀ x l', l = x :: l' → ∃ t', Q t x t') ∧ t'.tokentype = .eof) :=
  ⟨fun hE hS hs _ => untilEofF_sat _ hE hS hs (Nat.lt_succ_self _)⟩

instance {p : Punctuator} [h : Does .advS L c r f (fun _ => True) Q] :
    Does .keep L c r (untilPuncOrRest p f) (fun _ => True) (fun _ l _ => OrRest Q l) :=
  ⟨fun hE hS hs _ => untilPuncOrRestF_sat _ hE hS hs (Nat.lt_succ_self _)⟩

end

end Parser
end Giron

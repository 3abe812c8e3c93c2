import Verif.Proofs.Parse.Climb
/-
Specifications of the methods of `Model/Parser/Stmt.lean`.
-/
namespace Giron
open M Spec
variable [Env]

namespace Spec
variable {L : Nat} {x y : Ctx} {n : Node}
omit [Env]

/-- A node in another slot. -/
theorem WF.reRole {r r' : Role} (h : WF L y (.node r n)) (he : enter x (.node r' n) = enter y (.node r n))
    (hp : nodeParts r' n = nodeParts r n) (hf : Fits (enter y (.node r n)).strict r' n)
    (hn : isIdent n = false) (hx : r'.isExprLike = false := by rfl) : WF L x (.node r' n) := by
  refine .mk ?_ ?_
  · rw [he]
    exact ⟨hf, h.loc.2.1, by simp [hx], by rintro - _ _ _ rfl; simp [isIdent] at hn⟩
  · rw [he]
    simp only [children, hp]
    exact h.kids

theorem nodeParts_sub {r r' : Role} (h : isSub n = true ∨ isStmt n = true) : nodeParts r n = nodeParts r' n := by
  cases n <;> simp [isSub, isStmt, isDecl] at h <;> rfl

theorem isIdent_sub (h : isSub n = true ∨ isStmt n = true) : isIdent n = false := by
  cases n <;> simp [isSub, isStmt, isDecl] at h <;> rfl

theorem enter_role {r r' : Role} (h1 : r.isFnBody = r'.isFnBody) (h2 : r.isLoopBody = r'.isLoopBody) :
    enter x (.node r n) = enter x (.node r' n) := by
  cases n <;> simp only [enter, Item.startsStrict, Node.startsStrict, Item.isFnBody, Item.isLoopBody, h1, h2,
    Item.isSwitch]

theorem WF.subTo {r' : Role} (h : WF L x (.node .sub n)) (hf : ∀ b, Fits b r' n)
    (hx : (r'.isFnBody || r'.isLoopBody || r'.isExprLike) = false := by rfl) :
    WF L x (.node r' n) := by
  simp only [Bool.or_eq_false_iff] at hx
  exact h.reRole (enter_role hx.1.1 hx.1.2) (nodeParts_sub (Or.inl h.loc.1)) (hf _) (isIdent_sub (Or.inl h.loc.1)) hx.2

theorem WF.stmtTo {r' : Role} (h : WF L x (.node .stmt n)) (hf : ∀ b, Fits b r' n)
    (hx : (r'.isFnBody || r'.isLoopBody || r'.isExprLike) = false := by rfl) :
    WF L x (.node r' n) := by
  simp only [Bool.or_eq_false_iff] at hx
  exact h.reRole (enter_role hx.1.1 hx.1.2) (nodeParts_sub (Or.inr h.loc.1)) (hf _) (isIdent_sub (Or.inr h.loc.1)) hx.2

theorem WF.toLoop (h : WF L { x with iter := true } (.node .sub n)) : WF L x (.node .loopBody n) := by
  have hs : isSub n = true := h.loc.1
  refine h.reRole ?_ (nodeParts_sub (Or.inl hs)) hs (isIdent_sub (Or.inl hs))
  cases n <;> simp [isSub] at hs <;>
    simp [enter, Item.startsStrict, Node.startsStrict, Item.isFnBody, Item.isLoopBody, Role.isFnBody, Role.isLoopBody,
      Item.isSwitch]

end Spec

namespace Parser
variable {L : Nat} {c : Cx} {r : Rec} {n : Nat} {t : Token} {s : Parser} {α β : Type}

omit [Env] in
theorem GoodS.stmt {x : Ctx} {a : Node} (h : GoodS .sub L x t a) : GoodS .stmt L x t a :=
  ⟨h.wf.subTo (fun _ => by have : isSub a = true := h.wf.loc.1; simp [Fits, isStmt, this]), h.head⟩

omit [Env] in
theorem AllQ.wf {x : Ctx} {r : Role} {l : List Node} (h : AllQ (fun t a _ => GoodS r L x t a) l) :
    ∀ a ∈ l, WF L x (.node r a) := fun a ha => by obtain ⟨_, _, h⟩ := h a ha; exact h.wf

/-- A block that is no function body. -/
def BlockQ (L : Nat) (x : Ctx) (a : Node) : Prop :=
  ∃ body sp, a = .blockStatement body sp ∧ ∀ n ∈ body, WF L x (.node .stmt n)

omit [Env] in
theorem BlockQ.wf {x : Ctx} {a : Node} (h : BlockQ L x a) {r : Role} (hf : ∀ b, Fits b r a)
    (h3 : r.isExprLike = false := by rfl)
    (h5 : r.isFnBody = false := by rfl) (h6 : r.isLoopBody = false := by rfl) : GoodS r L x t a := by
  obtain ⟨body, sp, rfl, hk⟩ := h
  exact GoodS.mk' (hf _) trivial (by simpa [nodeParts, AllWF_map] using hk) h3 rfl rfl
    (by simp [Item.plain, Item.startsStrict, Node.startsStrict, Item.isFnBody, Item.isLoopBody, Item.isSwitch, h5, h6,
      Node.isSwitch])

omit [Env] in
theorem BlockQ.block {x : Ctx} {a : Node} (h : BlockQ L x a) : WF L x (.node .block a) :=
  (h.wf (t := default) (fun _ => by obtain ⟨_, _, rfl, _⟩ := h; rfl)).wf

omit [Env] in
theorem BlockQ.sub {x : Ctx} {a : Node} (h : BlockQ L x a) : GoodS .sub L x t a :=
  h.wf (fun _ => by obtain ⟨_, _, rfl, _⟩ := h; rfl)

instance : Does .adv L c r (parseBlockStmt r) (fun _ => True) (fun _ a _ => BlockQ L c.x a) :=
  ⟨fun {n t s} hE hS hs _ => by
    unfold parseBlockStmt
    w_start
    w_call a ha t1
    w_call l hl t2
    w_call b hb t3
    w_end sp hsp
    exact ⟨_, hs, _, _, rfl, hl.1.wf⟩⟩

instance : Does .advE L c r (parseVariableDclr r) (fun _ => True) (fun _ d _ => WF L c.x (.declarator d)) :=
  ⟨fun {n t s} hE1 hS hs _ => by
    have hE := hE1.mono (Nat.le_succ n)
    unfold parseVariableDclr
    w_call b hb t1
    w_cur
    w_if h
    · w_call a ha t2
      w_call e he t3
      exact ⟨_, hs, WF.plain ⟨by simp, hb.named⟩ (by simp [children, hb.wf, he.wf])⟩
    · split
      · exact ⟨_, hs, WF.plain ⟨by simp [isName], hb.named⟩ (by simp [children, hb.wf])⟩
      · w_call a ha t2
        subst ha
        exact error_sat (by assumption)⟩

instance : Does .adv L c r (commaDclr r) (fun _ => True) (fun _ d _ => WF L c.x (.declarator d)) :=
  ⟨fun {n t s} hE hS hs _ => by
    unfold commaDclr
    w_call a ha t1
    w_tail d hd t2
    exact hd⟩

/-- Declarators. -/
def DclrsQ (L : Nat) (x : Ctx) (l : List VariableDeclarator) : Prop := l ≠ [] ∧ ∀ d ∈ l, WF L x (.declarator d)

omit [Env] in
theorem DclrsQ.wf {x : Ctx} {l : List VariableDeclarator} {kind : Str} {sp : Span} {r : Role} (h : DclrsQ L x l)
    (hk : kind ∈ varKinds) (hf : ∀ b, Fits b r (.variableDeclaration l kind sp))
    (h3 : r.isExprLike = false := by rfl)
    (h5 : r.isFnBody = false := by rfl) (h6 : r.isLoopBody = false := by rfl) :
    GoodS r L x t (.variableDeclaration l kind sp) :=
  GoodS.mk' (hf _) ⟨h.1, hk⟩ (by simpa [nodeParts, AllWF_map] using h.2) h3 rfl rfl
    (by simp [Item.plain, Item.startsStrict, Node.startsStrict, Item.isFnBody, Item.isLoopBody, Item.isSwitch, h5, h6,
      Node.isSwitch])

instance : Does .advE L c r (parseVarList r) (fun _ => True) (fun _ l _ => DclrsQ L c.x l) :=
  ⟨fun {n t s} hE1 hS hs _ => by
    have hE := hE1.mono (Nat.le_succ n)
    unfold parseVarList
    w_call d hd t1
    w_call l hl t2
    refine ⟨_, hs, by simp, ?_⟩
    intro e he
    rcases List.mem_cons.1 he with rfl | he
    · exact hd
    · obtain ⟨_, _, _, h⟩ := hl.1 _ he
      exact h⟩

/-- A `var` declaration. -/
def VarQ (L : Nat) (x : Ctx) (a : Node) : Prop := ∃ l sp, a = .variableDeclaration l cs!"var" sp ∧ DclrsQ L x l

omit [Env] in
theorem VarQ.sub {x : Ctx} {a : Node} (h : VarQ L x a) : GoodS .sub L x t a := by
  obtain ⟨l, sp, rfl, h⟩ := h
  exact h.wf (by decide) (fun _ => by simp [Fits, isSub])

instance : Does .adv L c r (parseVariableStmt r) (fun _ => True) (fun _ a _ => VarQ L c.x a) :=
  ⟨fun {n t s} hE hS hs _ => by
    unfold parseVariableStmt
    w_start
    w_call a ha t1
    w_call l hl t2
    w_call u hu t3
    w_end sp hsp
    exact ⟨_, hs, _, _, rfl, hl⟩⟩

/-- A declaration. -/
def DeclQ (L : Nat) (x : Ctx) (t : Token) (a : Node) : Prop := GoodS .stmt L x t a ∧ isDecl a = true

instance : Does .adv L c r (parseLexicalDclr r) (fun _ => True) (fun t a _ => DeclQ L c.x t a) :=
  ⟨fun {n t s} hE hS hs _ => by
    unfold parseLexicalDclr
    w_start
    w_cur
    w_sub (fun k => k ∈ varKinds)
    · w_if h
      · w_call a ha t1
        exact ⟨_, hs, by decide⟩
      · w_if h
        w_call a ha t1
        exact ⟨_, hs, by decide⟩
    · rintro k s ⟨t1, hs, hk⟩
      w_call l hl t2
      w_call u hu t3
      w_end sp hsp
      exact ⟨_, hs, hl.wf hk (fun _ => by simp [Fits, isStmt, isDecl]), rfl⟩⟩

instance : Does .adv L c r parseEmptyStmt (fun _ => True) (fun t a _ => GoodS .sub L c.x t a) :=
  ⟨fun {n t s} hE hS hs _ => by
    unfold parseEmptyStmt
    w_start
    w_call a ha t1
    w_end sp hsp
    exact ⟨_, hs, GoodS.mk' rfl trivial (by simp [nodeParts])⟩⟩

theorem parseExpressionStmt_sat {e : Node} {t0 : Token} (he : GoodE 0 L c.x t0 e) (hE : RecE L r n) (hS : RecS L r n)
    (hs : St L c n t s) :
    Sat (ParseFail L) (parseExpressionStmt e) s (fun a s' => ∃ t', St L c n t' s' ∧ GoodS .sub L c.x t0 a) := by
  unfold parseExpressionStmt
  w_end sp hsp
  w_call u hu t1
  refine ⟨_, hs, WF.plain ⟨rfl, trivial, by simp [Role.isExprLike], by simp [Role.isRef]⟩ (by simp [children, nodeParts, he.wf]), ?_⟩
  intro v hv
  obtain ⟨raw, att, sp, sp', h⟩ := directive_literal hv
  simp only [Node.expressionStatement.injEq] at h
  rcases he.head _ _ _ _ h.1 with rfl | rfl | h'
  · rw [h.1] at hv; simp [directive?] at hv
  · rw [h.1] at hv; simp [directive?] at hv
  · exact h'

instance : Does .keep L c r (parseElse r) (fun _ => True) (fun _ o _ => ∀ a, o = some a → WF L c.x (.node .sub a)) :=
  ⟨fun {n t s} hE hS hs _ => by
    unfold parseElse
    w_cur
    w_if h
    · w_call a ha t1
      w_call b hb t2
      exact ⟨_, hs, by rintro _ ⟨⟩; exact hb.wf⟩
    · exact ⟨_, hs, by simp⟩⟩

instance : Does .adv L c r (parseIfStmt r) (fun _ => True) (fun t a _ => GoodS .sub L c.x t a) :=
  ⟨fun {n t s} hE hS hs _ => by
    unfold parseIfStmt
    w_start
    w_call a ha t1
    w_call b hb t2
    w_call e he t3
    w_call d hd t4
    w_call x hx t5
    w_call y hy t6
    w_end sp hsp
    exact ⟨_, hs, GoodS.mk' rfl trivial (by simp [nodeParts, he.wf, hx.wf, AllWF_optNode]; exact hy)⟩⟩

/-! ### Loops -/

/-- the context of a loop body -/
def Cx.setIter (c : Cx) (b : Bool) : Cx := { c with ctx := { c.ctx with inIteration := b } }

instance : Does .advS L c r (parseLoopBody r) (fun _ => True) (fun _ a _ => WF L c.x (.node .loopBody a)) :=
  ⟨fun {n t s} hE1 hS1 hs _ => by
    unfold parseLoopBody
    refine get_bind hs (fun s0 e1 e2 e3 => ?_)
    refine modifyCtx_bind (g := fun x => { x with inIteration := true }) hs ?_
    intro s hs
    refine Does.call_advS (c := c.setIter true) hE1 hS1 hs trivial ?_
    intro a s t1 hs ha
    refine modifyCtx_bind (g := fun x => { x with inIteration := s0.ctx.inIteration }) hs ?_
    intro s hs
    have e : ({ c.setIter true with ctx := { (c.setIter true).ctx with inIteration := s0.ctx.inIteration } } : Cx) = c := by
      rw [e2]; rfl
    rw [e] at hs
    exact ⟨_, hs, WF.toLoop ha.wf⟩⟩

instance {p : Punctuator} : Does .keep L c r (optExpr r p) (fun _ => True)
    (fun _ o _ => ∀ a, o = some a → WF L c.x (.node .expr a)) :=
  ⟨fun {n t s} hE hS hs _ => by
    unfold optExpr
    w_cur
    w_if h
    · exact ⟨_, hs, by simp⟩
    · w_call e he t1
      exact ⟨_, hs, by rintro _ ⟨⟩; exact he.wf⟩⟩

theorem parseForClassic_sat {o : Option Node} {t0 : Token} (ho : ∀ a, o = some a → WF L c.x (.node .forInit a))
    (hE : RecE L r n) (hS : RecS L r n) (hs : St L c n t s) :
    Sat (ParseFail L) (parseForClassic r o) s (fun a s' => ∃ t', St L c n t' s' ∧ GoodS .sub L c.x t0 a) := by
  unfold parseForClassic
  w_call a ha t1
  w_call e he t2
  w_call b hb t3
  w_call d hd t4
  w_call f hf t5
  w_call y hy t6
  w_end sp hsp
  exact ⟨_, hs, GoodS.mk' rfl trivial (by
    simp only [nodeParts, AllWF_append, AllWF_optNode, AllWF_cons, AllWF_nil, and_true]; exact ⟨⟨⟨ho, he⟩, hd⟩, hy⟩)⟩

theorem parseForIn_sat {a : Node} {t0 : Token} (ho : WF L c.x (.node .forLeft a))
    (hE : RecE L r n) (hS : RecS L r n) (hs : St L c n t s) :
    Sat (ParseFail L) (parseForIn r a) s (fun a s' => ∃ t', St L c n t' s' ∧ GoodS .sub L c.x t0 a) := by
  unfold parseForIn
  w_call a ha t1
  w_call e he t2
  w_call b hb t3
  w_call y hy t6
  w_end sp hsp
  exact ⟨_, hs, GoodS.mk' rfl rfl (by simp [nodeParts, ho, he.wf, hy])⟩

theorem parseForOf_sat {a : Node} {t0 : Token} (ho : WF L c.x (.node .forLeft a))
    (hE : RecE L r n) (hS : RecS L r n) (hs : St L c n t s) :
    Sat (ParseFail L) (parseForOf r a) s (fun a s' => ∃ t', St L c n t' s' ∧ GoodS .sub L c.x t0 a) := by
  unfold parseForOf
  w_call a ha t1
  w_call e he t2
  w_call b hb t3
  w_call y hy t6
  w_end sp hsp
  exact ⟨_, hs, GoodS.mk' rfl trivial (by simp [nodeParts, ho, he.wf, hy])⟩

instance : Does .adv L c r (forCommaDclr r) (fun _ => True) (fun _ d _ => WF L c.x (.declarator d)) :=
  ⟨fun {n t s} hE hS hs _ => by
    unfold forCommaDclr
    w_call a ha t1
    w_tail d hd t2
    exact hd⟩

theorem parseForDclrs_sat {kind : Str} {d : VariableDeclarator} {t0 : Token} (hk : kind ∈ varKinds)
    (hd : WF L c.x (.declarator d)) (hE : RecE L r n) (hS : RecS L r n) (hs : St L c n t s) :
    Sat (ParseFail L) (parseForDclrs r kind d) s (fun a s' => ∃ t', St L c n t' s' ∧ GoodS .sub L c.x t0 a) := by
  unfold parseForDclrs
  w_call l hl t1
  w_end sp hsp
  refine parseForClassic_sat ?_ hE hS hs
  rintro _ ⟨⟩
  refine (DclrsQ.wf (t := t0) (r := .forInit) ⟨by simp, ?_⟩ hk (fun _ => Or.inr rfl)).wf
  intro e he
  rcases List.mem_cons.1 he with rfl | he
  · exact hd
  · obtain ⟨_, _, _, h⟩ := hl.1 _ he
    exact h

theorem parseForInit_sat {kind : Str} {b : Binding} {t0 : Token} (hk : kind ∈ varKinds) (hb : GoodB L c.x b)
    (hE : RecE L r n) (hS : RecS L r n) (hs : St L c n t s) :
    Sat (ParseFail L) (parseForInit r kind b) s (fun a s' => ∃ t', St L c n t' s' ∧ GoodS .sub L c.x t0 a) := by
  unfold parseForInit
  w_call a ha t1
  w_call e he t2
  exact parseForDclrs_sat hk (WF.plain ⟨by simp, hb.named⟩ (by simp [children, hb.wf, he.wf])) hE hS hs

/-! ### The left side of `for-in` and `for-of` -/

omit [Env] in
theorem WF.patVal_forHead {x : Ctx} {v : PropertyValue} (h : WF L x (.patVal .declared v) ∨ WF L x (.patVal .assign v)) :
    WF L x (.patVal .forHead v) := by
  rcases h with h | h
  · have h1 := h.loc' rfl
    have h2 := h.kids' rfl
    cases v with
    | bindingPattern p =>
      cases p with
      | arrayPattern es => exact WF.plain ⟨nofun, h1.2⟩ h2
      | objectPattern ps => exact WF.plain ⟨nofun, h1.2⟩ h2
    | assignmentPattern => exact WF.plain ⟨nofun, h1.2⟩ h2
    | asyncFunctionExpression f => exact h1.elim
    | bindingIdentifier => exact WF.plain ⟨nofun, h1.2⟩ h2
    | functionExpression f => exact h1.elim
    | expression n => exact WF.plain (Or.inr rfl) h2
  · have h1 := h.loc' rfl
    have h2 := h.kids' rfl
    cases v with
    | bindingPattern p =>
      cases p with
      | arrayPattern es => exact absurd rfl h1.1
      | objectPattern ps => exact absurd rfl h1.1
    | assignmentPattern => exact absurd rfl h1.1
    | asyncFunctionExpression f => exact h1.elim
    | bindingIdentifier => exact absurd rfl h1.1
    | functionExpression f => exact h1.elim
    | expression n => exact WF.plain (Or.inr rfl) h2

omit [Env] in
theorem WF.binding_forHead {x : Ctx} {b : Binding} (h : WF L x (.binding .declared b) ∨ WF L x (.binding .assign b))
    (ho : WF L x (.binding .declared b) ∨ ∀ ps sp, b ≠ .objectPattern ps sp) :
    WF L x (.binding .forHead b) := by
  rcases h with h | h
  · have h1 := h.loc' rfl
    have h2 := h.kids' rfl
    cases b with
    | bindingIdentifier name sp => exact WF.plain h1 h2
    | arrayPattern es sp => exact WF.plain ⟨h1.1, nofun⟩ h2
    | objectPattern ps sp => exact WF.plain h1 h2
    | expression n => rcases h1 with h1 | h1 <;> cases h1
  · have h1 := h.loc' rfl
    have h2 := h.kids' rfl
    cases b with
    | bindingIdentifier name sp => exact WF.plain h1 h2
    | arrayPattern es sp => exact absurd rfl h1.2
    | objectPattern ps sp =>
      rcases ho with ho | ho
      · exact WF.plain h1 (ho.kids' rfl)
      · exact absurd rfl (ho _ _)
    | expression n => exact WF.plain (Or.inr rfl) h2

omit [Env] in
theorem WF.patProp_forHead {x : Ctx} {p : ObjectPatternProperty}
    (h : WF L x (.patProp .declared p) ∨ WF L x (.patProp .assign p)) : WF L x (.patProp .forHead p) := by
  cases p with
  | property k cp v kind m sh =>
    refine WF.plain (by simp [Local]) ?_
    have h2 : WF L x (.key k) ∧ ∀ v', v = some v' → (WF L x (.patVal .declared v') ∨ WF L x (.patVal .assign v')) := by
      rcases h with h | h
      · have h2 := h.kids' rfl
        simp only [children, AllWF_cons, AllWF_map] at h2
        exact ⟨h2.1, by rintro v' rfl; exact Or.inl (h2.2 v' (by simp))⟩
      · have h2 := h.kids' rfl
        simp only [children, AllWF_cons, AllWF_map] at h2
        exact ⟨h2.1, by rintro v' rfl; exact Or.inr (h2.2 v' (by simp))⟩
    simp only [children, AllWF_cons, AllWF_map, Option.mem_toList]
    exact ⟨h2.1, fun v' hv => WF.patVal_forHead (h2.2 v' hv)⟩
  | restElement b =>
    refine WF.plain (by simp [Local]) ?_
    simp only [children, AllWF_cons, AllWF_nil, and_true]
    rcases h with h | h
    · have h2 := h.kids' rfl
      simp only [children, AllWF_cons, AllWF_nil, and_true] at h2
      exact WF.binding_forHead (Or.inl h2) (Or.inl h2)
    · have h2 := h.kids' rfl
      simp only [children, AllWF_cons, AllWF_nil, and_true] at h2
      exact WF.binding_forHead (Or.inr h2) (Or.inr ((h.loc' rfl).2 rfl))

omit [Env] in
theorem GoodB.forLeft {x : Ctx} {b : Binding} (h : GoodB L x b) :
    ∃ a, b.toNode = .ok a ∧ WF L x (.node .forLeft a) := by
  rcases h.value with ⟨_, _, rfl, h'⟩ | ⟨_, _, rfl, h', hk⟩ | ⟨_, _, rfl, h', hk⟩
  · exact ⟨_, rfl, WF.plain ⟨Or.inr (Or.inr rfl), h', by simp [Role.isExprLike], by simp [Role.isRef]⟩ (by simp [children, nodeParts])⟩
  · exact ⟨_, rfl, WF.plain ⟨Or.inr (Or.inr rfl), h', by simp [Role.isExprLike], by simp [Role.isRef]⟩
      (by simpa [children, nodeParts] using hk)⟩
  · exact ⟨_, rfl, WF.plain ⟨Or.inr (Or.inr rfl), h', by simp [Role.isExprLike], by simp [Role.isRef]⟩
      (by simp only [children, nodeParts, AllWF_patProps]; exact fun p hp => WF.patProp_forHead (Or.inl (hk p hp)))⟩

omit [Env] in
theorem asgPattern_forLeft {x : Ctx} {a : Node} (h : isAsgPattern a = true) (hw : WF L x (.node .target a)) :
    WF L x (.node .forLeft a) := by
  cases a <;> simp [isAsgPattern] at h
  · have hl := hw.loc' rfl
    exact WF.plain ⟨Or.inr (Or.inl rfl), hl.2.1, by simp [Role.isExprLike], by simp [Role.isRef]⟩ (hw.kids' rfl)
  · have hl := hw.loc' rfl
    have hk := hw.kids' rfl
    simp only [children, nodeParts, AllWF_patProps] at hk
    exact WF.plain ⟨Or.inr (Or.inl rfl), hl.2.1, by simp [Role.isExprLike], by simp [Role.isRef]⟩
      (by simp only [children, nodeParts, AllWF_patProps]; exact fun p hp => WF.patProp_forHead (Or.inr (hk p hp)))

theorem forTarget_ok {x : Ctx} {e : Node} (he : WF L x (.node .expr e)) :
    OkE L (forTarget e) (AsgQ L x e) := by
  unfold forTarget
  split
  · exact toAssignmentPattern_ok _ he
  · exact toAssignmentPattern_ok _ he
  · exact Or.inr rfl

theorem parseForTarget_sat {e : Node} {t0 : Token} (he : GoodE 0 L c.x t0 e)
    (hs : St L c n t s) :
    Sat (ParseFail L) (parseForTarget e) s (fun a s' => St L c n t s' ∧ WF L c.x (.node .forLeft a)) := by
  have htok := hs.tok
  unfold parseForTarget
  w_end sp hsp
  refine (forTarget_ok he.wf).ofExcept_bind ?_
  intro a ha
  w_if h
  simp only [ne_eq, Decidable.not_not] at h
  refine ⟨hs, ?_⟩
  rcases ha with ⟨h1, h2, h3⟩ | rfl
  · exact asgPattern_forLeft h1 h3
  · exact targetWF (Or.inr (Or.inr rfl)) he.wf (exprOk_plain he.wf h)

theorem forDclr_sat {kind : Str} {b : Binding} {t0 : Token} {e : PM Node} (hk : kind ∈ varKinds) (hb : GoodB L c.x b)
    (he : ∀ Q, Sat (ParseFail L) e s Q) (hE : RecE L r n) (hS : RecS L r n) (hs : St L c n t s) :
    Sat (ParseFail L) (match b with
      | .bindingIdentifier _ _ => parseForDclrs r kind (.mk b none)
      | _ => e) s (fun a s' => ∃ t', St L c n t' s' ∧ GoodS .sub L c.x t0 a) := by
  split
  · exact parseForDclrs_sat hk (WF.plain ⟨by simp [isName], hb.named⟩ (by simp [children, hb.wf])) hE hS hs
  · exact he _

theorem toNode_bind {b : Binding} {f : Node → PM α} {Q : α → Parser → Prop} (hb : GoodB L c.x b)
    (h : ∀ a, WF L c.x (.node .forLeft a) → Sat (ParseFail L) (f a) s Q) :
    Sat (ParseFail L) (ofExcept b.toNode >>= f) s Q := by
  obtain ⟨a, ha, hw⟩ := hb.forLeft
  rw [ha]
  exact h a hw

/-- the first token does not matter -/
theorem sat_allT {m : PM Node} {d : Role} (h : ∀ t0, Sat (ParseFail L) m s
      (fun a s' => ∃ t', St L c n t' s' ∧ GoodS d L c.x t0 a)) :
    Sat (ParseFail L) m s (fun a s' => ∃ t', St L c n t' s' ∧ ∀ t, GoodS d L c.x t a) := by
  unfold Sat at *
  cases hm : m s with
  | error f => have := h default; rw [hm] at this; exact this
  | ok p =>
    obtain ⟨t', h1, -⟩ := by have := h default; rw [hm] at this; exact this
    exact ⟨t', h1, fun t0 => by have := h t0; rw [hm] at this; exact this.choose_spec.2⟩

instance : Does .adv L c r (parseForVar r) (fun t => t.tokentype ≠ .eof) (fun _ a _ => ∀ t, GoodS .sub L c.x t a) :=
  ⟨fun {n t s} hE hS hs hp => by
    unfold parseForVar
    w_start
    w_call a ha t1
    w_call b hb t2
    refine sat_allT (fun t0 => ?_)
    w_cur
    w_if h
    · exact parseForInit_sat (by decide) hb hE hS hs
    w_if h
    · exact toNode_bind hb (fun a ha => parseForOf_sat ha hE hS hs)
    w_if h
    · exact toNode_bind hb (fun a ha => parseForIn_sat ha hE hS hs)
    · exact forDclr_sat (by decide) hb (fun _ => errorCurrent_sat hs) hE hS hs⟩

/-- it makes no progress -/
theorem parseForKind_bind {f : Str → PM α} {Q : α → Parser → Prop} (hs : St L c n t s)
    (hf : ∀ k, k ∈ varKinds → t.tokentype ≠ .eof → Sat (ParseFail L) (f k) s Q) :
    Sat (ParseFail L) (parseForKind >>= f) s Q := by
  refine Sat.bind (P := fun k s' => s' = s ∧ k ∈ varKinds ∧ t.tokentype ≠ .eof) ?_ (by rintro k _ ⟨rfl, h1, h2⟩; exact hf k h1 h2)
  unfold parseForKind
  w_cur
  w_if h
  · exact ⟨rfl, by decide, not_eof_of_isKw h⟩
  w_if h
  exact ⟨rfl, by decide, not_eof_of_isId h⟩

instance : Does .adv L c r (parseForLexical r) (fun _ => True) (fun _ a _ => ∀ t, GoodS .sub L c.x t a) :=
  ⟨fun {n t s} hE hS hs hp => by
    unfold parseForLexical
    w_start
    refine parseForKind_bind hs (fun k hk hp => ?_)
    w_call a ha t1
    w_cur
    have ht1 := hs.tok
    w_call b hb t2
    refine sat_allT (fun t0 => ?_)
    w_cur
    w_if h
    · exact parseForInit_sat hk hb hE hS hs
    w_if h
    · exact toNode_bind hb (fun a ha => parseForIn_sat ha hE hS hs)
    w_if h
    · exact toNode_bind hb (fun a ha => parseForOf_sat ha hE hS hs)
    · exact forDclr_sat hk hb (fun _ => error_sat ht1) hE hS hs⟩

instance : Does .adv L c r (forCommaExpr r) (fun _ => True) (fun _ a _ => WF L c.x (.node .expr a)) :=
  ⟨fun {n t s} hE hS hs _ => by
    unfold forCommaExpr
    w_call a ha t1
    w_tail d hd t2
    exact hd.wf⟩

instance : Does .advE L c r (parseForExpr r) (fun _ => True) (fun _ a _ => ∀ t, GoodS .sub L c.x t a) :=
  ⟨fun {n t s} hE1 hS hs hp => by
    have hE := hE1.mono (Nat.le_succ n)
    refine sat_allT (fun t0 => ?_)
    unfold parseForExpr
    w_start
    w_cur
    w_if h
    · have h2 : t.tokentype ≠ .eof := not_eof_of_isP h
      unfold parseForClassic
      w_call a ha t1
      w_call e he t2
      w_call b hb t3
      w_call d hd t4
      w_call f hf t5
      w_call y hy t6
      w_end sp hsp
      exact ⟨_, hs, GoodS.mk' rfl trivial (by
        simp only [nodeParts, AllWF_append, AllWF_optNode, AllWF_cons, AllWF_nil, and_true]
        exact ⟨⟨⟨nofun, he⟩, hd⟩, hy⟩)⟩
    · w_call e he t1
      w_cur
      w_if h
      · refine Sat.bind (parseForTarget_sat he hs) ?_
        rintro a s ⟨hs, ha⟩
        exact parseForIn_sat ha hE hS hs
      w_if h
      · refine Sat.bind (parseForTarget_sat he hs) ?_
        rintro a s ⟨hs, ha⟩
        exact parseForOf_sat ha hE hS hs
      · w_call l hl t2
        w_end sp hsp
        refine parseForClassic_sat ?_ hE hS hs
        rintro _ ⟨⟩
        have hg : GoodE 17 L c.x t0 (.sequenceExpression (e :: l) .invalid sp) := by
          refine GoodE.mk' trivial hsp ?_
          simp only [nodeParts, AllWF_exprs]
          intro e' he'
          rcases List.mem_cons.1 he' with rfl | he'
          · exact he.wf
          · obtain ⟨_, _, _, h⟩ := hl.1 _ he'
            exact h
        exact hg.wf.exprTo .forInit (fun _ => Or.inl rfl)⟩

instance : Does .adv L c r (parseForStmt r) (fun _ => True) (fun t a _ => GoodS .sub L c.x t a) :=
  ⟨fun {n t s} hE hS hs hp => by
    unfold parseForStmt
    w_start
    w_call a ha t1
    w_call b hb t2
    w_cur
    w_if h
    · w_tail e he t3
      exact he _
    w_if h
    · w_tail e he t3
      exact he _
    · w_tail e he t3
      exact he _⟩

instance : Does .adv L c r (parseWhileStmt r) (fun _ => True) (fun t a _ => GoodS .sub L c.x t a) :=
  ⟨fun {n t s} hE hS hs hp => by
    unfold parseWhileStmt
    w_start
    w_call a ha t1
    w_call b hb t2
    w_call e he t3
    w_call d hd t4
    w_call y hy t5
    w_end sp hsp
    exact ⟨_, hs, GoodS.mk' rfl trivial (by simp [nodeParts, he.wf, hy])⟩⟩

instance : Does .adv L c r (parseDoWhileStmt r) (fun _ => True) (fun t a _ => GoodS .sub L c.x t a) :=
  ⟨fun {n t s} hE hS hs hp => by
    unfold parseDoWhileStmt
    w_start
    w_call a ha t1
    w_call y hy t5
    w_call a' ha' t1
    w_call b hb t2
    w_call e he t3
    w_call d hd t4
    w_call u hu t6
    w_end sp hsp
    exact ⟨_, hs, GoodS.mk' rfl trivial (by simp [nodeParts, he.wf, hy])⟩⟩

instance : Does .adv L c r (parseIterationStmt r) (fun t => t.tokentype = .keyword ∧ t.isIterationKw = true)
    (fun t a _ => GoodS .sub L c.x t a) :=
  ⟨fun {n t s} hE hS hs hp => by
    unfold parseIterationStmt
    w_cur
    w_if h
    · w_tail e he t3
      exact he
    w_if h2
    · w_tail e he t3
      exact he
    w_if h3
    · w_tail e he t3
      exact he
    · exfalso
      obtain ⟨h4, h5⟩ := hp
      simp_all [Token.isKw, Token.isIterationKw]⟩

/-! ### Switch -/

theorem consequentF_sat (m : Nat) (hS : RecS L r n) (hs : St L c n t s) (hm : s.size < m) :
    Sat (ParseFail L) (consequentF r m) s (fun l s' => ∃ t', St L c n t' s' ∧ ∀ a ∈ l, WF L c.x (.node .stmt a)) := by
  induction m generalizing t s with
  | zero => omega
  | succ m ih =>
    unfold consequentF
    w_cur
    w_if h
    · exact ⟨_, hs, by simp⟩
    · have hs' : St L c (s.size + 1) t s := ⟨hs.1, hs.2, hs.3, hs.4, Nat.lt_succ_self _, hs.6⟩
      have hsz := hs.size
      refine Sat.bind (hS.stmtListItem _ _ _ _ hsz hs' trivial) ?_
      rintro a s1 ⟨t1, h1, h2⟩
      refine Sat.bind (ih (h1.mono (Nat.le_of_lt hsz)) (by have := h1.size; omega)) ?_
      rintro l s2 ⟨t2, h3, h4⟩
      exact ⟨t2, h3, by simpa using ⟨h2.wf, h4⟩⟩

instance : Does .keep L c r (parseConsequent r) (fun _ => True) (fun _ l _ => ∀ a ∈ l, WF L c.x (.node .stmt a)) :=
  ⟨fun _ hS hs _ => consequentF_sat _ hS hs (Nat.lt_succ_self _)⟩

/-- the test of a case; at most one default -/
instance {b : Bool} : Does .adv L c r (parseCaseTest r b) (fun _ => True)
    (fun _ p _ => (∀ a, p.1 = some a → WF L c.x (.node .expr a)) ∧
      (p.1 = none → b = true ∧ p.2 = false) ∧ (p.1.isSome → p.2 = b)) :=
  ⟨fun {n t s} hE hS hs _ => by
    unfold parseCaseTest
    w_cur
    w_if h
    · w_call a ha t1
      w_call e he t2
      exact ⟨_, hs, by rintro _ ⟨⟩; exact he.wf, by simp, by simp⟩
    w_if h
    · have h1 := h.1
      have h2 := not_eof_of_isKw h1
      w_call a ha t1
      exact ⟨_, hs, by simp, by simp [h.2], by simp⟩
    w_if h⟩

theorem casesF_sat (m : Nat) {b : Bool} (hE : RecE L r n) (hS : RecS L r n) (hs : St L c n t s) (hm : s.size < m) :
    Sat (ParseFail L) (casesF r m b) s (fun l s' => ∃ t', St L c n t' s' ∧ l ≠ [] ∧
      (l.filter isDefault).length ≤ (if b then 1 else 0) ∧ ∀ a ∈ l, WF L c.x (.case a)) := by
  induction m generalizing t s b with
  | zero => omega
  | succ m ih =>
    unfold casesF
    have hs' : St L c (s.size + 1) t s := ⟨hs.1, hs.2, hs.3, hs.4, Nat.lt_succ_self _, hs.6⟩
    have hsz := hs.size
    have hE' := hE.mono (Nat.le_of_lt hsz)
    have hS' := hS.mono (Nat.le_of_lt hsz)
    refine Does.call_adv hE' hS' hs' trivial ?_
    rintro ⟨test, b'⟩ s1 t1 h1 ⟨hw, hn, hb⟩
    simp only at hw hn hb ⊢
    refine Does.call_keep hE' hS' h1 trivial ?_
    intro _ s2 t2 h2 _
    refine Does.call_keep hE' hS' h2 trivial ?_
    intro body s3 t3 h3 hbody
    refine cur_bind h3 ?_
    have hc : WF L c.x (.case (.mk test body)) :=
      WF.plain trivial (by simp only [children, AllWF_append, AllWF_optNode, AllWF_map]; exact ⟨hw, hbody⟩)
    have hd : (if isDefault (.mk test body) then 1 else 0) + (if b' then 1 else 0) ≤ (if b then 1 else 0) := by
      cases test with
      | none => obtain ⟨rfl, rfl⟩ := hn rfl; simp [isDefault]
      | some a => rw [hb rfl]; simp [isDefault]
    refine Sat.ite (fun _ => ?_) (fun _ => ?_)
    · refine ⟨t3, h3.mono (Nat.le_of_lt hsz), by simp, ?_, by simpa using hc⟩
      simp only [List.filter_cons, List.filter_nil]
      split at hd <;> rename_i hdd
      · simp only [hdd, if_true, List.length_singleton]; omega
      · simp [hdd]
    · refine Sat.bind (ih (b := b') (h3.mono (Nat.le_of_lt hsz)) (by have := h3.size; omega)) ?_
      rintro l s4 ⟨t4, h4, -, h5, h6⟩
      refine ⟨t4, h4, by simp, ?_, by simpa using ⟨hc, h6⟩⟩
      simp only [List.filter_cons]
      split at hd <;> rename_i hdd
      · simp only [hdd, if_true, List.length_cons]; omega
      · simp only [hdd]; simp only [Bool.false_eq_true, if_false]; omega

/-- the context of a switch statement -/
def Cx.setSwitch (c : Cx) (b : Bool) : Cx := { c with ctx := { c.ctx with inSwitch := b } }

instance : Does .adv L c r (parseSwitchInner r) (fun _ => True)
    (fun _ p _ => WF L c.x (.node .expr p.1) ∧ CasesOk p.2 ∧ ∀ a ∈ p.2, WF L c.x (.case a)) :=
  ⟨fun {n t s} hE hS hs _ => by
    unfold parseSwitchInner
    w_call a ha t1
    w_call e he t2
    w_call b hb t3
    w_call d hd t4
    refine Sat.bind (casesF_sat _ hE hS hs (Nat.lt_succ_self _)) ?_
    rintro l s ⟨t5, hs, h1, h2, h3⟩
    w_call f hf t6
    exact ⟨_, hs, he.wf, ⟨h1, h2⟩, h3⟩⟩

instance : Does .adv L c r (parseSwitchStmt r) (fun _ => True) (fun t a _ => GoodS .sub L c.x t a) :=
  ⟨fun {n t s} hE hS hs _ => by
    unfold parseSwitchStmt
    w_start
    w_call a ha t1
    refine get_bind hs (fun s0 e1 e2 e3 => ?_)
    refine modifyCtx_bind (g := fun x => { x with inSwitch := true }) hs ?_
    intro s hs
    refine Does.call_keep (c := c.setSwitch true) hE hS hs trivial ?_
    rintro ⟨d, cases⟩ s t2 hs ⟨h1, h2, h3⟩
    refine modifyCtx_bind (g := fun x => { x with inSwitch := s0.ctx.inSwitch }) hs ?_
    intro s hs
    have e : ({ c.setSwitch true with ctx := { (c.setSwitch true).ctx with inSwitch := s0.ctx.inSwitch } } : Cx) = c := by
      rw [e2]; rfl
    rw [e] at hs
    w_end sp hsp
    have ee : enter c.x (.node .sub (.switchStatement d cases sp)) = (c.setSwitch true).x := by
      simp [enter, Item.startsStrict, Node.startsStrict, Item.isFnBody, Role.isFnBody, Item.isLoopBody, Role.isLoopBody,
        Item.isSwitch, Node.isSwitch, Cx.setSwitch, Cx.x]
    refine ⟨_, hs, .mk ?_ ?_, SHead.of⟩
    · exact ⟨rfl, h2, by simp [Role.isExprLike], by simp [Role.isRef]⟩
    · rw [ee]
      show AllWF _ _ _
      simp only [children, nodeParts, AllWF_cons, AllWF_map]
      exact ⟨h1, h3⟩⟩

/-! ### Jumps -/

instance : Does .keep L c r parseLabelOpt (fun _ => True) (fun _ o _ => ∀ a, o = some a → WF L c.x (.node .nameId a)) :=
  ⟨fun {n t s} hE hS hs _ => by
    unfold parseLabelOpt
    w_get
    w_if h
    · w_call a ha t1
      exact ⟨_, hs, by rintro _ ⟨⟩; exact ha.nameId⟩
    · exact ⟨_, hs, by simp⟩⟩

instance : Does .adv L c r parseContinueStmt (fun _ => True) (fun t a _ => GoodS .sub L c.x t a) :=
  ⟨fun {n t s} hE hS hs _ => by
    unfold parseContinueStmt
    w_start
    w_call a ha t1
    w_call o ho t2
    w_get
    w_if h
    w_call u hu t3
    w_end sp hsp
    refine ⟨_, hs, GoodS.mk' rfl ?_ (by simp only [nodeParts, AllWF_optNode]; exact ho)⟩
    intro hn
    simp only [Cx.x]
    cases hi : c.ctx.inIteration
    · exact absurd ⟨hn, hi⟩ h
    · rfl⟩

instance : Does .adv L c r parseBreakStmt (fun _ => True) (fun t a _ => GoodS .sub L c.x t a) :=
  ⟨fun {n t s} hE hS hs _ => by
    unfold parseBreakStmt
    w_start
    w_call a ha t1
    w_call o ho t2
    w_get
    w_if h
    w_call u hu t3
    w_end sp hsp
    refine ⟨_, hs, GoodS.mk' rfl ?_ (by simp only [nodeParts, AllWF_optNode]; exact ho)⟩
    intro hn
    simp only [Cx.x]
    cases hi : c.ctx.inIteration
    · cases hw : c.ctx.inSwitch
      · exact absurd ⟨hn, hi, hw⟩ h
      · simp
    · simp⟩

instance : Does .keep L c r (parseReturnArg r) (fun _ => True)
    (fun _ o _ => ∀ a, o = some a → WF L c.x (.node .expr a)) :=
  ⟨fun {n t s} hE hS hs _ => by
    unfold parseReturnArg
    w_get
    w_if h
    · exact ⟨_, hs, by simp⟩
    w_if h
    · w_call e he t1
      exact ⟨_, hs, by rintro _ ⟨⟩; exact he.wf⟩
    · exact ⟨_, hs, by simp⟩⟩

instance : Does .adv L c r (parseReturn r) (fun _ => True) (fun t a _ => GoodS .sub L c.x t a) :=
  ⟨fun {n t s} hE hS hs _ => by
    unfold parseReturn
    w_get
    w_if h
    unfold parseReturnStmt
    w_start
    w_call a ha t1
    w_call o ho t2
    w_call u hu t3
    w_end sp hsp
    exact ⟨_, hs, GoodS.mk' rfl h (by simp only [nodeParts, AllWF_optNode]; exact ho)⟩⟩

instance : Does .adv L c r (parseWithStmt r) (fun _ => True) (fun t a _ => GoodS .sub L c.x t a) :=
  ⟨fun {n t s} hE hS hs _ => by
    unfold parseWithStmt
    w_get
    w_if h
    w_start
    w_call a ha t1
    w_call b hb t2
    w_call e he t3
    w_call d hd t4
    w_call y hy t5
    w_end sp hsp
    exact ⟨_, hs, GoodS.mk' rfl (by simpa [NodeOk, Cx.x] using h) (by simp [nodeParts, he.wf, hy.wf])⟩⟩

instance : Does .adv L c r (parseThrowStmt r) (fun _ => True) (fun t a _ => GoodS .sub L c.x t a) :=
  ⟨fun {n t s} hE hS hs _ => by
    unfold parseThrowStmt
    w_start
    w_call a ha t1
    w_get
    w_if h
    w_call e he t3
    w_call u hu t4
    w_end sp hsp
    exact ⟨_, hs, GoodS.mk' rfl trivial (by simp [nodeParts, he.wf])⟩⟩

instance : Does .keep L c r (parseCatchParam r) (fun _ => True) (fun _ o _ => ∀ b, o = some b → GoodB L c.x b) :=
  ⟨fun {n t s} hE hS hs _ => by
    unfold parseCatchParam
    w_cur
    w_if h
    · w_call a ha t1
      w_call b hb t2
      w_call d hd t3
      exact ⟨_, hs, by rintro _ ⟨⟩; exact hb⟩
    · exact ⟨_, hs, by simp⟩⟩

/-- no handler only before `finally` -/
instance : Does .keep L c r (parseCatchClause r) (fun _ => True)
    (fun _ o t' => (∀ k, o = some k → WF L c.x (.catchClause k)) ∧ (o = none → t'.isKw cs!"finally" = true)) :=
  ⟨fun {n t s} hE hS hs _ => by
    unfold parseCatchClause
    w_cur
    w_if h
    · w_call a ha t1
      w_call p hp t2
      w_call b hb t3
      refine ⟨_, hs, ?_, by simp⟩
      rintro _ ⟨⟩
      refine WF.plain (fun b hb => ⟨(hp b hb).isB, (hp b hb).named⟩) ?_
      simp only [children, AllWF_append, AllWF_map, Option.mem_toList, AllWF_cons, AllWF_nil, and_true]
      exact ⟨fun b hb => (hp b hb).wf, hb.block⟩
    w_if h
    exact ⟨_, hs, by simp, fun _ => h⟩⟩

instance : Does .keep L c r (parseFinallyClause r) (fun _ => True)
    (fun t o _ => (∀ k, o = some k → WF L c.x (.node .block k)) ∧ (t.isKw cs!"finally" = true → o.isSome)) :=
  ⟨fun {n t s} hE hS hs _ => by
    unfold parseFinallyClause
    w_cur
    w_if h
    · w_call a ha t1
      w_call p hp t2
      exact ⟨_, hs, by rintro _ ⟨⟩; exact hp.block, by simp⟩
    · exact ⟨_, hs, by simp, fun h' => absurd h' h⟩⟩

instance : Does .adv L c r (parseTryStmt r) (fun _ => True) (fun t a _ => GoodS .sub L c.x t a) :=
  ⟨fun {n t s} hE hS hs _ => by
    unfold parseTryStmt
    w_start
    w_call a ha t1
    w_call b hb t2
    w_call k hk t3
    w_call f hf t4
    w_end sp hsp
    refine ⟨_, hs, GoodS.mk' rfl ?_ ?_⟩
    · cases k with
      | some k => exact Or.inl rfl
      | none => exact Or.inr (hf.2 (hk.2 rfl))
    · simp only [nodeParts, AllWF_append, AllWF_map, Option.mem_toList, AllWF_cons, AllWF_optNode]
      exact ⟨hb.block, hk.1, hf.1⟩⟩

instance : Does .adv L c r parseDebuggerStmt (fun _ => True) (fun t a _ => GoodS .sub L c.x t a) :=
  ⟨fun {n t s} hE hS hs _ => by
    unfold parseDebuggerStmt
    w_start
    w_call a ha t1
    w_call u hu t2
    w_end sp hsp
    exact ⟨_, hs, GoodS.mk' rfl trivial (by simp [nodeParts])⟩⟩

/-! ### Functions -/

instance {b : Bool} : Does .keep L c r (parseGeneratorMark b) (fun _ => True) (fun _ _ _ => True) :=
  ⟨fun {n t s} hE hS hs _ => by
    unfold parseGeneratorMark
    w_cur
    w_if h
    · w_if h1
      w_call a ha t1
      exact ⟨_, hs, trivial⟩
    · exact ⟨_, hs, trivial⟩⟩

instance : Does .keep L c r parseFunctionName (fun _ => True)
    (fun _ o _ => ∀ a, o = some a → WF L c.x (.node .bindId a)) :=
  ⟨fun {n t s} hE hS hs _ => by
    unfold parseFunctionName
    w_get
    w_if h
    · w_if h1
      exact ⟨_, hs, by simp⟩
    · w_call b hb t1
      obtain ⟨name, sp, rfl, hn, -⟩ := hb
      exact ⟨_, hs, by rintro _ ⟨⟩; exact bindIdNode hn⟩⟩

/-- A function declaration. -/
def FnDeclQ (L : Nat) (x : Ctx) (a : Node) : Prop :=
  isFunctionDecl a = true ∧ ∀ (t : Token) (r : Role), (∀ b, Fits b r a) → r.isExprLike = false →
    r.isFnBody = false → r.isLoopBody = false → GoodS r L x t a

omit [Env] in
theorem FnDeclQ.decl {x : Ctx} {a : Node} (h : FnDeclQ L x a) : DeclQ L x t a := by
  have h1 := h.1
  cases a <;> simp [isFunctionDecl] at h1
  exact ⟨h.2 _ _ (fun _ => rfl) rfl rfl rfl, rfl⟩

instance {a g : Bool} : Does .adv L c r (parseFunctionDclrRest r a g) (fun _ => True) (fun _ a _ => FnDeclQ L c.x a) :=
  ⟨fun {n t s} hE hS hs _ => by
    unfold parseFunctionDclrRest
    refine Sat.bind (P := fun _ s' => St L c (n + 1) t s') ?_ ?_
    · unfold M.when
      refine Sat.ite (fun _ => ?_) (fun _ => hs)
      have := startSpan_bind (f := pure) (Q := fun _ s' => St L c (n + 1) t s') hs (fun s' h => h)
      simpa using this
    · rintro _ s hs
      w_call a' ha t1
      w_call g' hg t2
      w_call o ho t3
      w_call p hp t4
      obtain ⟨ps, b⟩ := p
      w_end sp hsp
      refine ⟨_, hs, rfl, ?_⟩
      intro t r h1 h2 h4 h5
      refine GoodS.mk' (h1 _) ⟨hp.1.rest, rfl⟩ ?_ h2 rfl rfl ?_
      · simp only [nodeParts, AllWF_fnParts]
        exact ⟨ho, hp.1.wf, hp.2⟩
      · simp [Item.plain, Item.startsStrict, Node.startsStrict, Item.isFnBody, Item.isLoopBody, Item.isSwitch, h4, h5,
          Node.isSwitch]⟩

instance {a g : Bool} : Does .adv L c r (parseFunctionDclr r a g) (fun _ => True) (fun _ a _ => FnDeclQ L c.x a) :=
  ⟨fun {n t s} hE hS hs _ => by
    unfold parseFunctionDclr
    w_get
    w_if h
    w_tail a ha t1
    exact ha⟩

instance : Does .adv L c r (parseHoistableDclr r) (fun _ => True) (fun _ a _ => FnDeclQ L c.x a) :=
  ⟨fun {n t s} hE hS hs _ => by
    unfold parseHoistableDclr
    w_cur
    w_if h
    · w_start
      w_call a ha t1
      w_tail b hb t2
      exact hb
    w_if h
    w_tail b hb t2
    exact hb⟩

omit [Env] in
theorem ClassQ.decl {x : Ctx} {a : Node} (h : ClassQ L x a) : DeclQ L x t a :=
  ⟨ClassQ.goodS (b := x.strict) h, by obtain ⟨id, sup, ms, sp, rfl, h1, h2⟩ := h; rfl⟩

instance : Does .adv L c r (parseDeclaration r) (fun _ => True) (fun t a _ => DeclQ L c.x t a) :=
  ⟨fun {n t s} hE hS hs _ => by
    unfold parseDeclaration
    w_cur
    w_if h
    · w_tail a ha t1
      exact ha.decl
    w_if h
    · w_tail a ha t1
      exact ha.decl
    w_if h
    w_tail a ha t1
    exact ha⟩

instance : Does .keep L c r (parseLabelBody r) (fun _ => True) (fun _ a _ => WF L c.x (.node .labelBody a)) :=
  ⟨fun {n t s} hE hS hs _ => by
    unfold parseLabelBody
    w_get
    w_if h
    · w_if h1
      w_tail a ha t1
      exact (ha.2 default .labelBody (fun _ => Or.inr ha.1) rfl rfl rfl).wf
    · w_tail a ha t1
      have : isSub a = true := ha.wf.loc.1
      exact ha.wf.subTo (fun _ => Or.inl this)⟩

theorem parseLabelledStmt_sat {id : Identifier} {t0 : Token} (hid : NameIn c.x.strict id.name) (hE : RecE L r n) (hS : RecS L r n)
    (hs : St L c n t s) :
    Sat (ParseFail L) (parseLabelledStmt r id) s (fun a s' => ∃ t', St L c n t' s' ∧ GoodS .sub L c.x t0 a) := by
  unfold parseLabelledStmt
  w_call a ha t1
  w_call b hb t2
  w_end sp hsp
  exact ⟨_, hs, GoodS.mk' rfl hid (by simp [nodeParts, hb])⟩

instance : Does .advE L c r (parseExpressionOrLabelled r) (fun _ => True) (fun t a _ => GoodS .sub L c.x t a) :=
  ⟨fun {n t s} hE1 hS hs _ => by
    have hE := hE1.mono (Nat.le_succ n)
    unfold parseExpressionOrLabelled
    w_start
    w_call e he t1
    w_cur
    w_if h
    · split
      · exact parseLabelledStmt_sat (((he.wf.loc' rfl).2.2.1 rfl rfl).name _ _ _ rfl) hE hS hs
      · exact parseExpressionStmt_sat he hE hS hs
    · exact parseExpressionStmt_sat he hE hS hs⟩

instance : Does .advE L c r (parseAsyncItem r) (fun _ => True) (fun t a _ => GoodS .stmt L c.x t a) :=
  ⟨fun {n t s} hE1 hS hs _ => by
    have hE := hE1.mono (Nat.le_succ n)
    unfold parseAsyncItem
    w_start
    w_cur
    refine peekToken_bind hs (fun t' s ht' hs => ?_)
    w_if h
    · w_tail a ha t1
      exact ha.decl.1
    · w_end sp hsp
      w_tail a ha t1
      exact ha.stmt⟩

instance : Does .advE L c r (parseStmtListItem r) (fun _ => True) (fun t a _ => GoodS .stmt L c.x t a) :=
  ⟨fun {n t s} hE1 hS hs _ => by
    have hE := hE1.mono (Nat.le_succ n)
    unfold parseStmtListItem
    w_cur
    w_if h
    · w_tail a ha t1
      exact ha.sub.stmt
    w_if h
    · w_tail a ha t1
      exact ha.stmt
    w_if h
    · w_tail a ha t1
      exact ha.sub.stmt
    w_if h
    · w_tail a ha t1
      exact ha.stmt
    w_if h
    · w_tail a ha t1
      exact ha.stmt
    w_if h
    · w_tail a ha t1
      exact ha.stmt
    w_if h
    · w_tail a ha t1
      exact ha.stmt
    w_if h
    · w_tail a ha t1
      exact ha.stmt
    w_if h
    · w_tail a ha t1
      exact ha.stmt
    w_if h
    · w_tail a ha t1
      exact ha.stmt
    w_if h
    · w_tail a ha t1
      exact ha.stmt
    w_if h
    · w_tail a ha t1
      exact ha.stmt
    w_if h
    · w_tail a ha t1
      exact ha.stmt
    w_if h
    · w_tail a ha t1
      exact ha
    w_if h
    · w_tail a ha t1
      exact ha.decl.1
    w_if h
    · w_tail a ha t1
      exact ha.decl.1
    w_if h
    · w_tail a ha t1
      exact ha.1
    · w_tail a ha t1
      exact ha.stmt⟩

instance : Does .advE L c r (parseStatement r) (fun _ => True) (fun t a _ => GoodS .sub L c.x t a) :=
  ⟨fun {n t s} hE1 hS hs _ => by
    have hE := hE1.mono (Nat.le_succ n)
    unfold parseStatement
    w_cur
    w_if h
    · w_tail a ha t1
      exact ha.sub
    w_if h
    · w_tail a ha t1
      exact ha.sub
    w_if h
    · w_tail a ha t1
      exact ha
    w_if h
    · w_tail a ha t1
      exact ha
    w_if h
    · w_tail a ha t1
      exact ha
    w_if h
    · w_tail a ha t1
      exact ha
    w_if h
    · w_tail a ha t1
      exact ha
    w_if h
    · w_tail a ha t1
      exact ha
    w_if h
    · w_tail a ha t1
      exact ha
    w_if h
    · w_tail a ha t1
      exact ha
    w_if h
    · w_tail a ha t1
      exact ha
    w_if h
    · w_tail a ha t1
      exact ha
    w_if h
    · w_tail a ha t1
      exact ha
    · w_tail a ha t1
      exact ha⟩

end Parser
end Giron

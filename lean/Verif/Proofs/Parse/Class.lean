import Verif.Proofs.Parse.Patterns
/-
Specifications of the methods of `Model/Parser/Class.lean`.
-/
namespace Giron
open M Spec
variable [Env]

namespace Spec
variable {L : Nat} {x : Ctx}
omit [Env]

/-- An expression in another slot. -/
theorem WF.exprTo {n : Node} (r : Role) (h : WF L x (.node .expr n)) (hf : ∀ b, Fits b r n)
    (hr : (r.isFnBody || r.isLoopBody || r.isExprLike) = false := by rfl) :
    WF L x (.node r n) := by
  simp only [Bool.or_eq_false_iff] at hr
  obtain ⟨⟨h1, h2⟩, h3⟩ := hr
  have he := h.exprIs
  have e1 : enter x (.node r n) = enter x (.node .expr n) := by
    cases n <;> simp [isExpr] at he <;>
      simp only [enter, Item.startsStrict, Node.startsStrict, Item.isFnBody, Item.isLoopBody, h1, h2, Item.isSwitch] <;> rfl
  have e2 : nodeParts r n = nodeParts .expr n := by
    cases n <;> simp [isExpr] at he <;> simp [nodeParts]
  refine .mk ?_ ?_
  · rw [e1]
    exact ⟨hf _, h.loc.2.1, by simp [h3], fun _ => (h.loc.2.2.1 rfl he).name⟩
  · rw [e1]
    simp only [children, e2]
    exact h.kids

end Spec

namespace Parser
variable {L : Nat} {c : Cx} {r : Rec} {n : Nat} {t : Token} {s : Parser} {α β : Type}

instance : Does .adv L c r (parseComputedPropertyName r) (fun _ => True) (fun _ k _ => WF L c.x (.key k)) :=
  ⟨fun {n t s} hE hS hs _ => by
    unfold parseComputedPropertyName
    w_call a ha t1
    w_call e he t2
    w_call b hb t3
    exact ⟨_, hs, keyExpr he.wf⟩⟩

/-- it may make no progress -/
theorem parsePropertyName_sat (hE : RecE L r n) (hS : RecS L r n) (hs : St L c (n + 1) t s) :
    Sat (ParseFail L) (parsePropertyName r) s (fun p s' => ∃ t', St L c (n + 1) t' s' ∧ WF L c.x (.key p.1)) := by
  unfold parsePropertyName
  w_cur
  w_if h
  · w_start
    w_call a ha t1
    w_end sp hsp
    exact ⟨_, hs.mono (Nat.le_succ _), keyIdent⟩
  · w_if h
    · w_start
      w_end sp hsp
      exact ⟨_, hs, keyLit (KeyOk.tok hs.tok (Or.inr h))⟩
    · w_if h
      w_call k hk t1
      exact ⟨_, hs.mono (Nat.le_succ _), hk⟩

instance : Does .keep L c r (parsePropertyName r) (fun _ => True) (fun _ p _ => WF L c.x (.key p.1)) :=
  ⟨fun {n t s} hE hS hs _ => by
    cases n with
    | zero => exact absurd hs.size (Nat.not_lt_zero _)
    | succ m => exact parsePropertyName_sat (hE.mono (Nat.le_succ _)) (hS.mono (Nat.le_succ _)) hs⟩

omit [Env] in
theorem methodKeyWF {x : Ctx} {k : PropertyKey} (h : WF L x (.key k)) : WF L x (.node .methodKey k.asNode) := by
  cases k with
  | identifier id =>
    exact WF.plain ⟨rfl, trivial, by simp [Role.isExprLike], by simp [Role.isRef]⟩ (by simp [children, nodeParts, PropertyKey.asNode])
  | literal l =>
    have hv : LiteralOk l.value := by
      rcases h.loc' rfl with ⟨v, hv⟩ | ⟨v, hv⟩ <;> rw [LiteralOk, hv] <;> simp
    exact WF.plain ⟨rfl, hv, by simp [Role.isExprLike], by simp [Role.isRef]⟩ (by simp [children, nodeParts, PropertyKey.asNode])
  | expression e =>
    have h1 := h.kids' rfl
    simp [children] at h1
    exact h1.exprTo .methodKey (fun _ => h1.exprIs)

omit [Env] in
theorem fnWF {x : Ctx} {ps : List FunctionParameter} {b : Node} {g a : Bool} (h : ParamsQ L x .declared ps)
    (hb : WF L x (.node .fnBody b)) : WF L x (.fn (.mk none ps b g false a)) :=
  WF.plain ⟨h.rest, rfl, rfl⟩ (by simp only [children, AllWF_fnParts]; exact ⟨by simp, h.wf, hb⟩)

omit [Env] in
theorem ParamsQ.nil {x : Ctx} {m : Mode} : ParamsQ L x m [] := ⟨trivial, by simp⟩

omit [Env] in
theorem methodWF {x : Ctx} {k : PropertyKey} {ps : List FunctionParameter} {b : Node} {g a cp : Bool} {kind : Str}
    (hk : WF L x (.key k)) (hf : WF L x (.fn (.mk none ps b g false a))) (hkind : kind ∈ methodKinds)
    (h1 : kind = cs!"get" → ps = [] ∧ g = false ∧ a = false) (h2 : kind = cs!"set" → g = false ∧ a = false) :
    WF L x (.method (.mk k.asNode cp (some (.mk none ps b g false a)) kind false)) :=
  WF.plain ⟨rfl, hkind, rfl, by rintro h _ _ _ _ _ _ ⟨⟩; exact h1 h, by rintro h _ _ _ _ _ _ ⟨⟩; exact h2 h⟩
    (by simp [children, methodKeyWF hk, hf])

instance : Does .adv L c r (classGetter r false) (fun t => t.tokentype ≠ .eof)
    (fun _ m _ => WF L c.x (.method m)) :=
  ⟨fun {n t s} hE hS hs hp => by
    unfold classGetter
    w_call a ha t1
    w_call k hk t2
    w_call a' ha' t3
    w_call b' hb' t4
    w_call b hb t5
    exact ⟨_, hs, methodWF hk (fnWF .nil hb) (by decide) (by simp) (by simp)⟩⟩

instance : Does .adv L c r (classSetter r false) (fun t => t.tokentype ≠ .eof)
    (fun _ m _ => WF L c.x (.method m)) :=
  ⟨fun {n t s} hE hS hs hp => by
    unfold classSetter
    w_call a ha t1
    w_call k hk t2
    w_call p hp t3
    exact ⟨_, hs, methodWF hk (fnWF hp.1 hp.2) (by decide) (by simp) (by simp)⟩⟩

instance : Does .adv L c r (classAsync r false) (fun t => t.tokentype ≠ .eof)
    (fun _ m _ => WF L c.x (.method m)) :=
  ⟨fun {n t s} hE hS hs hp => by
    unfold classAsync
    w_call a ha t1
    w_get
    w_sub (fun _ : Bool => True)
    · w_if h
      · w_call b hb t2
        exact ⟨_, hs, trivial⟩
      · exact ⟨_, hs, trivial⟩
    · rintro g s ⟨t2, hs, -⟩
      w_get
      w_if h
      w_call k hk t3
      w_call p hp t4
      exact ⟨_, hs, methodWF hk (fnWF hp.1 hp.2) (by decide) (by simp) (by simp)⟩⟩

instance : Does .adv L c r (classGenerator r false) (fun t => t.tokentype ≠ .eof)
    (fun _ m _ => WF L c.x (.method m)) :=
  ⟨fun {n t s} hE hS hs hp => by
    unfold classGenerator
    w_call a ha t1
    w_call k hk t2
    w_call p hp t3
    exact ⟨_, hs, methodWF hk (fnWF hp.1 hp.2) (by decide) (by simp) (by simp)⟩⟩

omit [Env] in
theorem methodKind_mem (k : PropertyKey) : methodKind k ∈ methodKinds := by
  unfold methodKind
  split
  · split <;> decide
  · split <;> decide
  · decide

omit [Env] in
theorem methodKind_plain (k : PropertyKey) : methodKind k ≠ cs!"get" ∧ methodKind k ≠ cs!"set" := by
  unfold methodKind
  split
  · split <;> decide
  · split <;> decide
  · decide

instance : Does .adv L c r (classMethod r false) (fun _ => True)
    (fun _ m _ => WF L c.x (.method m)) :=
  ⟨fun {n t s} hE hS hs hp => by
    unfold classMethod
    refine Sat.bind (parsePropertyName_sat hE hS hs) ?_
    rintro k s ⟨t1, hs, hk⟩
    w_call p hp t2
    exact ⟨_, hs, methodWF hk (fnWF hp.1 hp.2) (methodKind_mem _) (fun h => absurd h (methodKind_plain _).1)
      (fun h => absurd h (methodKind_plain _).2)⟩⟩

instance : Does .adv L c r (classItem r) (fun _ => True)
    (fun _ o _ => ∀ m, o = some m → WF L c.x (.method m)) :=
  ⟨fun {n t s} hE hS hs hp => by
    unfold classItem
    w_cur
    w_if h
    · w_call a ha t1
      exact ⟨_, hs, by simp⟩
    · refine Sat.bind (P := fun b s' => b = false ∧ ∃ t', St L c (n + 1) t' s') ?_ ?_
      · have hsh := hs.tok.1
        w_if h1
        · exfalso
          simp only [Token.isKw, Token.matchesStr, Bool.and_eq_true, decide_eq_true_eq] at h1
          simp only [TokShape, h1.1] at hsh
          obtain ⟨v, hv, hk⟩ := hsh
          rw [h1.2] at hv
          cases hv
          exact absurd hk (by decide)
        · exact ⟨rfl, _, hs⟩
      · rintro st s ⟨rfl, t1, hs⟩
        w_cur
        w_sub (fun m => WF L c.x (.method m))
        · w_if h1
          · w_tail m hm t2
            exact hm
          · w_if h1
            · w_tail m hm t2
              exact hm
            · w_if h1
              · w_tail m hm t2
                exact hm
              · w_if h1
                · w_tail m hm t2
                  exact hm
                · w_tail m hm t2
                  exact hm
        · rintro m s ⟨t2, hs, hm⟩
          exact ⟨_, hs, by rintro _ ⟨⟩; exact hm⟩⟩

instance : Does .keep L c r (parseClassBody r) (fun _ => True)
    (fun _ l _ => ∀ m ∈ l, WF L c.x (.method m)) :=
  ⟨fun {n t s} hE hS hs hp => by
    unfold parseClassBody
    w_call l hl t1
    refine ⟨_, hs, fun m hm => ?_⟩
    simp only [List.mem_filterMap, id] at hm
    obtain ⟨a, ha, rfl⟩ := hm
    obtain ⟨_, _, h⟩ := hl.1 _ ha
    exact h m rfl⟩

/-- A class whose parts are strict code. -/
def ClassQ (L : Nat) (x : Ctx) (a : Node) : Prop :=
  ∃ id sup ms sp, a = .classDeclaration id sup ms sp ∧ (∀ n, sup = some n → Spec.level n = 17) ∧
    AllWF L { x with strict := true } (classParts id sup ms)

omit [Env] in
theorem level_le (n : Node) : Spec.level n ≤ 17 := by
  have key : ∀ op, binPrec op ≤ 12 := by
    intro op
    unfold binPrec
    cases h : binOps.lookup op with
    | none => simp
    | some k =>
      have : ∀ p ∈ binOps, p.2 ≤ 12 := by decide
      have hm : (op, k) ∈ binOps := by
        obtain ⟨l1, l2, e, -⟩ := List.lookup_eq_some_iff.1 h
        rw [e]; simp
      exact this _ hm
  cases n <;> simp only [Spec.level] <;> try omega
  · rename_i op _ _ _ _; have := key op; omega
  · rename_i op _ _ _; have := key op; omega

theorem parseClassTail_sat {id : Option Node} (hE : RecE L r n) (hS : RecS L r n) (hs : St L c n t s)
    (hid : ∀ m, id = some m → WF L c.x (.node .bindId m)) (hst : c.x.strict = true) :
    Sat (ParseFail L) (parseClassTail r id) s (fun a s' => ∃ t', St L c n t' s' ∧ ClassQ L c.x a) := by
  unfold parseClassTail
  w_cur
  w_sub (fun o => ∀ m, o = some m → Spec.level m = 17 ∧ WF L c.x (.node .expr m))
  · w_if h
    · w_call a ha t1
      w_call e he t2
      exact ⟨_, hs, by rintro _ ⟨⟩; exact ⟨Nat.le_antisymm (level_le _) he.level, he.wf⟩⟩
    · exact ⟨_, hs, by simp⟩
  · rintro sup s ⟨t1, hs, hsup⟩
    w_call a ha t2
    w_call l hl t3
    w_call b hb t4
    w_end sp hsp
    refine ⟨_, hs, _, _, _, _, rfl, fun m h => (hsup m h).1, ?_⟩
    rw [show ({ c.x with strict := true } : Ctx) = c.x by rw [← hst]]
    simp only [AllWF_classParts]
    exact ⟨hid, fun m h => (hsup m h).2, hl⟩

omit [Env] in
theorem ClassQ.wf {x : Ctx} {a : Node} (h : ClassQ L x a) (r : Role) (hf : ∀ b, Fits b r a)
    (hr : (r.isFnBody || r.isLoopBody) = false := by rfl) :
    WF L x (.node r a) := by
  obtain ⟨id, sup, ms, sp, rfl, h1, h2⟩ := h
  simp only [Bool.or_eq_false_iff] at hr
  have e : enter x (.node r (.classDeclaration id sup ms sp)) = { x with strict := true } := by
    simp [enter, Item.startsStrict, Node.startsStrict, Item.isFnBody, Item.isLoopBody, hr, Item.isSwitch, Node.isSwitch]
  refine .mk ⟨hf _, h1, fun _ _ => ?_, nofun⟩ (by rw [e]; exact h2)
  exact ExprOk.of (by simp [Node.assignTargetType]) rfl (by simp [Node.exprSpan?])

omit [Env] in
theorem ClassQ.goodE {x : Ctx} {a : Node} {b : Bool} (h : ClassQ L { x with strict := b } a) : GoodE 17 L x t a := by
  have h' : ClassQ L x a := h
  refine ⟨h'.wf .expr ?_, ?_, ?_⟩
  all_goals obtain ⟨id, sup, ms, sp, rfl, h1, h2⟩ := h
  · exact fun _ => rfl
  · exact Nat.le_refl _
  · exact Head.of rfl

omit [Env] in
theorem ClassQ.goodS {x : Ctx} {a : Node} {b : Bool} (h : ClassQ L { x with strict := b } a) : GoodS .stmt L x t a := by
  have h' : ClassQ L x a := h
  refine ⟨h'.wf .stmt ?_, ?_⟩
  all_goals obtain ⟨id, sup, ms, sp, rfl, h1, h2⟩ := h
  · exact fun _ => rfl
  · exact SHead.of

instance : Does .adv L c r (parseClassDclr r) (fun _ => True) (fun _ a _ => ClassQ L c.x a) :=
  ⟨fun {n t s} hE hS hs _ => by
    unfold parseClassDclr
    w_get
    refine modifyCtx_bind (g := fun x => { x with strict := true }) hs ?_
    intro s hs
    w_start
    w_call a ha t1
    w_call b hb t2
    obtain ⟨name, sp, rfl, hn, hsp⟩ := hb
    refine Sat.bind (P := fun a s' => a = .bindingIdentifier name sp ∧ s' = s) ⟨rfl, rfl⟩ ?_
    rintro _ _ ⟨rfl, rfl⟩
    refine Sat.bind (parseClassTail_sat hE hS hs (by rintro _ ⟨⟩; exact bindIdNode hn) rfl) ?_
    rintro a s ⟨t3, hs, ha⟩
    refine modifyCtx_bind (g := fun x => { x with strict := c.ctx.strict }) hs ?_
    intro s hs
    exact ⟨_, hs, ha⟩⟩

instance : Does .adv L c r (parseClassExpr r) (fun _ => True) (fun t a _ => GoodE 17 L c.x t a) :=
  ⟨fun {n t s} hE hS hs _ => by
    unfold parseClassExpr
    w_get
    refine modifyCtx_bind (g := fun x => { x with strict := true }) hs ?_
    intro s hs
    w_start
    w_call a ha t1
    w_get
    refine Sat.bind (P := fun o s' => ∃ t', St L (c.setStrict true) n t' s' ∧
      ∀ m, o = some m → WF L (c.setStrict true).x (.node .bindId m)) ?_ ?_
    · w_if h
      · w_call b hb t2
        obtain ⟨name, sp, rfl, hn, hsp⟩ := hb
        refine Sat.bind (P := fun a s' => a = .bindingIdentifier name sp ∧ s' = s) ⟨rfl, rfl⟩ ?_
        rintro _ _ ⟨rfl, rfl⟩
        exact ⟨_, hs, by rintro _ ⟨⟩; exact bindIdNode hn⟩
      · w_if h1
        exact ⟨_, hs, by simp⟩
    · rintro o s ⟨t2, hs, ho⟩
      refine Sat.bind (parseClassTail_sat hE hS hs ho rfl) ?_
      rintro a s ⟨t3, hs, ha⟩
      refine modifyCtx_bind (g := fun x => { x with strict := c.ctx.strict }) hs ?_
      intro s hs
      exact ⟨_, hs, ClassQ.goodE (b := true) ha⟩⟩

end Parser
end Giron

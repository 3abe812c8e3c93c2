import Verif.Proofs.Parse.Stmt
/-
Specifications of the methods of `Model/Parser/Module.lean`, the recursion, and the two entry points.
-/
namespace Giron
open M Spec
variable [Env]
namespace Parser
variable {L : Nat} {c : Cx} {r : Rec} {n : Nat} {t : Token} {s : Parser} {α β : Type}

instance : Does .adv L c r parseImportLocal (fun _ => True) (fun _ a _ => NameOk a.name) :=
  ⟨fun {n t s} hE hS hs _ => by
    unfold parseImportLocal
    w_call b hb t1
    obtain ⟨name, sp, rfl, hn, hsp⟩ := hb
    exact ⟨_, hs, hn.1⟩⟩

/-- The bound names are proper names. -/
def SpecsQ (l : List ImportDeclarationSpecifier) : Prop := ∀ sp ∈ l, NameOk (importLocal sp).name

instance : Does .adv L c r parseModuleSpecifier (fun _ => True) (fun _ l _ => ∃ v, l.value = .str v) :=
  ⟨fun {n t s} hE hS hs _ => by
    have htok := hs.tok
    unfold parseModuleSpecifier
    w_cur
    w_if h
    w_start
    have h1 : t.tokentype ≠ .eof := by rw [h]; decide
    w_call a ha t1
    subst ha
    w_end sp hsp
    refine ⟨_, hs, ?_⟩
    have := htok.1
    simp only [TokShape, h] at this
    simpa using this⟩

/-- An import or export declaration. -/
def IEQ (L : Nat) (x : Ctx) (a : Node) : Prop := isImportExport a = true ∧ ∀ t, GoodS .moduleItem L x t a

omit [Env] in
theorem SpecsQ.cons {a : Identifier} {l : List ImportDeclarationSpecifier} (h : NameOk a.name) (hl : SpecsQ l) :
    SpecsQ (.importSpecifier a a :: l) := by
  intro sp hsp
  rcases List.mem_cons.mp hsp with rfl | hsp
  · exact h
  · exact hl sp hsp

theorem parseImportFrom_sat {l : List ImportDeclarationSpecifier} (hl : SpecsQ l) (hE : RecE L r n) (hS : RecS L r n)
    (hs : St L c n t s) :
    Sat (ParseFail L) (parseImportFrom l) s (fun a s' => ∃ t', St L c n t' s' ∧ IEQ L c.x a) := by
  unfold parseImportFrom
  w_call a ha t1
  w_call b hb t2
  w_call u hu t3
  w_end sp hsp
  exact ⟨_, hs, rfl, fun t => GoodS.mk' (Or.inr rfl) ⟨hl, hb⟩ (by simp [nodeParts])⟩

instance : Does .adv L c r parseNamespaceImport (fun _ => True) (fun _ l _ => SpecsQ l) :=
  ⟨fun {n t s} hE hS hs _ => by
    unfold parseNamespaceImport
    w_call a ha t1
    w_call b hb t2
    w_call d hd t3
    exact ⟨_, hs, by simpa [SpecsQ, importLocal] using hd⟩⟩

instance : Does .adv L c r importSpec (fun _ => True) (fun _ a _ => NameOk (importLocal a).name) :=
  ⟨fun {n t s} hE hS hs _ => by
    unfold importSpec
    w_start
    w_call a ha t1
    w_end sp hsp
    w_cur
    w_if h
    · w_call b hb t2
      w_call d hd t3
      w_call u hu t4
      exact ⟨_, hs, hd⟩
    w_if h
    w_call u hu t4
    exact ⟨_, hs, NameOk.of_not_keyword (by simpa [importLocal] using h)⟩⟩

instance : Does .adv L c r parseNamedImports (fun _ => True) (fun _ l _ => SpecsQ l) :=
  ⟨fun {n t s} hE hS hs _ => by
    unfold parseNamedImports
    w_call a ha t1
    w_call b hb t2
    w_call d hd t3
    exact ⟨_, hs, fun sp h => by obtain ⟨_, _, h⟩ := hb.1 sp h; exact h⟩⟩

instance : Does .adv L c r parseImportDefault (fun _ => True) (fun _ a _ => IEQ L c.x a) :=
  ⟨fun {n t s} hE hS hs _ => by
    unfold parseImportDefault
    w_call a ha t1
    w_cur
    w_if h
    · w_call b hb t2
      w_cur
      w_if h
      · w_call d hd t3
        exact parseImportFrom_sat (SpecsQ.cons ha hd) hE hS hs
      w_if h
      w_call d hd t3
      exact parseImportFrom_sat (SpecsQ.cons ha hd) hE hS hs
    · exact parseImportFrom_sat (SpecsQ.cons ha (by simp [SpecsQ])) hE hS hs⟩

instance : Does .adv L c r parseImportDclr (fun _ => True) (fun _ a _ => IEQ L c.x a) :=
  ⟨fun {n t s} hE hS hs _ => by
    unfold parseImportDclr
    w_start
    w_call a ha t1
    w_cur
    w_if h
    · w_call b hb t2
      exact parseImportFrom_sat hb hE hS hs
    w_if h
    · w_call b hb t2
      exact parseImportFrom_sat hb hE hS hs
    w_if h
    · w_tail b hb t2
      exact hb
    w_if h⟩

instance : Does .adv L c r exportSpec (fun _ => True) (fun _ _ _ => True) :=
  ⟨fun {n t s} hE hS hs _ => by
    unfold exportSpec
    w_start
    w_call a ha t1
    w_cur
    w_if h
    · w_end sp hsp
      w_call b hb t2
      w_start
      w_call d hd t3
      w_end sp hsp
      w_call u hu t4
      exact ⟨_, hs, trivial⟩
    · w_end sp hsp
      w_call u hu t4
      exact ⟨_, hs, trivial⟩⟩

instance : Does .adv L c r parseNamedExports (fun _ => True) (fun _ _ _ => True) :=
  ⟨fun {n t s} hE hS hs _ => by
    unfold parseNamedExports
    w_call a ha t1
    w_call b hb t2
    w_call d hd t3
    exact ⟨_, hs, trivial⟩⟩

omit [Env] in
@[simp] theorem Cx.x_withP {f : Params → Params} (h : (f c.params).hasReturn = c.params.hasReturn) :
    (c.withP f).x = c.x := by
  simp [Cx.x, Cx.withP, h]

omit [Env] in
theorem DeclQ.to {x : Ctx} {a : Node} {r : Role} (h : DeclQ L x t a) (hf : ∀ b, Fits b r a)
    (hx : (r.isFnBody || r.isLoopBody || r.isExprLike) = false := by rfl) :
    WF L x (.node r a) := h.1.wf.stmtTo hf hx

instance : Does .adv L c r (parseExportDefault r) (fun t => t.tokentype ≠ .eof) (fun _ a _ => IEQ L c.x a) :=
  ⟨fun {n t s} hE hS hs hp => by
    unfold parseExportDefault
    w_call a ha t1
    w_cur
    w_if h
    · w_call b hb t2
      rw [Cx.x_withP rfl] at hb
      w_end sp hsp
      refine ⟨_, hs, rfl, fun t => GoodS.mk' (Or.inr rfl) trivial ?_⟩
      have hd := hb.decl (t := t)
      simp only [nodeParts, AllWF_cons, AllWF_nil, and_true]
      exact hd.to (fun _ => Or.inr hd.2)
    w_if h
    · w_call b hb t2
      rw [Cx.x_withP rfl] at hb
      w_end sp hsp
      refine ⟨_, hs, rfl, fun t => GoodS.mk' (Or.inr rfl) trivial ?_⟩
      have hd := ClassQ.decl (t := t) hb
      simp only [nodeParts, AllWF_cons, AllWF_nil, and_true]
      exact hd.to (fun _ => Or.inr hd.2)
    · w_call b hb t2
      rw [Cx.x_withP rfl] at hb
      w_call u hu t3
      w_end sp hsp
      refine ⟨_, hs, rfl, fun t => GoodS.mk' (Or.inr rfl) trivial ?_⟩
      simp only [nodeParts, AllWF_cons, AllWF_nil, and_true]
      exact hb.wf.exprTo .exportDefault (fun _ => Or.inl hb.wf.exprIs)⟩

instance : Does .adv L c r parseExportNamed (fun _ => True) (fun _ a _ => IEQ L c.x a) :=
  ⟨fun {n t s} hE hS hs hp => by
    unfold parseExportNamed
    w_call a ha t1
    w_cur
    w_if h
    · w_call b hb t2
      w_call d hd t3
      w_call u hu t4
      w_end sp hsp
      exact ⟨_, hs, rfl, fun t => GoodS.mk' (Or.inr rfl) (by simpa [NodeOk] using hd) (by simp [nodeParts])⟩
    · w_end sp hsp
      exact ⟨_, hs, rfl, fun t => GoodS.mk' (Or.inr rfl) (by simp [NodeOk]) (by simp [nodeParts])⟩⟩

instance : Does .adv L c r parseExportAll (fun t => t.tokentype ≠ .eof) (fun _ a _ => IEQ L c.x a) :=
  ⟨fun {n t s} hE hS hs hp => by
    unfold parseExportAll
    w_call a ha t1
    w_call b hb t2
    w_call d hd t3
    w_call u hu t4
    w_end sp hsp
    exact ⟨_, hs, rfl, fun t => GoodS.mk' (Or.inr rfl) hd (by simp [nodeParts])⟩⟩

instance : Does .adv L c r (parseExportDclr r) (fun _ => True) (fun _ a _ => IEQ L c.x a) :=
  ⟨fun {n t s} hE hS hs hp => by
    unfold parseExportDclr
    w_start
    w_call a ha t1
    w_cur
    w_if h
    · w_tail b hb t2
      exact hb
    w_if h
    · w_call b hb t2
      w_end sp hsp
      refine ⟨_, hs, rfl, fun t => GoodS.mk' (Or.inr rfl) (by simp [NodeOk]) ?_⟩
      simp only [nodeParts, AllWF_optNode_some]
      obtain ⟨l, sp, rfl, h⟩ := hb
      exact (h.wf (t := t) (by decide) (fun _ => by simp [Fits, isDecl])).wf
    w_if h
    · w_call b hb t2
      w_end sp hsp
      refine ⟨_, hs, rfl, fun t => GoodS.mk' (Or.inr rfl) (by simp [NodeOk]) ?_⟩
      simp only [nodeParts, AllWF_optNode_some]
      exact hb.to (fun _ => hb.2)
    w_if h
    · w_tail b hb t2
      exact hb
    w_if h
    w_tail b hb t2
    exact hb⟩

instance : Does .advS L c r (parseModuleItem r) (fun _ => True) (fun t a _ => GoodS .moduleItem L c.x t a) :=
  ⟨fun {n t s} hE1 hS1 hs hp => by
    have hE := hE1.mono (Nat.le_succ n)
    have hS := hS1.mono (Nat.le_succ n)
    unfold parseModuleItem
    w_cur
    w_if h
    · w_tail b hb t2
      exact hb.2 _
    w_if h
    · w_tail b hb t2
      exact hb.2 _
    · w_tail b hb t2
      have hle : Ctx.Le c.x (c.withP moduleParams).x := ⟨id, by simp [Cx.x, Cx.withP, moduleParams], id, id⟩
      have : isStmt b = true := hb.wf.loc.1
      exact ⟨(hb.wf.mono hle).stmtTo (fun _ => Or.inl this), hb.head⟩⟩

/-! ### Scripts and modules -/

/-- What a successful parse leaves: the tree, and a state whose input is exhausted. -/
structure ProgQ (L : Nat) (c : Cx) (n : Nat) (ty : Str) (a : Node) (s : Parser) : Prop where
  wf : WF L ⟨false, false, false, false⟩ (.node .program a)
  ty : ∃ body sp, a = .program body ty sp
  st : ∃ b t, St L (c.setStrict b) n t s ∧ t.tokentype = .eof

theorem parseScriptBody_sat (hE : RecE L r n) (hS : RecS L r n) (hs : St L c n t s)
    (hc : c.x = ⟨false, false, false, false⟩) :
    Sat (ParseFail L) (parseScriptBody r) s (ProgQ L c n cs!"script") := by
  unfold parseScriptBody
  w_start
  refine Sat.bind (parseDirectivePrologues_sat hE hS hs) ?_
  rintro pro s ⟨t2, b, hpro, hs, ht2⟩
  w_call l hl t3
  w_end sp hsp
  obtain ⟨hl1, hl2, hl3⟩ := hl
  have hr : ∀ x l', l = x :: l' → directive? x = none := by
    intro x l' h
    obtain ⟨_, h'⟩ := hl2 x l' h
    have := h'.head
    cases hd : directive? x with
    | none => rfl
    | some v => exact absurd (this v hd) ht2
  have hst := hpro.strict hr
  have e : enter ⟨false, false, false, false⟩ (.node .program (.program (pro ++ l) cs!"script" sp)) =
      ⟨usesStrict (pro ++ l), false, false, false⟩ := by
    simp [enter, Item.startsStrict, Node.startsStrict, Item.isFnBody, Role.isFnBody, Item.isLoopBody, Role.isLoopBody,
      Item.isSwitch, Node.isSwitch]
  refine ⟨.mk ⟨rfl, Or.inr rfl, by simp [Role.isExprLike], by simp [Role.isRef]⟩ ?_, ⟨_, _, rfl⟩, ⟨_, _, hs, hl3⟩⟩
  rw [e]
  show AllWF _ _ (children _)
  simp only [children, nodeParts, AllWF_map, List.mem_append]
  rintro x (hx | hx)
  · have := hpro.wf (rest := l) (usesStrict (pro ++ l)) Or.inr x hx
    rw [hc] at this
    exact this
  · obtain ⟨_, _, hx⟩ := hl1 x hx
    refine hx.wf.mono ?_
    rw [Cx.x_setStrict, hc]
    exact ⟨hst.2, id, id, id⟩

theorem strictPrologues (h : c.ctx.strict = true) : Does .keep L c r (parseDirectivePrologues r) (fun _ => True)
    (fun _ l _ => ∀ n ∈ l, WF L c.x (.node .stmt n)) :=
  ⟨fun {n t s} hE hS hs _ => by
    refine (parseDirectivePrologues_sat hE hS hs).mono ?_
    rintro l s' ⟨t', b, hpro, hs', -⟩
    have hb : b = true := (hpro.strict (rest := []) (by simp)).1 h
    subst hb
    have e : c.setStrict true = c := by rw [← h, Cx.setStrict_self]
    rw [e] at hs'
    refine ⟨t', hs', ?_⟩
    have := hpro.wf (rest := []) true (fun _ => Or.inl h)
    have e2 : ({ c.x with strict := true } : Ctx) = c.x := by simp [Cx.x, h]
    rwa [e2] at this⟩

theorem parseModuleBody_sat (hE : RecE L r n) (hS : RecS L r n) (hs : St L c n t s)
    (hc : c.x = ⟨false, false, false, false⟩) :
    Sat (ParseFail L) (parseModuleBody r) s (ProgQ L c n cs!"module") := by
  unfold parseModuleBody
  w_start
  refine modifyCtx_bind (g := fun x => { x with strict := true }) hs ?_
  intro s hs
  replace hs : St L (c.setStrict true) n t s := hs
  have hx : (c.setStrict true).x = ⟨true, false, false, false⟩ := by rw [Cx.x_setStrict, hc]
  have hret : c.params.hasReturn = false := by have := congrArg Ctx.ret hc; exact this
  have hp : ((c.setStrict true).withP moduleParams).x = (c.setStrict true).x :=
    Cx.x_withP (by simp only [Cx.setStrict]; rw [hret]; rfl)
  have hpro := withParams_sat (L := L) (r := r) (g := moduleParams)
    (strictPrologues (L := L) (r := r) (c := (c.setStrict true).withP moduleParams) rfl)
  refine Sat.bind (hpro.sat hE hS hs trivial) ?_
  rintro pro s ⟨t2, hs, hpro⟩
  w_call l hl t3
  w_end sp hsp
  obtain ⟨hl1, hl2, hl3⟩ := hl
  have e : enter ⟨false, false, false, false⟩ (.node .program (.program (pro ++ l) cs!"module" sp)) =
      ⟨true, false, false, false⟩ := by
    simp [enter, Item.startsStrict, Node.startsStrict, Item.isFnBody, Role.isFnBody, Item.isLoopBody, Role.isLoopBody,
      Item.isSwitch, Node.isSwitch]
  refine ⟨.mk ⟨rfl, Or.inl rfl, by simp [Role.isExprLike], by simp [Role.isRef]⟩ ?_, ⟨_, _, rfl⟩, ⟨_, _, hs, hl3⟩⟩
  rw [e]
  show AllWF _ _ (children _)
  simp only [children, nodeParts, AllWF_map, List.mem_append]
  rintro x (hx' | hx')
  · have := hpro x hx'
    rw [hp, hx] at this
    have h2 : isStmt x = true := this.loc.1
    exact this.stmtTo (fun _ => Or.inl h2)
  · obtain ⟨_, _, hx'⟩ := hl1 x hx'
    have := hx'.wf
    rw [hx] at this
    exact this

/-! ### The recursion -/

theorem run_good (L : Nat) (k : Nat) : (∀ n, 2 * n ≤ k → RecE L (run k) n) ∧ (∀ n, 2 * n + 1 ≤ k → RecS L (run k) n) := by
  induction k with
  | zero =>
    refine ⟨fun n hn => ?_, fun n hn => by omega⟩
    have : n = 0 := by omega
    subst this
    constructor <;> intros <;> intro c m <;> intros <;> omega
  | succ k ih =>
    obtain ⟨ihE, ihS⟩ := ih
    refine ⟨fun n hn => ?_, fun n hn => ?_⟩
    · have hE : ∀ m, m < n → RecE L (run k) m := fun m hm => ihE m (by omega)
      have hS : ∀ m, m < n → RecS L (run k) m := fun m hm => ihS m (by omega)
      constructor
      · exact fun c m t s hm hs hp => Does.sat (k := .adv) (f := parseAssignmentExpr (run k)) (r := run k) (hE m hm) (hS m hm) hs hp
      · exact fun c m t s hm hs hp => Does.sat (k := .adv) (f := parseUnaryExpr (run k)) (r := run k) (hE m hm) (hS m hm) hs hp
      · exact fun c m t s hm hs hp => Does.sat (k := .adv) (f := parseExponentiationExpr (run k)) (r := run k) (hE m hm) (hS m hm) hs hp
      · exact fun c m t s hm hs hp => Does.sat (k := .adv) (f := parseNewExpr (run k)) (r := run k) (hE m hm) (hS m hm) hs hp
      · exact fun c m t s hm hs hp => Does.sat (k := .adv) (f := parseLeftHandSideExpr (run k)) (r := run k) (hE m hm) (hS m hm) hs hp
      · exact fun c m t s hm hs hp => Does.sat (k := .adv) (f := parseBindingIdOrPat (run k)) (r := run k) (hE m hm) (hS m hm) hs hp
      · exact fun lhs prec c m t s hm hs hp => Does.sat (k := .adv) (f := precedenceClimbing (run k) lhs prec) (r := run k) (hE m hm) (hS m hm) hs hp
    · have hE : ∀ m, m < n → RecE L (run k) (m + 1) := fun m hm => ihE (m + 1) (by omega)
      have hS : ∀ m, m < n → RecS L (run k) m := fun m hm => ihS m (by omega)
      constructor
      · exact fun c m t s hm hs hp => Does.sat (k := .advE) (f := parseStmtListItem (run k)) (r := run k) (hE m hm) (hS m hm) hs hp
      · exact fun c m t s hm hs hp => Does.sat (k := .advE) (f := parseStatement (run k)) (r := run k) (hE m hm) (hS m hm) hs hp

/-- The context a parser starts in. -/
def Cx.init : Cx := ⟨⟨false, false, false, false⟩, Params.new, []⟩

/-- how the parser may fail at all -/
def RunFail (L : Nat) (f : Fail) : Prop := ParseFail L f ∨ f = .panic .firstToken

theorem new_sat (source : Str) :
    match Parser.new source with
    | .ok s => ∃ t, St (lines source) Cx.init (source.length + 1) t s
    | .error f => RunFail (lines source) f := by
  have hp : Pos (lines source) (Scanner.new source) := by
    simp [Pos, Scanner.new, lines]
  have h := Scanner.scanFresh_sat hp .regExp
  have e : Scanner.next .regExp (Scanner.new source) = Scanner.scanFresh .regExp (Scanner.new source) := rfl
  unfold Parser.new
  rw [e]
  unfold Sat at h
  cases hx : Scanner.scanFresh .regExp (Scanner.new source) with
  | error f =>
    rw [hx] at h
    cases f with
    | err e => exact Or.inr rfl
    | panic p => exact Or.inl (ScanFail.parse h)
    | fuel => exact Or.inl (ScanFail.parse h)
  | ok p =>
    obtain ⟨t, sc⟩ := p
    rw [hx] at h
    obtain ⟨h1, h2, h3, h4, h5, h6, w, k, hw, hr, hc, hst, hen, h7⟩ := h
    refine ⟨t, ⟨⟨⟨?_, ?_⟩, h1, ?_, ?_, by simp⟩, rfl, rfl, rfl, ?_, rfl⟩⟩
    · exact Nat.le_trans hp.1 h3
    · rw [h4]; exact hp.2
    · intro t' ht'
      simp only at ht'
      rw [h5] at ht'
      simp [Scanner.new] at ht'
    · intro he
      rcases h7 with ⟨-, h7, -⟩ | ⟨h7, -⟩
      · exact ⟨h7, fun t' ht' => by simp only at ht'; rw [h5] at ht'; simp [Scanner.new] at ht'⟩
      · exact absurd he h7
    · simp only [size, h5]
      have hl : (Scanner.new source).rest = source := rfl
      rw [hl] at hr hw
      rcases h7 with ⟨h7, h8, -⟩ | ⟨h7, h8⟩
      · simp [h7, h8, Scanner.new]
      · simp only [Scanner.new, if_neg h7, hr, List.length_drop]; omega

theorem parseScriptState_sat (source : Str) :
    match parseScriptState source with
    | .ok (a, s) => ProgQ (lines source) Cx.init (source.length + 1) cs!"script" a s
    | .error f => RunFail (lines source) f := by
  have h := new_sat source
  unfold parseScriptState
  cases hx : Parser.new source with
  | error f => rw [hx] at h; exact h
  | ok s =>
    rw [hx] at h
    obtain ⟨t, hs⟩ := h
    have hg := run_good (lines source) (depth source)
    have := parseScriptBody_sat (hg.1 (source.length + 1) (by unfold depth; omega))
      (hg.2 (source.length + 1) (by unfold depth; omega)) hs rfl
    unfold Sat at this
    simp only
    split at this <;> rename_i e <;> rw [e]
    · exact this
    · exact Or.inl this

theorem parseModuleState_sat (source : Str) :
    match parseModuleState source with
    | .ok (a, s) => ProgQ (lines source) Cx.init (source.length + 1) cs!"module" a s
    | .error f => RunFail (lines source) f := by
  have h := new_sat source
  unfold parseModuleState
  cases hx : Parser.new source with
  | error f => rw [hx] at h; exact h
  | ok s =>
    rw [hx] at h
    obtain ⟨t, hs⟩ := h
    have hg := run_good (lines source) (depth source)
    have := parseModuleBody_sat (hg.1 (source.length + 1) (by unfold depth; omega))
      (hg.2 (source.length + 1) (by unfold depth; omega)) hs rfl
    unfold Sat at this
    simp only
    split at this <;> rename_i e <;> rw [e]
    · exact this
    · exact Or.inl this

end Parser
end Giron

import Verif.Proofs.Parse.Names
/-
Specifications of the methods of `Model/Parser/Patterns.lean`.
-/
namespace Giron
open M Spec
variable [Env]
namespace Parser
variable {L : Nat} {c : Cx} {r : Rec} {n : Nat} {t : Token} {s : Parser} {α β : Type}

set_option hygiene false in
/-- a computed value, then the rest -/
macro "w_sub" P:term : tactic => `(tactic|
  refine Sat.bind (P := fun a s' => ∃ t', St L c n t' s' ∧ $P a) ?_ ?_)

/-- A property name: a token, or a well-formed expression in brackets. -/
def VE (L : Nat) (x : Ctx) : ValueOrExpr → Prop
  | .value v => KeyOk v
  | .expr e => WF L x (.node .expr e)

omit [Env] in
theorem keyIdent {x : Ctx} {id : Identifier} : WF L x (.key (.identifier id)) :=
  WF.plain trivial (by simp [children])
omit [Env] in
theorem keyLit {x : Ctx} {l : Literal} (h : KeyOk l.value) : WF L x (.key (.literal l)) :=
  WF.plain h (by simp [children])

omit [Env] in
/-- the tokens that may be property names -/
theorem KeyOk.tok {t : Token} (ht : TokOk L t)
    (h : t.isIdOrKw = true ∨ t.tokentype = .stringLiteral ∨ t.tokentype = .numericLiteral) : KeyOk t.value := by
  have hsh := ht.1
  unfold TokShape at hsh
  rcases h with h | h | h
  · simp only [Token.isIdOrKw, Bool.or_eq_true, decide_eq_true_eq] at h
    rcases h with h | h
    · rw [h] at hsh; obtain ⟨v, hv, -⟩ := hsh; exact Or.inl ⟨v, hv⟩
    · rw [h] at hsh; obtain ⟨v, hv, -⟩ := hsh; exact Or.inl ⟨v, hv⟩
  · rw [h] at hsh; exact Or.inl hsh
  · rw [h] at hsh; exact Or.inr hsh

omit [Env] in
theorem keyExpr {x : Ctx} {e : Node} (h : WF L x (.node .expr e)) : WF L x (.key (.expression e)) :=
  WF.plain trivial (by simp [children, h])

theorem valueToKey_true {v : ValueOrExpr} {sp : Span} (hv : VE L c.x v) (hs : St L c n t s) :
    Sat (ParseFail L) (valueToKey v true sp) s (fun k s' => St L c n t s' ∧ WF L c.x (.key k)) := by
  unfold valueToKey
  cases v with
  | expr e => exact ⟨hs, keyExpr hv⟩
  | value v => exact ⟨hs, keyLit hv⟩

theorem valueToKey_false {v : ValueOrExpr} {sp : Span} (hs : St L c n t s) :
    Sat (ParseFail L) (valueToKey v false sp) s (fun k s' => St L c n t s' ∧
      ∃ id, k = .identifier id ∧ NameOk id.name ∧ ∀ w, v = .value (.str w) → id.name = w) := by
  unfold valueToKey
  cases v with
  | expr e => exact rfl
  | value v =>
    simp only [Bool.false_eq_true, if_false]
    w_get
    w_if h
    · w_if h1
      refine ⟨hs, _, rfl, ?_, by rintro _ ⟨⟩; rfl⟩
      simp only [Bool.or_eq_true, Bool.and_eq_true, beq_iff_eq] at h1
      exact Or.inr (h1.imp And.right And.right)
    · exact ⟨hs, _, rfl, NameOk.of_not_keyword (by simpa using h), by rintro _ ⟨⟩; rfl⟩

instance : Does .adv L c r (objPatName r) (fun _ => True) (fun _ v _ => VE L c.x v) :=
  ⟨fun {n t s} hE hS hs _ => by
    unfold objPatName
    w_cur
    w_if h
    · have hne : t.tokentype ≠ .eof := by
        rcases h with h | h | h
        · exact not_eof_of_isIdOrKw h
        · rw [h]; decide
        · rw [h]; decide
      have htok := hs.tok
      w_call a ha t1
      subst ha
      exact ⟨_, hs, KeyOk.tok htok h⟩
    · w_if h1
      w_call a ha t1
      w_call e he t2
      w_call b hb t3
      exact ⟨_, hs, he.wf⟩⟩

omit [Env] in
theorem GoodB.value {b : Binding} {x : Ctx} (h : GoodB L x b) :
    (∃ name sp, b = .bindingIdentifier name sp ∧ NameIn x.strict name) ∨
    (∃ es sp, b = .arrayPattern es sp ∧ ElemsOk es ∧ ∀ e, some e ∈ es → WF L x (.arrPat .declared e)) ∨
    (∃ ps sp, b = .objectPattern ps sp ∧ PropsOk ps ∧ ∀ p ∈ ps, WF L x (.patProp .declared p)) := by
  have h1 := h.wf.loc' rfl
  have h2 := h.wf.kids' rfl
  have h3 := h.isB
  cases b with
  | bindingIdentifier name sp => exact Or.inl ⟨_, _, rfl, h.named _ _ rfl⟩
  | arrayPattern es sp =>
    refine Or.inr (Or.inl ⟨_, _, rfl, h1.1, ?_⟩)
    simpa [children, Mode.inner] using h2
  | objectPattern ps sp =>
    refine Or.inr (Or.inr ⟨_, _, rfl, h1, ?_⟩)
    simpa [children, Mode.inner] using h2
  | expression e => simp [isBinding] at h3

theorem bindingToPropertyValue_sat {line col : Nat} {b : Binding} (hb : GoodB L c.x b) (hs : St L c n t s) :
    Sat (ParseFail L) (bindingToPropertyValue line col b) s (fun v s' => St L c n t s' ∧
      WF L c.x (.patVal .declared v)) := by
  rcases hb.value with ⟨_, _, rfl, h⟩ | ⟨_, _, rfl, h, hk⟩ | ⟨_, _, rfl, h, hk⟩
  · exact ⟨hs, WF.plain ⟨by simp, h⟩ (by simp [children])⟩
  · exact ⟨hs, WF.plain ⟨by simp, h⟩ (by simpa [children, Mode.inner] using hk)⟩
  · exact ⟨hs, WF.plain ⟨by simp, h⟩ (by simpa [children, Mode.inner] using hk)⟩

instance : Does .advE L c r (objPatValue r) (fun _ => True) (fun _ v _ => WF L c.x (.patVal .declared v)) :=
  ⟨fun {n t s} hE1 hS hs _ => by
    have hE := hE1.mono (Nat.le_succ n)
    unfold objPatValue
    w_cur
    w_call b hb t1
    w_cur
    w_if h
    · w_call a ha t2
      w_call e he t3
      refine ⟨_, hs, WF.plain ⟨by simp, hb.isB⟩ ?_⟩
      simp [children, Mode.left, hb.wf, he.wf]
    · exact (bindingToPropertyValue_sat hb hs).mono (fun v s' ⟨h1, h2⟩ => ⟨_, h1, h2⟩)⟩

instance : Does .keep L c r (shorthandName v) (fun _ => True) (fun _ w _ => v = .value (.str w)) :=
  ⟨fun {n t s} hE hS hs _ => by
    unfold shorthandName
    split
    · exact ⟨_, hs, rfl⟩
    · w_err⟩

/-- A property of a declared object pattern. -/
def PatPropQ (L : Nat) (x : Ctx) (t : Token) (p : ObjectPatternProperty) : Prop :=
  WF L x (.patProp .declared p) ∧ (isPropRest p = true → t.isP .ellipsis = true)

instance : Does .adv L c r (objPatItem r) (fun _ => True) (fun t p _ => PatPropQ L c.x t p) :=
  ⟨fun {n t s} hE hS hs _ => by
    unfold objPatItem
    w_cur
    w_if h
    · w_call a ha t1
      w_call b hb t2
      exact ⟨_, hs, WF.plain ⟨fun _ => ⟨hb.isB, hb.named⟩, by simp⟩ (by simp [children, hb.wf]), fun _ => h⟩
    · w_start
      w_call v hv t1
      w_end sp hsp
      w_cur
      w_sub (PatPropQ L c.x t)
      · w_if h1
        · w_call a ha t2
          w_call name hname t3
          refine Sat.bind (valueToKey_false hs) ?_
          rintro k s ⟨hs, id, rfl, hid, hn⟩
          w_call e he t4
          refine ⟨_, hs, WF.plain (fun _ h => by cases h) ?_, by simp [isPropRest]⟩
          have hk : WF L c.x (.patVal .declared (.assignmentPattern (.bindingIdentifier name sp) e)) :=
            WF.plain ⟨by simp, rfl⟩ (by
              have : NameOk name := hn name hname ▸ hid
              simp [children, Mode.left, he.wf]
              exact WF.plain this (by simp [children]))
          simp [children, keyIdent, hk]
        · w_if h2
          · w_call a ha t2
            refine Sat.bind (valueToKey_true hv hs) ?_
            rintro k s ⟨hs, hk⟩
            w_call w hw t3
            refine ⟨_, hs, WF.plain (fun _ h => by cases h) ?_, by simp [isPropRest]⟩
            simp [children, hk, hw]
          · refine Sat.bind (valueToKey_false hs) ?_
            rintro k s ⟨hs, id, rfl, hid, hn⟩
            refine ⟨_, hs, WF.plain (fun _ _ => ⟨_, rfl, hid⟩) ?_, by simp [isPropRest]⟩
            simp [children, keyIdent]
      · rintro p s ⟨t2, hs, hp⟩
        w_call u hu t3
        exact ⟨_, hs, hp⟩⟩

instance : Does .adv L c r (parseObjBindingPat r) (fun _ => True) (fun _ b _ => GoodB L c.x b) :=
  ⟨fun {n t s} hE hS hs _ => by
    unfold parseObjBindingPat
    w_start
    w_call a ha t1
    w_call l hl t2
    w_call b hb t3
    w_end sp hsp
    refine ⟨_, hs, WF.plain (hl.restLast fun _ _ _ h => h.2) ?_, rfl, .of rfl⟩
    simp only [children, Mode.inner, AllWF_patProps]
    intro x hx
    obtain ⟨_, _, h⟩ := hl.all x hx
    exact h.1⟩

/-- An element of a declared array pattern. -/
def ArrPatQ (L : Nat) (x : Ctx) (t : Token) (o : Option ArrayPatternElement) : Prop :=
  (∀ e, o = some e → WF L x (.arrPat .declared e)) ∧ (isArrRest o = true → t.isP .ellipsis = true)

theorem bindingToElement_sat {line col : Nat} {b : Binding} (hb : GoodB L c.x b) (hs : St L c n t s) :
    Sat (ParseFail L) (bindingToElement line col b) s (fun e s' => St L c n t s' ∧
      WF L c.x (.arrPat .declared e) ∧ isArrRest (some e) = false) := by
  rcases hb.value with ⟨_, _, rfl, h⟩ | ⟨_, _, rfl, h, hk⟩ | ⟨_, _, rfl, h, hk⟩
  · exact ⟨hs, WF.plain h (by simp [children]), rfl⟩
  · exact ⟨hs, WF.plain h (by simpa [children] using hk), rfl⟩
  · exact ⟨hs, WF.plain h (by simpa [children] using hk), rfl⟩

instance : Does .advE L c r (arrPatItem r) (fun _ => True) (fun t p _ => ArrPatQ L c.x t p) :=
  ⟨fun {n t s} hE1 hS hs _ => by
    have hE := hE1.mono (Nat.le_succ n)
    unfold arrPatItem
    w_cur
    w_if h
    · w_call a ha t1
      exact ⟨_, hs, by simp, by simp [isArrRest]⟩
    · w_if h1
      · w_call a ha t1
        w_call b hb t2
        refine ⟨_, hs, ?_, fun _ => h1⟩
        rintro _ ⟨⟩
        exact WF.plain ⟨hb.isB, hb.named⟩ (by simp [children, hb.wf])
      · w_call b hb t1
        w_cur
        w_sub (fun e => WF L c.x (.arrPat .declared e) ∧ isArrRest (some e) = false)
        · w_if h2
          · w_call a ha t2
            w_call e he t3
            exact ⟨_, hs, WF.plain ⟨⟨Or.inl rfl, hb.isB⟩, hb.named⟩ (by simp [children, Mode.left, hb.wf, he.wf]), rfl⟩
          · exact (bindingToElement_sat hb hs).mono (fun v s' ⟨h1, h2⟩ => ⟨_, h1, h2⟩)
        · rintro e s ⟨t2, hs, he, her⟩
          w_call u hu t3
          exact ⟨_, hs, by rintro _ ⟨⟩; exact he, by rw [her]; simp⟩⟩

instance : Does .adv L c r (parseArrBindingPat r) (fun _ => True) (fun _ b _ => GoodB L c.x b) :=
  ⟨fun {n t s} hE hS hs _ => by
    unfold parseArrBindingPat
    w_start
    w_call a ha t1
    w_call l hl t2
    w_call b hb t3
    w_end sp hsp
    refine ⟨_, hs, WF.plain ⟨hl.restLast fun _ _ _ h => h.2, by simp⟩ ?_, rfl, .of rfl⟩
    simp only [children, Mode.inner, AllWF_arrPats]
    intro x hx
    obtain ⟨_, _, h⟩ := hl.all _ hx
    exact h.1 x rfl⟩

instance : Does .adv L c r (parseBindingIdOrPat r) (fun _ => True) (fun _ b _ => GoodB L c.x b) :=
  ⟨fun {n t s} hE hS hs _ => by
    unfold parseBindingIdOrPat
    w_cur
    w_if h
    · w_tail b hb t1
      exact hb.good
    · w_if h
      · w_tail b hb t1
        exact hb
      · w_if h
        w_tail b hb t1
        exact hb⟩

/-- A formal parameter. -/
def ParamQ (L : Nat) (x : Ctx) (t : Token) (p : FunctionParameter) : Prop :=
  WF L x (.param .declared p) ∧ (isParamRest p = true → t.isP .ellipsis = true)

theorem bindingToParam_sat {line col : Nat} {b : Binding} (hb : GoodB L c.x b) (hs : St L c n t s) :
    Sat (ParseFail L) (bindingToParam line col b) s (fun e s' => St L c n t s' ∧
      WF L c.x (.param .declared e) ∧ isParamRest e = false) := by
  rcases hb.value with ⟨_, _, rfl, h⟩ | ⟨_, _, rfl, h, hk⟩ | ⟨_, _, rfl, h, hk⟩
  · exact ⟨hs, WF.plain h (by simp [children]), rfl⟩
  · exact ⟨hs, WF.plain h (by simpa [children] using hk), rfl⟩
  · exact ⟨hs, WF.plain h (by simpa [children] using hk), rfl⟩

instance : Does .advE L c r (formalParam r) (fun _ => True) (fun t p _ => ParamQ L c.x t p) :=
  ⟨fun {n t s} hE1 hS hs _ => by
    have hE := hE1.mono (Nat.le_succ n)
    unfold formalParam
    w_cur
    w_if h
    · w_call a ha t1
      w_call b hb t2
      exact ⟨_, hs, WF.plain ⟨hb.isB, hb.named⟩ (by simp [children, hb.wf]), fun _ => h⟩
    · w_call b hb t1
      w_cur
      w_sub (fun e => WF L c.x (.param .declared e) ∧ isParamRest e = false)
      · w_if h2
        · w_call a ha t2
          w_call e he t3
          exact ⟨_, hs, WF.plain ⟨hb.isB, hb.named⟩ (by simp [children, Mode.left, hb.wf, he.wf]), rfl⟩
        · exact (bindingToParam_sat hb hs).mono (fun v s' ⟨h1, h2⟩ => ⟨_, h1, h2⟩)
      · rintro e s ⟨t2, hs, he, her⟩
        w_call u hu t3
        exact ⟨_, hs, he, by rw [her]; simp⟩⟩

/-- A list of parameters. -/
structure ParamsQ (L : Nat) (x : Ctx) (m : Mode) (ps : List FunctionParameter) : Prop where
  rest : ParamsOk ps
  wf : ∀ p ∈ ps, WF L x (.param m p)

instance : Does .adv L c r (parseFormalParams r) (fun _ => True) (fun _ ps _ => ParamsQ L c.x .declared ps) :=
  ⟨fun {n t s} hE hS hs _ => by
    unfold parseFormalParams
    w_call a ha t1
    w_call l hl t2
    w_call b hb t3
    refine ⟨_, hs, hl.restLast fun _ _ _ h => h.2, fun x hx => ?_⟩
    obtain ⟨_, _, h⟩ := hl.all _ hx
    exact h.1⟩

instance {g a : Bool} : Does .adv L c r (parseParamsAndBody r g a) (fun _ => True)
    (fun _ p _ => ParamsQ L c.x .declared p.1 ∧ WF L c.x (.node .fnBody p.2)) :=
  ⟨fun {n t s} hE hS hs _ => by
    unfold parseParamsAndBody
    w_call ps hps t1
    w_call b hb t2
    exact ⟨_, hs, hps, hb⟩⟩

end Parser
end Giron

import Verif.Proofs.Parse.Class
/-
Turning expressions into patterns keeps trees well formed.
-/
namespace Giron
open M Spec
variable [Env]
namespace Parser

/-- `e` succeeds with `Q` or fails in an allowed way. -/
def OkE {α : Type} (L : Nat) (e : Except Fail α) (Q : α → Prop) : Prop :=
  match e with
  | .ok a => Q a
  | .error f => ParseFail L f

variable {L : Nat} {x : Ctx} {α β : Type}

theorem OkE.bind {e : Except Fail α} {f : α → Except Fail β} {P : α → Prop} {Q : β → Prop} (h : OkE L e P)
    (hf : ∀ a, P a → OkE L (f a) Q) : OkE L (e >>= f) Q := by
  cases e with
  | error => exact h
  | ok a => exact hf a h

theorem OkE.mono {e : Except Fail α} {P Q : α → Prop} (h : OkE L e P) (hf : ∀ a, P a → Q a) : OkE L e Q := by
  cases e with
  | error => exact h
  | ok a => exact hf a h

theorem OkE.pure {a : α} {Q : α → Prop} (h : Q a) : OkE L (Pure.pure a : Except Fail α) Q := h

theorem nodeError_ok {t : ErrorType} {m : Marker} {Q : α → Prop} (h : LineOk L m) :
    OkE L (nodeError t m : Except Fail α) Q := h

/-! ### Assignment patterns -/

omit [Env] in
/-- a simple target in a target slot -/
theorem targetWF {n : Node} {r : Role} (hr : r = .target ∨ r = .asgElem ∨ r = .forLeft)
    (h : WF L x (.node .expr n)) (hs : SimpleTarget x.strict n) : WF L x (.node r n) := by
  have hf : Fits x.strict r n := by rcases hr with rfl | rfl | rfl <;> exact Or.inl hs
  have hp : (Item.node r n).plain = true := by rcases hr with rfl | rfl | rfl <;> cases hs <;> rfl
  have hp' : (Item.node .expr n).plain = true := by cases hs <;> rfl
  refine WF.plain ⟨hf, (h.loc' hp').2.1, fun _ => (h.loc' hp').2.2.1 rfl, fun _ => ((h.loc' hp').2.2.1 rfl h.exprIs).name⟩ ?_ hp
  have e : nodeParts r n = nodeParts .expr n := by cases hs <;> rfl
  simp only [children, e]
  exact h.kids' hp'

omit [Env] in
theorem WF.exprOk {n : Node} (h : WF L x (.node .expr n)) : ExprOk L (enter x (.node .expr n)) n :=
  h.loc.2.2.1 rfl h.exprIs

omit [Env] in
theorem exprOk_plain {n : Node} (h : WF L x (.node .expr n)) (ha : n.assignTargetType = .simple) :
    SimpleTarget x.strict n := by
  have h1 := (WF.exprOk h).att ha
  have hp : (Item.node .expr n).plain = true := by cases h1 <;> rfl
  rwa [enter_plain hp] at h1

/-- What `toAssignmentPattern n` may return. -/
def AsgQ (L : Nat) (x : Ctx) (n a : Node) : Prop :=
  (isAsgPattern a = true ∧ a.assignTargetType = .simple ∧ WF L x (.node .target a)) ∨ a = n

omit [Env] in
theorem asgPattern_elem {a : Node} (h : isAsgPattern a = true) (hw : WF L x (.node .target a)) :
    WF L x (.node .asgElem a) := by
  cases a <;> simp [isAsgPattern] at h
  · have hl := hw.loc' rfl
    exact WF.plain ⟨Or.inr (Or.inl rfl), hl.2.1, by simp [isExpr], by simp [Role.isRef]⟩ (hw.kids' rfl)
  · have hl := hw.loc' rfl
    exact WF.plain ⟨Or.inr (Or.inl rfl), hl.2.1, by simp [isExpr], by simp [Role.isRef]⟩ (hw.kids' rfl)

theorem exprSpan_ok {n : Node} {t : ErrorType} {Q : α → Prop} (h : ∀ sp, n.exprSpan? = some sp → SpanOk L sp) :
    OkE L (do let sp ← n.exprSpan; nodeError t sp.start) Q := by
  unfold Node.exprSpan
  cases hs : n.exprSpan? with
  | none => exact trivial
  | some sp => exact h sp hs

theorem asAssignmentElement_ok {n : Node} {e : Except Fail Node} (hn : WF L x (.node .expr n))
    (h : OkE L e (AsgQ L x n)) : OkE L (asAssignmentElement e) (fun a => WF L x (.node .asgElem a)) := by
  unfold asAssignmentElement
  refine OkE.bind h ?_
  rintro a (⟨ha, hs, hw⟩ | rfl)
  · cases a <;> simp [isAsgPattern] at ha <;>
    · simp only [hs, ne_eq, not_true, if_false]
      exact OkE.pure (asgPattern_elem rfl hw)
  · split
    · rename_i op l r att sp
      have hk := hn.kids' rfl
      simp only [children, nodeParts, AllWF_cons] at hk
      have hl := hn.loc' rfl
      split
      · split
        · exact nodeError_ok ((hl.2.2.1 rfl rfl).span _ rfl)
        · refine OkE.pure (WF.plain ⟨Or.inr (Or.inr rfl), trivial, by simp [isExpr], by simp [Role.isRef]⟩ ?_)
          simp only [children, nodeParts, AllWF_cons, hk, and_true]
          exact WF.plain (Or.inl rfl) (by simp [children, hk])
      · split
        · exact nodeError_ok ((hl.2.2.1 rfl rfl).span _ rfl)
        · rename_i h'
          simp only [ne_eq, Decidable.not_not] at h'
          cases exprOk_plain hn (by simpa [Node.assignTargetType] using h')
    · split
      · exact exprSpan_ok (WF.exprOk hn).span
      · rename_i h'
        exact OkE.pure (targetWF (Or.inr (Or.inl rfl)) hn (exprOk_plain hn (by simpa using h')))

/-- the binding made of an assignment target -/
theorem simpleTarget_toBinding {n : Node} (hn : WF L x (.node .expr n)) (hs : SimpleTarget x.strict n) :
    OkE L (toBinding n) (fun b => WF L x (.binding .assign b) ∧ ∀ ps sp, b ≠ .objectPattern ps sp) := by
  have ht := targetWF (Or.inl rfl) hn hs
  cases hs with
  | ident h =>
    refine OkE.pure ⟨WF.plain ?_ (by simp [children]), by simp⟩
    exact ((WF.exprOk hn).name _ _ _ rfl).1
  | computed => exact OkE.pure ⟨WF.plain (Or.inl rfl) (by simp [children, ht]), by simp⟩
  | static => exact OkE.pure ⟨WF.plain (Or.inl rfl) (by simp [children, ht]), by simp⟩
  | paren => exact OkE.pure ⟨WF.plain (Or.inl rfl) (by simp [children, ht]), by simp⟩

theorem restArgument_ok {n : Node} {t : ErrorType} {sp : Span} (hn : WF L x (.node .expr n)) (hsp : SpanOk L sp) :
    OkE L (restArgument t n sp) (fun b => WF L x (.binding .assign b) ∧ ∀ ps sp, b ≠ .objectPattern ps sp) := by
  unfold restArgument
  split
  · exact nodeError_ok ((WF.exprOk hn).span _ rfl)
  · exact nodeError_ok ((WF.exprOk hn).span _ rfl)
  · split
    · exact nodeError_ok hsp
    · rename_i h
      exact simpleTarget_toBinding hn (exprOk_plain hn (by simpa using h))

omit [Env] in
theorem restLast_of_none {α : Type} {f : α → Bool} {l : List α} (h : ∀ a ∈ l, f a = false) : RestLast f l := by
  induction l with
  | nil => trivial
  | cons a l ih =>
    cases l with
    | nil => trivial
    | cons b l => exact ⟨h a (by simp), ih fun c hc => h c (List.mem_cons_of_mem _ hc)⟩

omit [Env] in
theorem restLast_cons {α : Type} {f : α → Bool} {a : α} {l : List α} (h : l ≠ [] → f a = false)
    (hl : RestLast f l) : RestLast f (a :: l) := by
  cases l with
  | nil => trivial
  | cons b l => exact ⟨h (by simp), hl⟩

mutual

theorem toAssignmentPattern_ok : ∀ n : Node, WF L x (.node .expr n) → OkE L (toAssignmentPattern n) (AsgQ L x n)
  | .arrayExpression elements att span, hn => by
    rw [toAssignmentPattern]
    refine OkE.bind (arrayToAssignElems_ok elements 0 elements.length (by omega) ?_) ?_
    · simpa [children, nodeParts] using hn.kids' rfl
    · intro es hes
      refine OkE.pure (Or.inl ⟨rfl, rfl, WF.plain ⟨Or.inr rfl, ?_, by simp [isExpr], by simp [Role.isRef]⟩ ?_⟩)
      · exact restLast_of_none fun e he => (hes e he).1
      · simp only [children, nodeParts, AllWF_reduceOption]
        exact fun e he => (hes _ he).2 e rfl
  | .objectExpression properties att span, hn => by
    rw [toAssignmentPattern]
    refine OkE.bind (objectToAssignProps_ok properties 0 (properties.length - 1) (by omega) ?_) ?_
    · simpa [children, nodeParts, AllWF_map] using hn.kids' rfl
    · rintro ps ⟨h1, -, h2⟩
      refine OkE.pure (Or.inl ⟨rfl, rfl, WF.plain ⟨Or.inr rfl, h1, by simp [isExpr], by simp [Role.isRef]⟩ ?_⟩)
      simpa only [children, nodeParts, AllWF_patProps, Role.mode] using h2
  | .arrayPattern .., _ | .arrayAssignmentPattern .., _ | .arrowFunctionExpression .., _ => Or.inr rfl
  | .assignmentExpression .., _ | .assignmentPattern .., _ | .assignmentRestElement .., _ => Or.inr rfl
  | .asyncArrowFunctionExpression .., _ | .asyncFunctionExpression .., _ | .awaitExpression .., _ => Or.inr rfl
  | .binaryExpression .., _ | .bindingIdentifier .., _ | .logicalExpression .., _ | .callExpression .., _ => Or.inr rfl
  | .classExpression .., _ | .computedMemberExpression .., _ | .conditionalExpression .., _ => Or.inr rfl
  | .identifier .., _ | .functionExpression .., _ | .literal .., _ | .newExpression .., _ => Or.inr rfl
  | .objectPattern .., _ | .regexLiteral .., _ | .sequenceExpression .., _ => Or.inr rfl
  | .staticMemberExpression .., _ | .taggedTemplateExpression .., _ | .thisExpression .., _ => Or.inr rfl
  | .unaryExpression .., _ | .updateExpression .., _ | .yieldExpression .., _ => Or.inr rfl
  | .arrowParameterPlaceHolder .., _ | .restElement .., _ | .spreadElement .., _ | .super .., _ => Or.inr rfl
  | .templateLiteral .., _ | .metaProperty .., _ | .asyncFunctionDeclaration .., _ => Or.inr rfl
  | .breakStatement .., _ | .continueStatement .., _ | .debuggerStatement .., _ | .doWhileStatement .., _ => Or.inr rfl
  | .emptyStatement .., _ | .expressionStatement .., _ | .directive .., _ | .forStatement .., _ => Or.inr rfl
  | .forInStatement .., _ | .forOfStatement .., _ | .functionDeclaration .., _ | .ifStatement .., _ => Or.inr rfl
  | .returnStatement .., _ | .switchStatement .., _ | .throwStatement .., _ | .tryStatement .., _ => Or.inr rfl
  | .variableDeclaration .., _ | .whileStatement .., _ | .withStatement .., _ | .blockStatement .., _ => Or.inr rfl
  | .classDeclaration .., _ | .exportAllDeclaration .., _ | .exportDefaultDeclaration .., _ => Or.inr rfl
  | .exportNamedDeclaration .., _ | .importDeclaration .., _ | .importDefaultSpecifier .., _ => Or.inr rfl
  | .importNamespaceSpecifier .., _ | .importSpecifier .., _ | .labeledStatement .., _ => Or.inr rfl
  | .moduleNode .., _ | .program .., _ => Or.inr rfl
termination_by structural n => n

theorem arrayToAssignElems_ok : ∀ (l : List (Option ArrayExpressionElement)) (i last : Nat), i + l.length ≤ last →
    (∀ e, some e ∈ l → WF L x (.arrElem e)) → OkE L (arrayToAssignElems l i last)
      (fun es => ∀ e ∈ es, isAsgRest e = false ∧ ∀ e', e = some e' → WF L x (.arrAsg e'))
  | [], _, _, _, _ => by rw [arrayToAssignElems]; exact OkE.pure (by simp)
  | e :: l, i, last, hi, hw => by
    rw [arrayToAssignElems]
    simp only [List.length_cons] at hi
    refine OkE.bind (arrayToAssignElem_ok e i last (by omega) (fun e' h => hw e' (by simp [h]))) ?_
    intro a ha
    refine OkE.bind (arrayToAssignElems_ok l (i + 1) last (by omega) (fun e' h => hw e' (by simp [h]))) ?_
    intro as has
    refine OkE.pure ?_
    intro b hb
    rcases List.mem_cons.1 hb with rfl | hb
    · exact ha
    · exact has b hb
termination_by structural l => l

theorem arrayToAssignElem_ok : ∀ (e : Option ArrayExpressionElement) (i last : Nat), i < last →
    (∀ e', e = some e' → WF L x (.arrElem e')) → OkE L (arrayToAssignElem e i last)
      (fun e => isAsgRest e = false ∧ ∀ e', e = some e' → WF L x (.arrAsg e'))
  | none, _, _, _, _ => by rw [arrayToAssignElem]; exact OkE.pure ⟨rfl, by simp⟩
  | some e, i, last, hi, hw => by
    rw [arrayToAssignElem]
    refine OkE.bind (arrayToAssignSome_ok e i last hi (hw e rfl)) ?_
    rintro a ⟨h1, h2⟩
    exact OkE.pure ⟨h1, by rintro _ ⟨⟩; exact h2⟩
termination_by structural e => e

theorem arrayToAssignSome_ok : ∀ (e : ArrayExpressionElement) (i last : Nat), i < last →
    WF L x (.arrElem e) → OkE L (arrayToAssignSome e i last)
      (fun e => isAsgRest (some e) = false ∧ WF L x (.arrAsg e))
  | .expression expr, i, last, hi, hw => by
    rw [arrayToAssignSome]
    have hk : WF L x (.node .expr expr) := by simpa [children] using hw.kids' rfl
    refine OkE.bind (asAssignmentElement_ok hk (toAssignmentPattern_ok expr hk)) ?_
    intro a ha
    exact OkE.pure ⟨rfl, WF.plain trivial (by simp [children, ha])⟩
  | .spreadElement a sp, i, last, hi, hw => by
    rw [arrayToAssignSome, if_pos (by omega)]
    exact nodeError_ok (hw.loc' rfl)
termination_by structural e => e

theorem objectToAssignProps_ok : ∀ (l : List ObjectExpressionProperty) (i last : Nat), i + l.length ≤ last + 1 →
    (∀ e ∈ l, WF L x (.prop e)) → OkE L (objectToAssignProps l i last)
      (fun ps => PropsOk ps ∧ ps.length = l.length ∧ ∀ p ∈ ps, WF L x (.patProp .assign p))
  | [], _, _, _, _ => by rw [objectToAssignProps]; exact OkE.pure ⟨trivial, rfl, by simp⟩
  | p :: l, i, last, hi, hw => by
    rw [objectToAssignProps]
    simp only [List.length_cons] at hi
    refine OkE.bind (objectToAssignProp_ok p i last (hw p (by simp))) ?_
    rintro a ⟨ha, hr⟩
    refine OkE.bind (objectToAssignProps_ok l (i + 1) last (by omega) (fun e' h => hw e' (by simp [h]))) ?_
    rintro as ⟨h1, h2, h3⟩
    refine OkE.pure ⟨restLast_cons ?_ h1, by simp [h2], ?_⟩
    · intro hne
      cases h : isPropRest a with
      | false => rfl
      | true =>
        have := hr h
        have : as.length ≠ 0 := by simpa using hne
        omega
    · intro b hb
      rcases List.mem_cons.1 hb with rfl | hb
      · exact ha
      · exact h3 b hb
termination_by structural l => l

theorem objectToAssignProp_ok : ∀ (p : ObjectExpressionProperty) (i last : Nat),
    WF L x (.prop p) → OkE L (objectToAssignProp p i last)
      (fun p => WF L x (.patProp .assign p) ∧ (isPropRest p = true → i = last))
  | .property key computed value kind method shorthand span, i, last, hw => by
    rw [objectToAssignProp]
    have hk := hw.kids' rfl
    simp only [children, AllWF_cons, AllWF_map, Option.mem_toList] at hk
    refine OkE.bind (objectToAssignValue_ok value span (hw.loc' rfl).1 hk.2) ?_
    intro v hv
    refine OkE.pure ⟨WF.plain (fun h => by cases h) ?_, by simp [isPropRest]⟩
    simp only [children, AllWF_cons, AllWF_map, Option.mem_toList]
    exact ⟨hk.1, hv⟩
  | .spreadElement a sp, i, last, hw => by
    rw [objectToAssignProp]
    have hk : WF L x (.node .expr a) := by simpa [children] using hw.kids' rfl
    have hl : SpanOk L sp := hw.loc' rfl
    split
    · exact nodeError_ok hl
    · rename_i h
      refine OkE.bind (restArgument_ok hk hl) ?_
      rintro b ⟨hb, hb'⟩
      exact OkE.pure ⟨WF.plain ⟨by simp, fun _ => hb'⟩ (by simp [children, hb]), fun _ => by simpa using h⟩
termination_by structural p => p

theorem objectToAssignValue_ok : ∀ (v : Option PropertyValue) (sp : Span), SpanOk L sp →
    (∀ v', v = some v' → WF L x (.propVal v')) → OkE L (objectToAssignValue v sp)
      (fun v => ∀ v', v = some v' → WF L x (.patVal .assign v'))
  | none, _, _, _ => by rw [objectToAssignValue]; exact OkE.pure (by simp)
  | some v, sp, hsp, hw => by
    rw [objectToAssignValue]
    exact objectToAssignSome_ok v sp hsp (hw v rfl)
termination_by structural v => v

theorem objectToAssignSome_ok : ∀ (v : PropertyValue) (sp : Span), SpanOk L sp →
    WF L x (.propVal v) → OkE L (objectToAssignSome v sp)
      (fun v => ∀ v', v = some v' → WF L x (.patVal .assign v'))
  | .expression expr, sp, hsp, hw => by
    rw [objectToAssignSome]
    have hk : WF L x (.node .expr expr) := by simpa [children] using hw.kids' rfl
    refine OkE.bind (asAssignmentElement_ok hk (toAssignmentPattern_ok expr hk)) ?_
    intro a ha
    refine OkE.pure ?_
    rintro _ ⟨⟩
    exact WF.plain (Or.inl rfl) (by simp [children, ha])
  | .assignmentPattern .., sp, hsp, hw => nodeError_ok hsp
  | .asyncFunctionExpression .., sp, hsp, hw => nodeError_ok hsp
  | .bindingIdentifier .., sp, hsp, hw => nodeError_ok hsp
  | .bindingPattern .., sp, hsp, hw => nodeError_ok hsp
  | .functionExpression .., sp, hsp, hw => nodeError_ok hsp
termination_by structural v => v

end

/-! ### Arrow parameters -/

/-- What `toBindingPattern n` may return. -/
def BQ (L : Nat) (x : Ctx) (n : Node) : Node → Prop
  | .bindingIdentifier name _ => NameIn x.strict name
  | .arrayPattern es _ _ => ElemsOk es ∧ ∀ e, some e ∈ es → WF L x (.arrPat .arrow e)
  | .objectPattern ps _ _ => PropsOk ps ∧ ∀ p ∈ ps, WF L x (.patProp .arrow p)
  | .assignmentPattern l r _ => (isBinding l = true ∧ BindIn x.strict l) ∧ WF L x (.binding .assign l) ∧ WF L x (.node .expr r)
  | .restElement _ _ => False
  | b => b = n

theorem asStrictBinding_ok {n : Node} {e : Except Fail Node} {m : Marker} (hm : LineOk L m) (h : OkE L e (BQ L x n)) :
    OkE L (asStrictBinding e m) (fun b => (isBinding b = true ∧ BindIn x.strict b) ∧ WF L x (.binding .arrow b)) := by
  unfold asStrictBinding
  refine OkE.bind h ?_
  intro a ha
  split
  · exact OkE.pure ⟨⟨rfl, .id ha⟩, WF.plain ha.1 (by simp [children])⟩
  · exact OkE.pure ⟨⟨rfl, .of rfl⟩, WF.plain ⟨ha.1, by simp⟩ (by simpa [children, Mode.inner] using ha.2)⟩
  · exact OkE.pure ⟨⟨rfl, .of rfl⟩, WF.plain ha.1 (by simpa [children, Mode.inner] using ha.2)⟩
  · exact nodeError_ok hm

/-- the left side of `=` read as the target of a default -/
theorem target_strictBinding {n : Node} {m : Marker} (hm : LineOk L m) (h : WF L x (.node .target n)) :
    OkE L (asStrictBinding (toBindingPattern n) m) (fun b => (isBinding b = true ∧ BindIn x.strict b) ∧ WF L x (.binding .assign b)) := by
  have hf := h.loc.1
  rcases hf with hf | hf
  · cases hf with
    | ident h' =>
      have hn := ((h.loc' rfl).2.2.1 rfl rfl).name _ _ _ rfl
      exact OkE.pure ⟨⟨rfl, .id hn⟩, WF.plain hn.1 (by simp [children])⟩
    | computed => exact nodeError_ok hm
    | static => exact nodeError_ok hm
    | paren => exact nodeError_ok hm
  · cases n <;> simp [isAsgPattern] at hf
    · exact nodeError_ok hm
    · refine OkE.pure ⟨⟨rfl, .of rfl⟩, WF.plain (h.loc' rfl).2.1 ?_⟩
      simpa [children, nodeParts, Role.mode, Mode.inner] using h.kids' rfl

theorem asArrayPatternElement_ok {n : Node} {e : Except Fail Node} {last : Bool} (hn : WF L x (.node .expr n))
    (h : OkE L e (BQ L x n)) : OkE L (asArrayPatternElement e last)
      (fun a => isArrRest (some a) = false ∧ WF L x (.arrPat .arrow a)) := by
  unfold asArrayPatternElement
  refine OkE.bind h ?_
  intro a ha
  split
  · exact OkE.pure ⟨rfl, WF.plain ⟨⟨Or.inr rfl, ha.1.1⟩, ha.1.2⟩ (by simp [children, Mode.left, ha.2])⟩
  · exact OkE.pure ⟨rfl, WF.plain ha (by simp [children])⟩
  · exact OkE.pure ⟨rfl, WF.plain ha.1 (by simpa [children] using ha.2)⟩
  · exact OkE.pure ⟨rfl, WF.plain ha.1 (by simpa [children] using ha.2)⟩
  · exact ha.elim
  · rename_i h1 h2 h3 h4 h5
    have : a = n := by
      cases a <;> first | exact ha | (exact absurd rfl (h1 _ _ _)) | (exact absurd rfl (h2 _ _)) | (exact absurd rfl (h3 _ _ _)) | (exact absurd rfl (h4 _ _ _)) | (exact absurd rfl (h5 _ _))
    subst this
    exact exprSpan_ok (WF.exprOk hn).span

theorem asPropertyValue_ok {n : Node} {e : Except Fail Node} {sp : Span} (hsp : SpanOk L sp)
    (h : OkE L e (BQ L x n)) : OkE L (asPropertyValue e sp)
      (fun v => ∀ v', v = some v' → WF L x (.patVal .arrow v')) := by
  unfold asPropertyValue
  refine OkE.bind h ?_
  intro a ha
  split
  · refine OkE.pure ?_
    rintro _ ⟨⟩
    exact WF.plain ⟨by simp, ha.1.1⟩ (by simp [children, Mode.left, ha.2])
  · refine OkE.pure ?_
    rintro _ ⟨⟩
    exact WF.plain ⟨by simp, ha⟩ (by simp [children])
  · refine OkE.pure ?_
    rintro _ ⟨⟩
    exact WF.plain ⟨by simp, ha.1⟩ (by simpa [children, Mode.inner] using ha.2)
  · refine OkE.pure ?_
    rintro _ ⟨⟩
    exact WF.plain ⟨by simp, ha.1⟩ (by simpa [children, Mode.inner] using ha.2)
  · exact nodeError_ok hsp

mutual

theorem toBindingPattern_ok : ∀ n : Node, WF L x (.node .expr n) → OkE L (toBindingPattern n) (BQ L x n)
  | .identifier name att span, hn => ((hn.loc' rfl).2.2.1 rfl rfl).name _ _ _ rfl
  | .arrayExpression elements att span, hn => by
    rw [toBindingPattern]
    split
    · rename_i h
      simp only [Bool.and_eq_true] at h
      exact h.2
    · refine OkE.bind (arrayToPatternElems_ok elements 0 (elements.length - 1) (by omega) ?_) ?_
      · simpa [children, nodeParts] using hn.kids' rfl
      · rintro es ⟨h1, -, h2⟩
        exact OkE.pure ⟨h1, fun e he => h2 _ he e rfl⟩
  | .objectExpression properties att span, hn => by
    rw [toBindingPattern]
    refine OkE.bind (objectToPatternProps_ok properties 0 (properties.length - 1) (by omega) ?_) ?_
    · simpa [children, nodeParts, AllWF_map] using hn.kids' rfl
    · rintro ps ⟨h1, -, h2⟩
      exact OkE.pure ⟨h1, h2⟩
  | .assignmentExpression operator left right att span, hn => by
    rw [toBindingPattern]
    split
    · have hk := hn.kids' rfl
      simp only [children, nodeParts, AllWF_cons] at hk
      refine OkE.bind (target_strictBinding ((WF.exprOk hn).span _ rfl) hk.1) ?_
      rintro b ⟨h1, h2⟩
      exact OkE.pure ⟨h1, h2, hk.2.1⟩
    · exact OkE.pure rfl
  | .arrayPattern .., hn | .assignmentPattern .., hn | .objectPattern .., hn | .restElement .., hn
  | .spreadElement .., hn | .bindingIdentifier .., hn => absurd hn.exprIs (by simp [isExpr])
  | .arrayAssignmentPattern .., _ | .arrowFunctionExpression .., _ => rfl
  | .assignmentRestElement .., _ => rfl
  | .asyncArrowFunctionExpression .., _ | .asyncFunctionExpression .., _ | .awaitExpression .., _ => rfl
  | .binaryExpression .., _ | .logicalExpression .., _ | .callExpression .., _ => rfl
  | .classExpression .., _ | .computedMemberExpression .., _ | .conditionalExpression .., _ => rfl
  | .functionExpression .., _ | .literal .., _ | .newExpression .., _ => rfl
  | .regexLiteral .., _ | .sequenceExpression .., _ => rfl
  | .staticMemberExpression .., _ | .taggedTemplateExpression .., _ | .thisExpression .., _ => rfl
  | .unaryExpression .., _ | .updateExpression .., _ | .yieldExpression .., _ => rfl
  | .arrowParameterPlaceHolder .., _ | .super .., _ => rfl
  | .templateLiteral .., _ | .metaProperty .., _ | .asyncFunctionDeclaration .., _ => rfl
  | .breakStatement .., _ | .continueStatement .., _ | .debuggerStatement .., _ | .doWhileStatement .., _ => rfl
  | .emptyStatement .., _ | .expressionStatement .., _ | .directive .., _ | .forStatement .., _ => rfl
  | .forInStatement .., _ | .forOfStatement .., _ | .functionDeclaration .., _ | .ifStatement .., _ => rfl
  | .returnStatement .., _ | .switchStatement .., _ | .throwStatement .., _ | .tryStatement .., _ => rfl
  | .variableDeclaration .., _ | .whileStatement .., _ | .withStatement .., _ | .blockStatement .., _ => rfl
  | .classDeclaration .., _ | .exportAllDeclaration .., _ | .exportDefaultDeclaration .., _ => rfl
  | .exportNamedDeclaration .., _ | .importDeclaration .., _ | .importDefaultSpecifier .., _ => rfl
  | .importNamespaceSpecifier .., _ | .importSpecifier .., _ | .labeledStatement .., _ => rfl
  | .moduleNode .., _ | .program .., _ => rfl
termination_by structural n => n

theorem arrayToPatternElems_ok : ∀ (l : List (Option ArrayExpressionElement)) (i last : Nat), i + l.length ≤ last + 1 →
    (∀ e, some e ∈ l → WF L x (.arrElem e)) → OkE L (arrayToPatternElems l i last)
      (fun es => ElemsOk es ∧ es.length = l.length ∧ ∀ e ∈ es, ∀ e', e = some e' → WF L x (.arrPat .arrow e'))
  | [], _, _, _, _ => by rw [arrayToPatternElems]; exact OkE.pure ⟨trivial, rfl, by simp⟩
  | e :: l, i, last, hi, hw => by
    rw [arrayToPatternElems]
    simp only [List.length_cons] at hi
    refine OkE.bind (arrayToPatternElem_ok e i last (fun e' h => hw e' (by simp [h]))) ?_
    rintro a ⟨hr, ha⟩
    refine OkE.bind (arrayToPatternElems_ok l (i + 1) last (by omega) (fun e' h => hw e' (by simp [h]))) ?_
    rintro as ⟨h1, h2, h3⟩
    refine OkE.pure ⟨restLast_cons ?_ h1, by simp [h2], ?_⟩
    · intro hne
      cases h : isArrRest a with
      | false => rfl
      | true =>
        have := hr h
        have : as.length ≠ 0 := by simpa using hne
        omega
    · intro b hb
      rcases List.mem_cons.1 hb with rfl | hb
      · exact ha
      · exact h3 b hb
termination_by structural l => l

theorem arrayToPatternElem_ok : ∀ (e : Option ArrayExpressionElement) (i last : Nat),
    (∀ e', e = some e' → WF L x (.arrElem e')) → OkE L (arrayToPatternElem e i last)
      (fun e => (isArrRest e = true → i = last) ∧ ∀ e', e = some e' → WF L x (.arrPat .arrow e'))
  | none, _, _, _ => by rw [arrayToPatternElem]; exact OkE.pure ⟨by simp [isArrRest], by simp⟩
  | some e, i, last, hw => by
    rw [arrayToPatternElem]
    refine OkE.bind (arrayToPatternSome_ok e i last (hw e rfl)) ?_
    rintro a ⟨h1, h2⟩
    exact OkE.pure ⟨h1, by rintro _ ⟨⟩; exact h2⟩
termination_by structural e => e

theorem arrayToPatternSome_ok : ∀ (e : ArrayExpressionElement) (i last : Nat),
    WF L x (.arrElem e) → OkE L (arrayToPatternSome e i last)
      (fun e => (isArrRest (some e) = true → i = last) ∧ WF L x (.arrPat .arrow e))
  | .expression expr, i, last, hw => by
    rw [arrayToPatternSome]
    have hk : WF L x (.node .expr expr) := by simpa [children] using hw.kids' rfl
    refine (asArrayPatternElement_ok hk (toBindingPattern_ok expr hk)).mono ?_
    rintro a ⟨h1, h2⟩
    exact ⟨by simp [h1], h2⟩
  | .spreadElement a sp, i, last, hw => by
    rw [arrayToPatternSome]
    have hk : WF L x (.node .expr a) := by simpa [children] using hw.kids' rfl
    have hl : SpanOk L sp := hw.loc' rfl
    split
    · exact nodeError_ok hl
    · rename_i h
      refine OkE.bind (asStrictBinding_ok hl (toBindingPattern_ok a hk)) ?_
      rintro b ⟨h1, h2⟩
      exact OkE.pure ⟨fun _ => by simpa using h, WF.plain h1 (by simp [children, h2])⟩
termination_by structural e => e

theorem objectToPatternProps_ok : ∀ (l : List ObjectExpressionProperty) (i last : Nat), i + l.length ≤ last + 1 →
    (∀ e ∈ l, WF L x (.prop e)) → OkE L (objectToPatternProps l i last)
      (fun ps => PropsOk ps ∧ ps.length = l.length ∧ ∀ p ∈ ps, WF L x (.patProp .arrow p))
  | [], _, _, _, _ => by rw [objectToPatternProps]; exact OkE.pure ⟨trivial, rfl, by simp⟩
  | p :: l, i, last, hi, hw => by
    rw [objectToPatternProps]
    simp only [List.length_cons] at hi
    refine OkE.bind (objectToPatternProp_ok p i last (hw p (by simp))) ?_
    rintro a ⟨ha, hr⟩
    refine OkE.bind (objectToPatternProps_ok l (i + 1) last (by omega) (fun e' h => hw e' (by simp [h]))) ?_
    rintro as ⟨h1, h2, h3⟩
    refine OkE.pure ⟨restLast_cons ?_ h1, by simp [h2], ?_⟩
    · intro hne
      cases h : isPropRest a with
      | false => rfl
      | true =>
        have := hr h
        have : as.length ≠ 0 := by simpa using hne
        omega
    · intro b hb
      rcases List.mem_cons.1 hb with rfl | hb
      · exact ha
      · exact h3 b hb
termination_by structural l => l

theorem objectToPatternProp_ok : ∀ (p : ObjectExpressionProperty) (i last : Nat),
    WF L x (.prop p) → OkE L (objectToPatternProp p i last)
      (fun p => WF L x (.patProp .arrow p) ∧ (isPropRest p = true → i = last))
  | .property key computed value kind method shorthand span, i, last, hw => by
    rw [objectToPatternProp]
    have hk := hw.kids' rfl
    simp only [children, AllWF_cons, AllWF_map, Option.mem_toList] at hk
    refine OkE.bind (objectToPatternValue_ok value span (hw.loc' rfl).1 hk.2) ?_
    intro v hv
    refine OkE.pure ⟨WF.plain (fun h => by cases h) ?_, by simp [isPropRest]⟩
    simp only [children, AllWF_cons, AllWF_map, Option.mem_toList]
    exact ⟨hk.1, hv⟩
  | .spreadElement a sp, i, last, hw => by
    rw [objectToPatternProp]
    have hk : WF L x (.node .expr a) := by simpa [children] using hw.kids' rfl
    have hl : SpanOk L sp := hw.loc' rfl
    split
    · rename_i h
      refine OkE.bind (asStrictBinding_ok hl (toBindingPattern_ok a hk)) ?_
      rintro b ⟨h1, h2⟩
      exact OkE.pure ⟨WF.plain ⟨fun _ => h1, by simp⟩ (by simp [children, h2]), fun _ => h⟩
    · exact nodeError_ok hl
termination_by structural p => p

theorem objectToPatternValue_ok : ∀ (v : Option PropertyValue) (sp : Span), SpanOk L sp →
    (∀ v', v = some v' → WF L x (.propVal v')) → OkE L (objectToPatternValue v sp)
      (fun v => ∀ v', v = some v' → WF L x (.patVal .arrow v'))
  | none, _, _, _ => by rw [objectToPatternValue]; exact OkE.pure (by simp)
  | some v, sp, hsp, hw => by
    rw [objectToPatternValue]
    exact objectToPatternSome_ok v sp hsp (hw v rfl)
termination_by structural v => v

theorem objectToPatternSome_ok : ∀ (v : PropertyValue) (sp : Span), SpanOk L sp →
    WF L x (.propVal v) → OkE L (objectToPatternSome v sp)
      (fun v => ∀ v', v = some v' → WF L x (.patVal .arrow v'))
  | .expression expr, sp, hsp, hw => by
    rw [objectToPatternSome]
    have hk : WF L x (.node .expr expr) := by simpa [children] using hw.kids' rfl
    exact asPropertyValue_ok hsp (toBindingPattern_ok expr hk)
  | .assignmentPattern .., sp, hsp, hw => nodeError_ok hsp
  | .asyncFunctionExpression .., sp, hsp, hw => nodeError_ok hsp
  | .bindingIdentifier .., sp, hsp, hw => nodeError_ok hsp
  | .bindingPattern .., sp, hsp, hw => nodeError_ok hsp
  | .functionExpression .., sp, hsp, hw => nodeError_ok hsp
termination_by structural v => v

end

end Parser
end Giron

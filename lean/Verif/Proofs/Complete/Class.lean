import Verif.Proofs.Complete.Patterns
/-
Grammar completeness: classes.
-/
namespace Giron.Complete
open Giron M Spec Grammar Parser
variable [Env]
variable {α β : Type} {c c' : Ctx} {ps : List Giron.Params} {k : Nat} {w nx : Word} {ws rest l l' : List Word} {s : Parser}
  {v : Str} {n : Bool} {r : Rec} {t : Node}

theorem classKey_begins {comp : Bool} (h : ClassKey c ws t comp) :
    Begins (fun x => (∃ v, x = .name v ∧ (∃ n, ws = [W v n]) ∧ wordy v = true) ∨ x = .punct .lBracket) ws := by
  cases h with
  | name h => exact .cons (.inl ⟨_, rfl, ⟨_, rfl⟩, h.wordy⟩)
  | computed _ => exact .cons (.inr rfl)

theorem classKey_fits {comp : Bool} (h : ClassKey c ws t comp) : Begins (fun x => x.fits .regExp = true) ws :=
  (classKey_begins h).mono (by rintro x (⟨v, rfl, -, -⟩ | rfl) <;> rfl)

theorem parsePropertyName_ok (hr : RecOk r) {comp : Bool} (hk : ClassKey c ws t comp) :
    Reads (parsePropertyName r) (fun p => (bareNode p.1.asNode, methodKind p.1, p.2)) c 0 0 ws
      (t, if comp then cs!"method" else memberKind t, comp) (fun nx => nx.c = .punct .lParen) := by
  rintro ps k ⟨_, n⟩ rest s rfl h
  unfold parsePropertyName
  cases hk with
  | name hv =>
    nm! h
    lk! h ht
    refine ok_then (by rw [ht.isIdOrKw]; exact hv.wordy) ?_
    sp! h
    rd! (parseIdName_ok h hv rfl) with x h
    es! h
    exact pure_ok ⟨rfl, h⟩
  | computed ha =>
    nm! h
    lk! h ht
    refine ok_else (by tk ht) (ok_else (by tk ht) (ok_then (by tk ht) ?_))
    refine Sat.bind (P := fun x s' => bareNode x.asNode = t ∧ methodKind x = cs!"method" ∧ St c ps k (⟨.punct .lParen, n⟩ :: rest) s') ?_ ?_
    rotate_left
    · rintro x _ ⟨rfl, e, h⟩
      exact pure_ok ⟨by simp [e], h⟩
    · unfold parseComputedPropertyName
      eat! h (assign_fits ha).append.fits
      rd! (init_ok hr ha _ _ _ _ _ (.punct _ (by decide)) h) with a h
      eat! h rfl
      exact pure_ok ⟨rfl, rfl, h⟩

theorem member_begins {m : Option MethodDefinition} (h : Member c ws m) :
    Begins (fun x => x.fits .regExp = true ∧ isP x .rBrace = false) ws := by
  cases h with
  | semi => exact .cons ⟨rfl, rfl⟩
  | method h _ _ _ => exact (classKey_begins h).append.mono (by rintro x (⟨v, rfl, -, -⟩ | rfl) <;> exact ⟨rfl, rfl⟩)
  | generator _ _ _ => exact .cons ⟨rfl, rfl⟩
  | getter _ _ => exact .cons ⟨rfl, rfl⟩
  | setter _ _ _ => exact .cons ⟨rfl, rfl⟩

/-- A key and what follows it. -/
theorem key_params_body (hr : RecOk r) {comp y a : Bool} {w ws ws' : List Word} {es : List FunctionParameter} {b : Node}
    {f : PropertyKey × Bool → List FunctionParameter × Node → MethodDefinition} {m : MethodDefinition}
    (hk : ClassKey c w t comp)
    (hp : Grammar.Params { c with yld := y, awt := a } ws es) (hb : Body { c with yld := y, awt := a, ret := true } ws' b)
    (hf : ∀ (key : PropertyKey) (xs : List FunctionParameter) (b' : Node), bareNode key.asNode = t → methodKind key = (if comp then cs!"method" else memberKind t) →
      xs.map bareFunctionParameter = es → bareNode b' = b → bareMethodDefinition (f (key, comp) (xs, b')) = m)
    (h : St c ps k (w ++ (ws ++ (ws' ++ nx :: rest))) s) :
    Ok (parsePropertyName r >>= fun p => parseParamsAndBody r y a >>= fun q => pure (f p q)) s
      (fun x s' => bareMethodDefinition x = m ∧ St c ps k (nx :: rest) s') := by
  obtain ⟨⟨x, j⟩, w', e, rfl⟩ := params_begins hp
  have hl : ws ++ (ws' ++ nx :: rest) = ⟨.punct .lParen, j⟩ :: (w' ++ (ws' ++ nx :: rest)) := by rw [e]; rfl
  rw [hl] at h
  refine Sat.bind (parsePropertyName_ok hr hk _ _ _ _ _ rfl h) ?_
  rintro ⟨key, comp'⟩ _ ⟨e1, h⟩
  simp only [Prod.mk.injEq] at e1
  obtain ⟨e1, e2, rfl⟩ := e1
  rw [← hl, ← List.append_assoc] at h
  refine Sat.bind (parseParamsAndBody_ok hr hp hb _ _ _ _ _ trivial h) ?_
  rintro ⟨xs, b'⟩ _ ⟨e3, h⟩
  simp only [Prod.mk.injEq] at e3
  exact pure_ok ⟨hf _ _ _ e1 e2 e3.1 e3.2, h⟩

theorem classItem_ok (hr : RecOk r) {m : Option MethodDefinition} (hm : Member c ws m) :
    Reads (classItem r) (Option.map bareMethodDefinition) c 0 0 ws m (fun nx => nx.c.fits .regExp = true) := by
  intro ps k nx rest s hnx h
  unfold classItem
  have fin : ∀ {p : PM MethodDefinition} {m s}, Ok p s (fun a s' => bareMethodDefinition a = m ∧ St c ps k (nx :: rest) s') →
      Ok (p >>= fun a => pure (some a)) s (fun a s' => a.map bareMethodDefinition = some m ∧ St c ps k (nx :: rest) s') := by
    intro p m s hp
    refine Sat.bind hp ?_
    rintro a _ ⟨ea, h⟩
    exact pure_ok ⟨by simp [ea], h⟩
  have stat : ∀ {w : Word} {t : Token} {s m} {f : Bool → PM (Option MethodDefinition)}, Tok w t →
      Ok (f false) s (fun a s' => a.map bareMethodDefinition = m ∧ St c ps k (nx :: rest) s') →
      Ok ((if t.isKw cs!"static" then (do
        let _ ← advance .regExp
        pure true) else pure false) >>= f) s (fun a s' => a.map bareMethodDefinition = m ∧ St c ps k (nx :: rest) s') := by
    intro w t s m f ht hf
    have : isKw w.c cs!"static" = false := by
      obtain ⟨x, n⟩ := w
      cases x <;> simp only [isKw]
      rename_i u
      by_cases hu : u = cs!"static"
      · subst hu; rfl
      · simp [hu]
    refine Sat.bind (P := fun a s' => a = false ∧ s' = s) (ok_else (by rw [ht.isKw, this]; simp) (pure_ok ⟨rfl, rfl⟩)) ?_
    rintro _ _ ⟨rfl, rfl⟩
    exact hf
  cases hm with
  | semi =>
    nm! h
    lk! h ht
    refine ok_then (by tk ht) ?_
    ad! h ht hnx
    exact pure_ok ⟨rfl, h⟩
  | @method _ w key comp ws pars ws' b hk hne hp hb =>
    nm! h
    refine get_ok ?_
    obtain ⟨⟨x, j⟩, w', e, hx⟩ := classKey_begins hk
    have h1 := h
    rw [e] at h1
    have ht := h1.tok
    refine ok_else ?_ (stat ht ?_)
    · rcases hx with ⟨v, rfl, -, -⟩ | rfl <;> tk ht
    · refine get_ok ?_
      refine fin ?_
      have hx' : isId x cs!"get" = false ∧ isId x cs!"set" = false ∧ isId x cs!"async" = false ∧ isP x .star = false := by
        rcases hx with ⟨v, rfl, ⟨n, rfl⟩, hw⟩ | rfl
        · have := hne v n rfl
          simp only [List.mem_cons, List.not_mem_nil, or_false, not_or] at this
          simp [isId, isP, this]
        · exact ⟨rfl, rfl, rfl, rfl⟩
      refine ok_else (by rw [ht.isId, hx'.1]; simp) (ok_else (by rw [ht.isId, hx'.2.1]; simp)
        (ok_else (by rw [ht.isId, hx'.2.2.1]; simp) (ok_else (by rw [ht.isP, hx'.2.2.2]; simp) ?_)))
      unfold classMethod
      refine key_params_body hr hk hp hb (f := fun p q => .mk p.1.asNode p.2 (some (.mk none q.1 q.2 false false false)) (methodKind p.1) false) ?_ h
      intro key xs b' e1 e2 e3 e4
      simp [bareMethodDefinition, bareOptFnExpr, bareFnExpr, bareListFunctionParameter_eq, e1, e2, e3, e4, bareOptNode]
  | generator hk hp hb =>
    nm! h
    lk! h ht
    refine ok_else (by tk ht) (stat ht ?_)
    lk! h ht
    refine fin ?_
    refine ok_else (by tk ht) (ok_else (by tk ht) (ok_else (by tk ht) (ok_then (by tk ht) ?_)))
    unfold classGenerator
    ad! h ht (classKey_fits hk).append.fits
    refine key_params_body hr hk hp hb (f := fun p q => .mk p.1.asNode p.2 (some (.mk none q.1 q.2 true false false)) cs!"method" false) ?_ h
    intro key xs b' e1 e2 e3 e4
    simp [bareMethodDefinition, bareOptFnExpr, bareFnExpr, bareListFunctionParameter_eq, e1, e3, e4, bareOptNode]
  | setter hk hp hb =>
    nm! h
    lk! h ht
    refine ok_else (by tk ht) (stat ht ?_)
    lk! h ht
    refine fin ?_
    refine ok_else (by tk ht) (ok_then (by tk ht) ?_)
    unfold classSetter
    ad! h ht (classKey_fits hk).append.fits
    refine key_params_body hr hk hp hb (f := fun p q => .mk p.1.asNode p.2 (some (.mk none q.1 q.2 false false false)) cs!"set" false) ?_ h
    intro key xs b' e1 e2 e3 e4
    simp [bareMethodDefinition, bareOptFnExpr, bareFnExpr, bareListFunctionParameter_eq, e1, e3, e4, bareOptNode]
  | getter hk hb =>
    nm! h
    lk! h ht
    refine ok_else (by tk ht) (stat ht ?_)
    lk! h ht
    refine fin ?_
    refine ok_then (by tk ht) ?_
    unfold classGetter
    ad! h ht (classKey_fits hk).append.fits
    refine Sat.bind (parsePropertyName_ok hr hk _ _ _ _ _ rfl h) ?_
    clear h
    rintro ⟨key, comp'⟩ _ ⟨e1, h⟩
    simp only [Prod.mk.injEq] at e1
    obtain ⟨e1, e2, rfl⟩ := e1
    eat! h rfl
    eat! h (body_fits hb).append.fits
    rde! (withYieldAwait_ok (fun ps s h' => parseFunctionBody_ok hr hb ps k nx rest s trivial h') h) with b eb h
    refine pure_ok ⟨?_, h⟩
    simp [bareMethodDefinition, bareOptFnExpr, bareFnExpr, bareListFunctionParameter, e1, eb, bareOptNode]

theorem members_fits {ms : List (Option MethodDefinition)} (h : Star Member c ws ms) :
    FitsAt .regExp (ws ++ P .rBrace n :: rest) := by
  cases h with
  | nil => exact rfl
  | cons hm _ => exact ((member_begins hm).append.append.mono fun _ h => h.1).fits

theorem untilPuncF_members (hr : RecOk r) (m : Nat) :
    ∀ {ws ms s}, Star Member c ws ms → St c ps k (ws ++ P .rBrace n :: rest) s →
    Ok (untilPuncF .rBrace (classItem r) m) s
      (fun xs s' => xs.map (Option.map bareMethodDefinition) = ms ∧ St c ps k (P .rBrace n :: rest) s') := by
  induction m with
  | zero => intro _ _ _ _ _; exact rfl
  | succ m ih =>
    intro ws ms s hl h
    unfold untilPuncF
    cases hl with
    | nil =>
      lk! h ht
      exact ok_then (by tk ht) (pure_ok ⟨rfl, h⟩)
    | @cons _ w ws a as hm hl =>
      obtain ⟨x, w', e, hx⟩ := member_begins hm
      nm! h
      refine get_ok ?_
      have h1 := h
      rw [e] at h1
      have ht := h1.tok
      refine ok_else (by rw [ht.isP, hx.2]; simp) ?_
      have hf := members_fits (n := n) (rest := rest) hl
      obtain ⟨y, l, e'⟩ : ∃ y l, ws ++ P .rBrace n :: rest = y :: l := by
        cases ws with
        | nil => exact ⟨_, _, rfl⟩
        | cons y l => exact ⟨y, _, rfl⟩
      rw [e'] at h hf
      rde! (classItem_ok hr hm _ _ _ _ _ hf h) with a ea h
      rw [← e'] at h
      rde! (ih hl h) with xs exs h
      exact pure_ok ⟨by simp [ea, exs], h⟩

theorem filterMap_members (xs : List (Option MethodDefinition)) :
    (xs.filterMap id).map bareMethodDefinition = (xs.map (Option.map bareMethodDefinition)).filterMap id := by
  induction xs with
  | nil => rfl
  | cons x xs ih => cases x <;> simp_all

theorem parseClassBody_ok (hr : RecOk r) {ms : List (Option MethodDefinition)} (hl : Star Member c ws ms)
    (h : St c ps k (ws ++ P .rBrace n :: rest) s) :
    Ok (parseClassBody r) s (fun xs s' => xs.map bareMethodDefinition = ms.filterMap id ∧ St c ps k (P .rBrace n :: rest) s') := by
  unfold parseClassBody
  refine Sat.bind (P := fun xs s' => xs.map (Option.map bareMethodDefinition) = ms ∧ St c ps k (P .rBrace n :: rest) s')
    (untilPuncF_members hr _ hl h) ?_
  rintro xs _ ⟨rfl, h⟩
  exact pure_ok ⟨filterMap_members xs, h⟩

/-- A class after its name. -/
theorem parseClassTail_ok (hr : RecOk r) {w : List Word} {hd : Option Node} {ms : List (Option MethodDefinition)} {id' : Option Node} {m k' : Bool}
    (hh : Heritage c w hd) (hl : Star Member c ws ms)
    (h : St c ps (k + 1) (w ++ (P .lBrace m :: (ws ++ (P .rBrace k' :: nx :: rest)))) s) :
    Ok (parseClassTail r id') s (fun x s' => bareNode x = .classDeclaration (bareOptNode id') hd (ms.filterMap id) sp ∧
      St c ps k (nx :: rest) s') := by
  unfold parseClassTail
  refine get_ok ?_
  refine Sat.bind (P := fun x s' => bareOptNode x = hd ∧ St c ps (k + 1) (P .lBrace m :: (ws ++ (P .rBrace k' :: nx :: rest))) s') ?_ ?_
  · cases hh with
    | none =>
      have ht := h.tok
      exact ok_else (by tk ht) (pure_ok ⟨rfl, h⟩)
    | «extends» hlhs =>
      nm! h
      have ht := h.tok
      refine ok_then (by tk ht) ?_
      ad! h ht ((lhs_begins hlhs).append.mono fun _ h => startsExpr_fits h.start).fits
      rd! (hr.lhs hlhs _ _ _ _ _ (SAssign.punct (inn := true) _ (by decide)).toSCall h) with a h
      exact pure_ok ⟨rfl, h⟩
  · clear h
    rintro x _ ⟨rfl, h⟩
    eat! h (members_fits hl)
    rde! (parseClassBody_ok hr hl h) with xs exs h
    eat! h (fits_rBrace h.clash2)
    es! h
    refine pure_ok ⟨?_, h⟩
    simp [bareNode, bareListMethodDefinition_eq, exs]

theorem heritage_fits {w : List Word} {hd : Option Node} {m : Bool} (h : Heritage c w hd) : FitsAt .div (w ++ P .lBrace m :: rest) := by
  cases h <;> exact rfl

theorem St.setStrict {b : Bool} (h : St c ps k l s) :
    St { c with strict := b } ps k l { s with ctx := { s.ctx with strict := b } } :=
  ⟨rfl, h.loop, h.switch, ⟨h.params.1, h.params.2, h.params.3, h.params.4, h.params.5⟩, h.stack, h.markers, h.here, h.clash⟩

theorem parseBindingId_ok' (hv : Bindable c v) (h : St c ps k (W v n :: l) s) (hl : FitsAt .div l) :
    Ok parseBindingId s (fun a s' => bareBinding a = .bindingIdentifier v sp ∧ St c ps k l s') := by
  cases l with
  | nil => exact hl.elim
  | cons x l => exact parseBindingId_ok hv _ _ _ _ _ hl h

/-- Class declarations. -/
theorem parseClassDclr_ok (hr : RecOk r) (hc : Class { c with strict := true } ws t) :
    Reads (parseClassDclr r) bareNode c 0 0 (W cs!"class" n :: ws) t (fun _ => True) := by
  intro ps k nx rest s hnx h
  cases hc with
  | @mk _ v w hd ws ms j m k' hv hh hl =>
    unfold parseClassDclr
    nm! h
    refine get_ok ?_
    have hs := h.strict
    refine Sat.bind (P := fun _ s' => St { c with strict := true } ps k _ s') (Sat.modify h.setStrict) ?_
    clear h
    rintro _ _ h
    sp! h
    kw! h rfl
    rde! (parseBindingId_ok' hv h (heritage_fits hh)) with x e h
    cases x <;> simp [bareBinding] at e
    subst e
    refine Sat.bind (P := fun a s' => a = _ ∧ St { c with strict := true } ps (k + 1) _ s') (pure_ok ⟨rfl, h⟩) ?_
    clear h
    rintro _ _ ⟨rfl, h⟩
    rde! (parseClassTail_ok hr hh hl h) with x e h
    refine Sat.bind (P := fun _ s' => St c ps k (nx :: rest) s') (Sat.modify ?_) ?_
    · rw [hs]; exact h.setStrict
    clear h
    rintro _ _ h
    exact pure_ok ⟨e, h⟩

/-- Class expressions. -/
theorem parseClassExpr_ok (hr : RecOk r) (hc : Class { c with strict := true } ws t) :
    Reads (parseClassExpr r) bareNode c 0 0 (W cs!"class" n :: ws) t (fun _ => True) := by
  intro ps k nx rest s hnx h
  cases hc with
  | @mk _ v w hd ws ms j m k' hv hh hl =>
    unfold parseClassExpr
    nm! h
    refine get_ok ?_
    have hs := h.strict
    refine Sat.bind (P := fun _ s' => St { c with strict := true } ps k _ s') (Sat.modify h.setStrict) ?_
    clear h
    rintro _ _ h
    sp! h
    kw! h rfl
    refine get_ok ?_
    have ht := h.tok
    refine Sat.bind (P := fun a s' => a.map bareNode = some (.bindingIdentifier v sp) ∧
      St { c with strict := true } ps (k + 1) (w ++ P .lBrace m :: (ws ++ (P .rBrace k' :: nx :: rest))) s')
      (ok_then (by rw [ht.isIdOrKw]; exact hv.wordy) ?_) ?_
    · rde! (parseBindingId_ok' hv h (heritage_fits hh)) with x e h
      cases x <;> simp [bareBinding] at e
      subst e
      exact ⟨rfl, h⟩
    · clear h
      rintro id' _ ⟨eid, h⟩
      rde! (parseClassTail_ok hr hh hl h) with x e h
      refine Sat.bind (P := fun _ s' => St c ps k (nx :: rest) s') (Sat.modify ?_) ?_
      · rw [hs]; exact h.setStrict
      clear h
      rintro _ _ h
      refine pure_ok ⟨?_, h⟩
      rw [e, bareOptNode_eq, eid]

end Giron.Complete

import Verif.Proofs.Complete.Names
import Verif.Proofs.Lex.Escapes
/-
Grammar completeness: binding patterns and parameters.
-/
namespace Giron.Complete
open Giron M Spec Grammar Parser
variable [Env]
variable {α β : Type} {c c' : Ctx} {ps : List Params} {k : Nat} {w nx : Word} {ws rest l l' : List Word} {s : Parser}
  {v : Str} {n : Bool} {r : Rec} {b : Binding}

/-- Closing brackets. -/
abbrev IsClose (p : Punctuator) : Prop := p = .rBracket ∨ p = .rBrace ∨ p = .rParen

theorem IsSep.pat {close : Punctuator} (hc : IsClose close) (h : IsSep close nx) : SPat nx := by
  obtain ⟨n, rfl | rfl⟩ := h
  · exact ⟨rfl, rfl⟩
  · rcases hc with rfl | rfl | rfl <;> exact ⟨rfl, rfl⟩

theorem IsSep.assign {close : Punctuator} {inn : Bool} (hc : IsClose close) (h : IsSep close nx) : SAssign inn nx := by
  obtain ⟨n, rfl | rfl⟩ := h
  · exact .punct _ (by decide)
  · rcases hc with rfl | rfl | rfl <;> exact .punct _ (by decide)

theorem IsSep.isP {close p : Punctuator} (h : IsSep close nx) (hc : p ≠ close := by decide) (hp : p ≠ .comma := by decide) :
    isP nx.c p = false := by
  obtain ⟨n, rfl | rfl⟩ := h
  · simp [Complete.isP, Ne.symm hp]
  · simp [Complete.isP, Ne.symm hc]

theorem pat_begins (h : Pat c ws b) : Begins (fun x => (∃ v, x = .name v ∧ wordy v = true) ∨ x = .punct .lBracket ∨ x = .punct .lBrace) ws := by
  cases h with
  | name h => exact .cons (.inl ⟨_, rfl, h.wordy⟩)
  | array _ => exact .cons (.inr (.inl rfl))
  | object _ => exact .cons (.inr (.inr rfl))

theorem pat_item {close : Punctuator} (hc : IsClose close) (h : Pat c ws b) : Begins (ItemStart' close) ws := by
  refine (pat_begins h).mono ?_
  rintro x (⟨v, rfl, -⟩ | rfl | rfl)
  · exact ⟨⟨rfl, rfl, rfl⟩, rfl⟩
  · rcases hc with rfl | rfl | rfl <;> exact ⟨⟨rfl, rfl, rfl⟩, rfl⟩
  · rcases hc with rfl | rfl | rfl <;> exact ⟨⟨rfl, rfl, rfl⟩, rfl⟩

theorem pat_fits (g : LexGoal) (h : Pat c ws b) : Begins (fun x => x.fits g = true) ws := by
  refine (pat_begins h).mono ?_
  rintro x (⟨v, rfl, -⟩ | rfl | rfl) <;> cases g <;> rfl

theorem assign_fits {t : Node} (h : Assign c ws t) : Begins (fun x => x.fits .regExp = true) ws :=
  (assign_begins h).mono fun _ => startsExpr_fits

/-- An initialiser. -/
theorem init_ok (hr : RecOk r) {t : Node} (h : Assign { c with inn := true } ws t) :
    Reads (withIn true r.assignmentExpr) bareNode c 0 0 ws t (SAssign true) := by
  intro ps k nx rest s hnx hs
  exact withIn_ok (fun ps s h' => hr.assign h ps k nx rest s hnx h') hs

/-! ### Array patterns -/

theorem patElem_begins {e : ArrayPatternElement} {close : Punctuator} (hc : IsClose close) (h : PatElem c ws e) :
    Begins (ItemStart' close) ws := by
  cases h with
  | name h => exact pat_item hc (.name h)
  | array h => exact pat_item hc h
  | object h => exact pat_item hc h
  | default h _ => exact (pat_item hc h).append

/-- How an item that begins with a pattern looks: the pattern alone, or with an initialiser. -/
theorem not_start {x : Content} (h : ItemStart' .rBracket x) {t : Token} (ht : Tok ⟨x, n⟩ t) :
    ¬ t.isP .comma = true ∧ ¬ t.isP .ellipsis = true := by
  rw [ht.isP, ht.isP, h.1.2.2, h.2]; simp

theorem begins_tok {Q : Content → Prop} {k : Nat} (hb : Begins Q ws) (h : St c ps k (ws ++ l) s) : ∃ w, Q w.c ∧ Tok w s.current := by
  obtain ⟨w, ws', rfl, hq⟩ := hb
  exact ⟨w, hq, h.tok⟩

theorem bindingToElement_ok {e : ArrayPatternElement} {x y : Nat} {b : Binding}
    (he : (∃ v, e = .bindingIdentifier v ∧ bareBinding b = .bindingIdentifier v sp) ∨
      (∃ es, e = .arrayPattern es ∧ bareBinding b = .arrayPattern es sp) ∨
      (∃ es, e = .objectPattern es ∧ bareBinding b = .objectPattern es sp)) (h : St c ps k l s) :
    Ok (bindingToElement x y b) s (fun a s' => bareArrayPatternElement a = e ∧ St c ps k l s') := by
  rcases he with ⟨v, rfl, e⟩ | ⟨es, rfl, e⟩ | ⟨es, rfl, e⟩ <;> cases b <;> simp [bareBinding] at e <;>
    exact pure_ok ⟨by simp [bareArrayPatternElement, e], h⟩

theorem _root_.Giron.Grammar.PatElem.split {e : ArrayPatternElement} (h : PatElem c ws e) :
    (∃ b, Pat c ws b ∧ ((∃ v, e = .bindingIdentifier v ∧ b = .bindingIdentifier v sp) ∨ (∃ es, e = .arrayPattern es ∧ b = .arrayPattern es sp) ∨ (∃ es, e = .objectPattern es ∧ b = .objectPattern es sp))) ∨
    (∃ w b n ws' t, ws = w ++ P .assign n :: ws' ∧ Pat c w b ∧ Assign { c with inn := true } ws' t ∧ e = .assignmentPattern b t) := by
  cases h with
  | name h => exact .inl ⟨_, .name h, .inl ⟨_, rfl, rfl⟩⟩
  | array h => exact .inl ⟨_, h, .inr (.inl ⟨_, rfl, rfl⟩)⟩
  | object h => exact .inl ⟨_, h, .inr (.inr ⟨_, rfl, rfl⟩)⟩
  | default h h' => exact .inr ⟨_, _, _, _, _, rfl, h, h', rfl⟩

theorem patElem_ok (hr : RecOk r) : ReadsItem .rBracket (arrPatItem r) (Option.map bareArrayPatternElement) c
    (fun w a => ∃ b, a = some b ∧ PatElem c w b) := by
  rintro w _ ⟨e, rfl, he⟩ ps k l l' s hl h
  unfold arrPatItem
  refine get_ok ?_
  obtain ⟨⟨x, n⟩, hx, ht⟩ := begins_tok (patElem_begins (.inl rfl) he) h
  have hn := not_start hx ht
  refine ok_else hn.1 (ok_else hn.2 ?_)
  obtain ⟨nx, rest, e', hsep⟩ := hl.split
  rcases he.split with ⟨b, hp, he⟩ | ⟨w', b, n, ws, t, rfl, hp, ha, rfl⟩
  · refine Sat.bind (hr.pat hp ps k nx rest s (hsep.pat (.inl rfl)) (by rw [← e']; exact h)) ?_
    rintro b' _ ⟨rfl, h⟩
    lk! h ht
    refine Sat.bind (ok_else (by rw [ht.isP, hsep.isP]; simp) (bindingToElement_ok he h)) ?_
    rintro a _ ⟨rfl, h⟩
    rw [← e'] at h
    refine Sat.bind (commaUnless_ok (by decide) hl h) ?_
    rintro _ _ h
    exact pure_ok ⟨rfl, h⟩
  · subst e'
    nm! h
    rd! (hr.pat hp _ _ _ _ _ ⟨rfl, rfl⟩ h) with b h
    lk! h ht
    refine Sat.bind (P := fun a s' => bareArrayPatternElement a = .assignmentPattern (bareBinding b) t ∧ St c ps k (nx :: rest) s') (ok_then (by tk ht) ?_) ?_
    · ad! h ht (assign_fits ha).append.fits
      rd! (init_ok hr ha _ _ _ _ _ (hsep.assign (.inl rfl)) h) with a h
      exact pure_ok ⟨rfl, h⟩
    · rintro a _ ⟨ea, h⟩
      refine Sat.bind (commaUnless_ok (by decide) hl h) ?_
      rintro _ _ h
      exact pure_ok ⟨by simp [ea, bareArrayPatternElement], h⟩

theorem patHole_ok (ps k n ws s) (hf : FitsAt .regExp ws) (h : St c ps k (P .comma n :: ws) s) :
    Ok (arrPatItem r) s (fun b s' => b = none ∧ St c ps k ws s') := by
  unfold arrPatItem
  lk! h ht
  refine ok_then (by tk ht) ?_
  ad! h ht hf
  exact pure_ok ⟨rfl, h⟩

theorem patRest_ok (hr : RecOk r) {e : ArrayPatternElement} (he : PatRest c ws e) :
    Reads (arrPatItem r) (Option.map bareArrayPatternElement) c 0 0 ws (some e) (fun nx => ∃ n, nx = P .rBracket n) := by
  rintro ps k _ rest s ⟨n, rfl⟩ h
  cases he with
  | mk hp =>
    unfold arrPatItem
    nm! h
    lk! h ht
    refine ok_else (by tk ht) (ok_then (by tk ht) ?_)
    ad! h ht (pat_fits _ hp).append.fits
    rd! (hr.pat hp _ _ _ _ _ ⟨rfl, rfl⟩ h) with b h
    exact pure_ok ⟨by simp [bareArrayPatternElement], h⟩

theorem patRest_begins {e : ArrayPatternElement} (h : PatRest c ws e) : Begins (fun x => x = .punct .ellipsis) ws := by
  cases h; exact .cons rfl

theorem parseArrBindingPat_ok (hr : RecOk r) {m n : Bool} {es : List (Option ArrayPatternElement)}
    (h : HolesRest PatElem PatRest c ws es) :
    Reads (parseArrBindingPat r) bareBinding c 0 0 (P .lBracket n :: (ws ++ [P .rBracket m])) (.arrayPattern es sp) SPat := by
  intro ps k nx rest s hnx h'
  unfold parseArrBindingPat
  nm! h'
  sp! h'
  eat! h' (holesRest_fits rfl (fun _ _ h => patElem_begins (.inl rfl) h) (fun _ _ h => patRest_begins h) h)
  rde! (untilPuncOrRest_holes rfl (by decide) (by decide) (fun _ _ h => patElem_begins (.inl rfl) h)
    (fun _ _ h => patRest_begins h) (patElem_ok hr) patHole_ok (fun _ _ h => patRest_ok hr h) h h') with xs e h'
  eat! h' hnx.regExp
  es! h'
  exact pure_ok ⟨by simp [bareBinding, bareHolesArrayPatternElement_eq, e], h'⟩

/-! ### Object patterns -/

theorem patKey_begins {key : PropertyKey} {comp : Bool} (h : PatKey c ws key comp) : Begins (ItemStart' .rBrace) ws := by
  cases h <;> exact .cons ⟨⟨rfl, rfl, rfl⟩, rfl⟩

theorem patProp_begins {p : ObjectPatternProperty} (h : PatProp c ws p) : Begins (ItemStart' .rBrace) ws := by
  cases h with
  | shorthand _ => exact .cons ⟨⟨rfl, rfl, rfl⟩, rfl⟩
  | shorthandDefault _ _ => exact .cons ⟨⟨rfl, rfl, rfl⟩, rfl⟩
  | pair h _ => exact (patKey_begins h).append

theorem patPropRest_begins {e : ObjectPatternProperty} (h : PatPropRest c ws e) : Begins (fun x => x = .punct .ellipsis) ws := by
  cases h; exact .cons rfl

theorem patPropRest_ok (hr : RecOk r) {e : ObjectPatternProperty} (he : PatPropRest c ws e) :
    Reads (objPatItem r) bareObjectPatternProperty c 0 0 ws e (fun nx => ∃ n, nx = P .rBrace n) := by
  rintro ps k _ rest s ⟨n, rfl⟩ h
  cases he with
  | mk hp =>
    unfold objPatItem
    nm! h
    lk! h ht
    refine ok_then (by tk ht) ?_
    ad! h ht (pat_fits _ hp).append.fits
    rd! (hr.pat hp _ _ _ _ _ ⟨rfl, rfl⟩ h) with b h
    exact pure_ok ⟨by simp [bareObjectPatternProperty], h⟩

theorem bindingToPropertyValue_ok {e : PropertyValue} {x y : Nat} {b : Binding}
    (he : (∃ v, e = .bindingIdentifier v sp ∧ bareBinding b = .bindingIdentifier v sp) ∨
      (∃ es, e = .bindingPattern (.arrayPattern es) ∧ bareBinding b = .arrayPattern es sp) ∨
      (∃ es, e = .bindingPattern (.objectPattern es) ∧ bareBinding b = .objectPattern es sp)) (h : St c ps k l s) :
    Ok (bindingToPropertyValue x y b) s (fun a s' => barePropertyValue a = e ∧ St c ps k l s') := by
  rcases he with ⟨v, rfl, e⟩ | ⟨es, rfl, e⟩ | ⟨es, rfl, e⟩ <;> cases b <;> simp [bareBinding] at e <;>
    exact pure_ok ⟨by simp [barePropertyValue, bareBindingPattern, e], h⟩

theorem patValue_fits {e : PropertyValue} (h : PatValue c ws e) : Begins (fun x => x.fits .regExp = true) ws := by
  cases h with
  | name h => exact .cons rfl
  | array h => exact pat_fits _ h
  | object h => exact pat_fits _ h
  | default h _ => exact (pat_fits _ h).append

theorem _root_.Giron.Grammar.PatValue.split {e : PropertyValue} (h : PatValue c ws e) :
    (∃ b, Pat c ws b ∧ ((∃ v, e = .bindingIdentifier v sp ∧ b = .bindingIdentifier v sp) ∨ (∃ es, e = .bindingPattern (.arrayPattern es) ∧ b = .arrayPattern es sp) ∨ (∃ es, e = .bindingPattern (.objectPattern es) ∧ b = .objectPattern es sp))) ∨
    (∃ w b n ws' t, ws = w ++ P .assign n :: ws' ∧ Pat c w b ∧ Assign { c with inn := true } ws' t ∧ e = .assignmentPattern b t) := by
  cases h with
  | name h => exact .inl ⟨_, .name h, .inl ⟨_, rfl, rfl⟩⟩
  | array h => exact .inl ⟨_, h, .inr (.inl ⟨_, rfl, rfl⟩)⟩
  | object h => exact .inl ⟨_, h, .inr (.inr ⟨_, rfl, rfl⟩)⟩
  | default h h' => exact .inr ⟨_, _, _, _, _, rfl, h, h', rfl⟩

theorem objPatValue_ok (hr : RecOk r) {e : PropertyValue} (he : PatValue c ws e) :
    Reads (objPatValue r) barePropertyValue c 0 0 ws e (IsSep .rBrace) := by
  intro ps k nx rest s hsep h
  unfold objPatValue
  refine get_ok ?_
  rcases he.split with ⟨b, hp, he⟩ | ⟨w', b, n, ws, t, rfl, hp, ha, rfl⟩
  · refine Sat.bind (hr.pat hp ps k nx rest s (hsep.pat (.inr (.inl rfl))) h) ?_
    rintro b' _ ⟨rfl, h⟩
    lk! h ht
    exact ok_else (by rw [ht.isP, hsep.isP]; simp) (bindingToPropertyValue_ok he h)
  · nm! h
    rd! (hr.pat hp _ _ _ _ _ ⟨rfl, rfl⟩ h) with b h
    lk! h ht
    refine ok_then (by tk ht) ?_
    ad! h ht (assign_fits ha).append.fits
    rd! (init_ok hr ha _ _ _ _ _ (hsep.assign (.inr (.inl rfl))) h) with a h
    exact pure_ok ⟨by simp [barePropertyValue], h⟩

theorem valueToKey_plain (hv : PlainName v) {span : Span} (h : St c ps k l s) :
    Ok (valueToKey (.value (.str v)) false span) s (fun a s' => a = .identifier ⟨v, span⟩ ∧ St c ps k l s') := by
  unfold valueToKey
  refine ok_else (by simp) ?_
  refine get_ok ?_
  refine ok_else ?_ (pure_ok ⟨rfl, h⟩)
  show ¬ Scanner.isKeyword v = true
  rw [Scanner.isKeyword_iff]; exact hv.1

/-- The name or expression before `:`, as a key. -/
theorem objPatName_ok (hr : RecOk r) {key : PropertyKey} {comp : Bool} (hk : PatKey c ws key comp)
    (h : St c ps k (ws ++ nx :: rest) s) (hnx : nx.c.fits .regExp = true) :
    Ok (objPatName r) s (fun a s' => (∀ {ps k l s} (span : Span), St c ps k l s →
        Ok (valueToKey a true span) s (fun x s' => (barePropertyKey x = key ∧
          (match x with | .expression _ => true | _ => false) = comp) ∧ St c ps k l s')) ∧ St c ps k (nx :: rest) s') := by
  unfold objPatName
  have hk' : (∃ w val, ws = [w] ∧ (∀ t, Tok w t → t.isIdOrKw ∨ t.tokentype = .stringLiteral ∨ t.tokentype = .numericLiteral) ∧
      (w.c.token 0 0 0 0).value = val ∧ key = .literal ⟨val, val.toString, sp⟩ ∧ comp = false) ∨
      (∃ ws' e n m, ws = P .lBracket n :: (ws' ++ [P .rBracket m]) ∧ Assign { c with inn := true } ws' e ∧ key = .expression e ∧ comp = true) := by
    cases hk with
    | @name v _ n hv =>
      refine .inl ⟨W v n, .str v, rfl, fun t ht => ?_, ?_, rfl, rfl⟩
      · left; rw [ht.isIdOrKw]; exact hv.wordy
      · have : Tok (W v n) ((Content.name v).token 0 0 0 0) := ⟨0, 0, 0, 0, rfl⟩
        exact this.str hv.wordy
    | @string _ v o n =>
      refine .inl ⟨⟨.string v o, n⟩, .str v, rfl, fun t ht => ?_, rfl, rfl, rfl⟩
      right; left; tk ht
    | @number _ x n =>
      refine .inl ⟨⟨.number x, n⟩, .num x, rfl, fun t ht => ?_, rfl, rfl, rfl⟩
      right; right; tk ht
    | computed ha => exact .inr ⟨_, _, _, _, rfl, ha, rfl, rfl⟩
  rcases hk' with ⟨w, val, rfl, hw, hv, hk, hc⟩ | ⟨ws, e, n, m, rfl, ha, rfl, rfl⟩
  · nm! h
    lk! h ht
    refine ok_then (hw _ ht) ?_
    ad! h ht hnx
    refine pure_ok ⟨?_, h⟩
    intro ps k l s span h
    unfold valueToKey
    refine ok_then rfl (pure_ok ⟨?_, h⟩)
    rw [ht.value, hv]
    subst hk hc
    exact ⟨rfl, rfl⟩
  · nm! h
    lk! h ht
    refine ok_else (by tk ht) (ok_then (by tk ht) ?_)
    eat! h (assign_fits ha).append.fits
    rd! (init_ok hr ha _ _ _ _ _ (.punct _ (by decide)) h) with a h
    eat! h hnx
    refine pure_ok ⟨?_, h⟩
    intro ps k l s span h
    unfold valueToKey
    exact ok_then rfl (pure_ok ⟨⟨rfl, rfl⟩, h⟩)

theorem patProp_ok (hr : RecOk r) : ReadsItem .rBrace (objPatItem r) bareObjectPatternProperty c (PatProp c) := by
  intro w e he ps k l l' s hl h
  unfold objPatItem
  refine get_ok ?_
  obtain ⟨⟨x, n⟩, hx, ht⟩ := begins_tok (patProp_begins he) h
  refine ok_else (by rw [ht.isP, hx.2]; simp) ?_
  obtain ⟨nx, rest, e', hsep⟩ := hl.split
  have fin : ∀ {p : PM ObjectPatternProperty} {s}, Ok p s (fun a s' => bareObjectPatternProperty a = e ∧ St c ps k l s') →
      Ok (p >>= fun a => commaUnless .rBrace >>= fun _ => pure a) s (fun a s' => bareObjectPatternProperty a = e ∧ St c ps k l' s') := by
    intro p s hp
    refine Sat.bind hp ?_
    rintro a _ ⟨ea, h⟩
    refine Sat.bind (commaUnless_ok (by decide) hl h) ?_
    rintro _ _ h
    exact pure_ok ⟨ea, h⟩
  sp! h
  have nm : ∀ {v n rest' w' s}, PlainName v → w'.c.fits .regExp = true → St c ps (k + 1) (W v n :: w' :: rest') s →
      Ok (objPatName r) s (fun a s' => a = .value (.str v) ∧ St c ps (k + 1) (w' :: rest') s') := by
    intro v n rest' w' s hv hw h
    have hw' : wordy v = true := by simp [wordy, hv.2]
    unfold objPatName
    lk! h ht
    refine ok_then (.inl (by rw [ht.isIdOrKw]; exact hw')) ?_
    ad! h ht hw
    exact pure_ok ⟨by rw [ht.str hw'], h⟩
  cases he with
  | shorthand hv =>
    subst e'
    nm! h
    rd! (nm hv (hsep.pat (.inr (.inl rfl))).regExp h) with a h
    es! h
    lk! h ht
    refine fin (ok_else (by rw [ht.isP, hsep.isP]; simp) (ok_else (by rw [ht.isP, hsep.isP]; simp) ?_))
    rd! (valueToKey_plain hv h) with a h
    exact pure_ok ⟨rfl, h⟩
  | shorthandDefault hv ha =>
    subst e'
    nm! h
    rd! (nm hv rfl h) with a h
    es! h
    lk! h ht
    refine fin (ok_then (by tk ht) ?_)
    ad! h ht (assign_fits ha).append.fits
    refine Sat.bind (P := fun a s' => a = _ ∧ St c ps k _ s') (pure_ok ⟨rfl, h⟩) ?_
    clear h
    rintro _ _ ⟨rfl, h⟩
    rd! (valueToKey_plain hv h) with a h
    rd! (init_ok hr ha _ _ _ _ _ (hsep.assign (.inr (.inl rfl))) h) with a h
    exact pure_ok ⟨rfl, h⟩
  | pair hk hv =>
    subst e'
    nm! h
    rde! (objPatName_ok hr hk h rfl) with a ea h
    es! h
    lk! h ht
    refine fin (ok_else (by tk ht) (ok_then (by tk ht) ?_))
    ad! h ht (patValue_fits hv).append.fits
    rde! (ea _ h) with key ek h
    rd! (objPatValue_ok hr hv _ _ _ _ _ hsep h) with a h
    refine pure_ok ⟨?_, h⟩
    simp only [bareObjectPatternProperty, ek.1, bareOptPropertyValue]
    rw [← ek.2]
    cases key <;> rfl

theorem parseObjBindingPat_ok (hr : RecOk r) {m n : Bool} {es : List ObjectPatternProperty}
    (h : CommasRest PatProp PatPropRest c ws es) :
    Reads (parseObjBindingPat r) bareBinding c 0 0 (P .lBrace n :: (ws ++ [P .rBrace m])) (.objectPattern es sp) SPat := by
  intro ps k nx rest s hnx h'
  unfold parseObjBindingPat
  nm! h'
  sp! h'
  eat! h' (commasRest_fits rfl (fun _ _ h => patProp_begins h) (fun _ _ h => patPropRest_begins h) h)
  rde! (untilPuncOrRest_commas rfl (by decide) (fun _ _ h => patProp_begins h)
    (fun _ _ h => patPropRest_begins h) (patProp_ok hr) (fun _ _ h => patPropRest_ok hr h) h h') with xs e h'
  eat! h' hnx.regExp
  es! h'
  exact pure_ok ⟨by simp [bareBinding, bareListObjectPatternProperty_eq, e], h'⟩

theorem parseBindingIdOrPat_ok (hr : RecOk r) (h : Pat c ws b) :
    Reads (parseBindingIdOrPat r) bareBinding c 0 0 ws b SPat := by
  intro ps k nx rest s hnx h'
  unfold parseBindingIdOrPat
  refine get_ok ?_
  cases h with
  | name hv =>
    have ht := h'.tok
    refine ok_then (by rw [ht.isIdOrKw]; exact hv.wordy) ?_
    exact parseBindingId_ok hv _ _ _ _ _ hnx.div h'
  | array h =>
    have ht := h'.tok
    refine ok_else (by tk ht) (ok_else (by tk ht) (ok_then (by tk ht) ?_))
    exact parseArrBindingPat_ok hr h _ _ _ _ _ hnx h'
  | object h =>
    have ht := h'.tok
    refine ok_else (by tk ht) (ok_then (by tk ht) ?_)
    exact parseObjBindingPat_ok hr h _ _ _ _ _ hnx h'

/-! ### Parameters -/

theorem param_begins {e : FunctionParameter} (h : Param c ws e) : Begins (ItemStart' .rParen) ws := by
  have hc : IsClose .rParen := .inr (.inr rfl)
  cases h with
  | name h => exact pat_item hc (.name h)
  | array h => exact pat_item hc h
  | object h => exact pat_item hc h
  | default h _ => exact (pat_item hc h).append

theorem bindingToParam_ok {e : FunctionParameter} {x y : Nat} {b : Binding}
    (he : (∃ v, e = .bindingIdentifier v ∧ bareBinding b = .bindingIdentifier v sp) ∨
      (∃ es, e = .arrayPattern es ∧ bareBinding b = .arrayPattern es sp) ∨
      (∃ es, e = .objectPattern es ∧ bareBinding b = .objectPattern es sp)) (h : St c ps k l s) :
    Ok (bindingToParam x y b) s (fun a s' => bareFunctionParameter a = e ∧ St c ps k l s') := by
  rcases he with ⟨v, rfl, e⟩ | ⟨es, rfl, e⟩ | ⟨es, rfl, e⟩ <;> cases b <;> simp [bareBinding] at e <;>
    exact pure_ok ⟨by simp [bareFunctionParameter, e], h⟩

theorem _root_.Giron.Grammar.Param.split {e : FunctionParameter} (h : Param c ws e) :
    (∃ b, Pat c ws b ∧ ((∃ v, e = .bindingIdentifier v ∧ b = .bindingIdentifier v sp) ∨ (∃ es, e = .arrayPattern es ∧ b = .arrayPattern es sp) ∨ (∃ es, e = .objectPattern es ∧ b = .objectPattern es sp))) ∨
    (∃ w b n ws' t, ws = w ++ P .assign n :: ws' ∧ Pat c w b ∧ Assign { c with inn := true } ws' t ∧ e = .assignmentPattern b t) := by
  cases h with
  | name h => exact .inl ⟨_, .name h, .inl ⟨_, rfl, rfl⟩⟩
  | array h => exact .inl ⟨_, h, .inr (.inl ⟨_, rfl, rfl⟩)⟩
  | object h => exact .inl ⟨_, h, .inr (.inr ⟨_, rfl, rfl⟩)⟩
  | default h h' => exact .inr ⟨_, _, _, _, _, rfl, h, h', rfl⟩

theorem param_ok (hr : RecOk r) : ReadsItem .rParen (formalParam r) bareFunctionParameter c (Param c) := by
  have hc : IsClose .rParen := .inr (.inr rfl)
  rintro w e he ps k l l' s hl h
  unfold formalParam
  refine get_ok ?_
  obtain ⟨⟨x, n⟩, hx, ht⟩ := begins_tok (param_begins he) h
  refine ok_else (by rw [ht.isP, hx.2]; simp) ?_
  obtain ⟨nx, rest, e', hsep⟩ := hl.split
  rcases he.split with ⟨b, hp, he⟩ | ⟨w', b, n, ws, t, rfl, hp, ha, rfl⟩
  · refine Sat.bind (hr.pat hp ps k nx rest s (hsep.pat hc) (by rw [← e']; exact h)) ?_
    rintro b' _ ⟨rfl, h⟩
    lk! h ht
    refine Sat.bind (ok_else (by rw [ht.isP, hsep.isP]; simp) (bindingToParam_ok he h)) ?_
    rintro a _ ⟨rfl, h⟩
    rw [← e'] at h
    refine Sat.bind (commaUnless_ok (by decide) hl h) ?_
    rintro _ _ h
    exact pure_ok ⟨rfl, h⟩
  · subst e'
    nm! h
    rd! (hr.pat hp _ _ _ _ _ ⟨rfl, rfl⟩ h) with b h
    lk! h ht
    refine Sat.bind (P := fun a s' => bareFunctionParameter a = .assignmentPattern (bareBinding b) t ∧ St c ps k (nx :: rest) s') (ok_then (by tk ht) ?_) ?_
    · ad! h ht (assign_fits ha).append.fits
      rd! (init_ok hr ha _ _ _ _ _ (hsep.assign hc) h) with a h
      exact pure_ok ⟨rfl, h⟩
    · rintro a _ ⟨ea, h⟩
      refine Sat.bind (commaUnless_ok (by decide) hl h) ?_
      rintro _ _ h
      exact pure_ok ⟨by simp [ea, bareFunctionParameter], h⟩

theorem paramRest_ok (hr : RecOk r) {e : FunctionParameter} (he : ParamRest c ws e) :
    Reads (formalParam r) bareFunctionParameter c 0 0 ws e (fun nx => ∃ n, nx = P .rParen n) := by
  rintro ps k _ rest s ⟨n, rfl⟩ h
  cases he with
  | mk hp =>
    unfold formalParam
    nm! h
    lk! h ht
    refine ok_then (by tk ht) ?_
    ad! h ht (pat_fits _ hp).append.fits
    rd! (hr.pat hp _ _ _ _ _ ⟨rfl, rfl⟩ h) with b h
    exact pure_ok ⟨by simp [bareFunctionParameter], h⟩

theorem paramRest_begins {e : FunctionParameter} (h : ParamRest c ws e) : Begins (fun x => x = .punct .ellipsis) ws := by
  cases h; exact .cons rfl

theorem parseFormalParams_ok (hr : RecOk r) {es : List FunctionParameter} (h : Grammar.Params c ws es) :
    Reads (parseFormalParams r) (List.map bareFunctionParameter) c 0 0 ws es (fun nx => nx.c.fits .regExp = true) := by
  intro ps k nx rest s hnx h'
  cases h with
  | mk h =>
    unfold parseFormalParams
    nm! h'
    eat! h' (commasRest_fits rfl (fun _ _ h => param_begins h) (fun _ _ h => paramRest_begins h) h)
    rde! (untilPuncOrRest_commas rfl (by decide) (fun _ _ h => param_begins h)
      (fun _ _ h => paramRest_begins h) (param_ok hr) (fun _ _ h => paramRest_ok hr h) h h') with xs e h'
    eat! h' hnx
    exact pure_ok ⟨e, h'⟩

theorem body_fits {t : Node} (hb : Body c ws t) : Begins (fun x => x.fits .regExp = true) ws :=
  (body_begins hb).mono fun _ h => by subst h; rfl

theorem params_begins {es : List FunctionParameter} (h : Grammar.Params c ws es) : Begins (fun x => x = .punct .lParen) ws := by
  cases h; exact .cons rfl

/-- Parameters and body of a method. -/
theorem parseParamsAndBody_ok (hr : RecOk r) {y a : Bool} {es : List FunctionParameter} {t : Node} {ws' : List Word}
    (h : Grammar.Params { c with yld := y, awt := a } ws es) (hb : Body { c with yld := y, awt := a, ret := true } ws' t) :
    Reads (parseParamsAndBody r y a) (fun p => (p.1.map bareFunctionParameter, bareNode p.2)) c 0 0 (ws ++ ws') (es, t)
      (fun _ => True) := by
  intro ps k nx rest s hnx h'
  unfold parseParamsAndBody
  nm! h'
  obtain ⟨x, w', e, hx⟩ := body_fits hb
  have hl : ws' ++ nx :: rest = x :: (w' ++ nx :: rest) := by rw [e]; rfl
  rw [hl] at h'
  rde! (withYieldAwait_ok (fun ps s h' => parseFormalParams_ok hr h ps k x (w' ++ nx :: rest) s hx h') h') with xs exs h'
  rw [← hl] at h'
  rde! (withYieldAwait_ok (fun ps s h' => parseFunctionBody_ok hr hb ps k nx rest s hnx h') h') with b eb h'
  exact pure_ok ⟨by simp [exs, eb], h'⟩

end Giron.Complete

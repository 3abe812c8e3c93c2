import Verif.Proofs.Spell.Names
/-
The words read by the parser methods for patterns and parameters.
-/
namespace Giron
open M Spec Spec.Lang
namespace Parser
variable [Env] {α β : Type} {c : Content} {R : β → List Mark → Content → Prop} {r : Rec}

/-! ### Object patterns -/

/-- the value of a token that is a name, a number or a string -/
theorem _root_.Giron.IsTok.value {t : Token} {c : Content} (h : IsTok t c)
    (ht : t.isIdOrKw = true ∨ t.tokentype = .stringLiteral ∨ t.tokentype = .numericLiteral) :
    c.value? = some t.value ∧ ((∃ v, c = .name v) ∨ (∃ v o, c = .string v o) ∨ ∃ n, c = .number n) := by
  rcases ht with ht | ht | ht
  · obtain ⟨v, rfl, hv, _⟩ := h.name ht
    obtain ⟨l, k, st, e, rfl⟩ := h
    exact ⟨rfl, .inl ⟨v, rfl⟩⟩
  · obtain ⟨l, k, st, e, rfl⟩ := h
    cases c with
    | string v o => exact ⟨rfl, .inr (.inl ⟨v, o, rfl⟩)⟩
    | name v =>
      simp only [Content.token, nameToken] at ht
      split at ht
      · cases ht
      · split at ht
        · cases ht
        · split at ht <;> cases ht
    | _ => cases ht
  · obtain ⟨l, k, st, e, rfl⟩ := h
    cases c with
    | number n => exact ⟨rfl, .inr (.inr ⟨n, rfl⟩)⟩
    | name v =>
      simp only [Content.token, nameToken] at ht
      split at ht
      · cases ht
      · split at ht
        · cases ht
        · split at ht <;> cases ht
    | _ => cases ht

/-- the words of a property name before it is made a key -/
def nameWords : ValueOrExpr → Lang
  | .value v => one fun c => c.value? = some v
  | .expr n => pun .lBracket ⬝ Spell.node n ⬝ pun .rBracket

theorem _root_.Giron.IsTok.value_ne_eof {t : Token} {c : Content} (h : IsTok t c)
    (ht : t.isIdOrKw = true ∨ t.tokentype = .stringLiteral ∨ t.tokentype = .numericLiteral) : c ≠ .eof := by
  rintro rfl
  exact nomatch (h.value ht).1

theorem objPatName_reads (hr : RecSpells r) : Spells (objPatName r) nameWords := by
  intro c
  unfold objPatName
  refine .cur fun t ht => .ite (fun h => .advance (fun t' c' ht' => .pure ?_) (ht.value_ne_eof h)) fun _ => .ite (fun _ => ?_) fun _ => .fails
  · refine ⟨c, rfl, ?_⟩
    have h1 := (ht.value h).1
    obtain ⟨l, k, st, e, rfl⟩ := ht
    obtain ⟨l', k', st', e', rfl⟩ := ht'
    show c.value? = some _
    rw [h1]
    cases c <;> rfl
  · exact .consume fun _ c _ _ => .bind (.withIn (hr.assignmentExpr c)) fun e w c h => .consume fun _ c _ _ => .pure (tk (sq h rfl))

theorem valueToKey_reads {v : ValueOrExpr} {literal : Bool} {sp : Span} {k : PropertyKey → PM β}
    (h : ∀ key, (∀ ws, nameWords v ws → Spell.patternKey (match key with | .expression _ => true | _ => false) key ws) →
      (literal = false → (∀ ws, nameWords v ws → Spell.patternKey false key ws) ∧
        ∀ x, v = .value x → key = .identifier ⟨x.toString, sp⟩) → Reads c (k key) R) :
    Reads c (valueToKey v literal sp >>= k) R := by
  unfold valueToKey
  cases v with
  | expr e =>
    dsimp only
    split
    · next hl => exact h _ (fun ws h => h) fun h => absurd hl (by rw [h]; simp)
    · exact .failsBind
  | value v =>
    dsimp only
    split
    · next hl => exact h _ (fun ws h => h) fun h => absurd hl (by rw [h]; simp)
    · simp only [bind_assoc]
      have key : Reads c (k (.identifier ⟨v.toString, sp⟩)) R :=
        h _ (fun ws ⟨c, h1, h2⟩ => ⟨c, h1, v, h2, rfl⟩) fun _ => ⟨fun ws ⟨c, h1, h2⟩ => ⟨c, h1, v, h2, rfl⟩, fun x hx => by cases hx; rfl⟩
      refine .get fun s _ => ?_
      split
      · split
        · exact key
        · exact .failsBind
      · exact key

theorem objPatValue_reads (hr : RecSpells r) : Spells (objPatValue r) fun v ws =>
    Spell.propertyValue v ws ∧ Spell.propertyPrefix cs!"init" (some v) [] ∧ Spell.propertyMark (some v) false false = pun .colon := by
  intro c
  unfold objPatValue
  refine .quiet fun _ => .bind (hr.bindingIdOrPat c) fun b w c h => .cur fun t ht => .ite (fun ha => ?_) fun _ => ?_
  · have := ht.isP ha
    subst this
    exact .advance fun _ c _ => .bind (.withIn (hr.assignmentExpr c)) fun n w' c h' => .pure ⟨sq h (tk (last h')), .inr rfl, rfl⟩
  · cases b with
    | expression n => exact Reads.fails (m := M.fail _)
    | _ => exact .pure ⟨last (A := Spell.binding _) h, .inr rfl, rfl⟩

/-- the end of an element of a list -/
theorem element_end {close : Punctuator} {A : Lang} {w : List Mark} (c : Content) (h : A w) {γ : Type} {x : γ} :
    Reads c (commaUnless close >>= fun _ => (Pure.pure x : PM γ)) fun y w' c' => y = x ∧
      ∀ (xs : List γ) (B : Lang) (ws : List Mark), (xs = [] ↔ c' = .punct close) → B ws → (A ⬝ Spell.commaAfter xs ⬝ B) ((w ++ w') ++ ws) :=
  .bind (commaUnless_reads c) fun _ w1 c1 h1 => .pure ⟨rfl, fun xs B ws he hB => by
    rw [List.append_nil, List.append_assoc]
    exact sq h (sq (h1 xs he) hB)⟩

/-- a list element without a comma, which is the last one -/
theorem element_last {A B : Lang} {w : List Mark} {γ : Type} (h : A w) (hB : B []) :
    (A ⬝ Spell.commaAfter ([] : List γ) ⬝ B) w := ⟨w, [], by simp, h, [], [], rfl, .inr rfl, hB⟩

theorem rest_reads (hr : RecSpells r) {g : LexGoal} {γ : Type} {f : Binding → PM γ} {Q : γ → List Mark → Content → Prop}
    (h : ∀ b w c', (pun .ellipsis ⬝ Spell.binding b) w → Reads c' (f b) fun x w' c'' => Q x (w ++ w') c'') :
    Reads (.punct .ellipsis) (Parser.advance g >>= fun _ => r.bindingIdOrPat >>= f) Q :=
  .advance fun _ c _ => .bind (hr.bindingIdOrPat c) fun b w c' hb => by
    have := h b (.punct .ellipsis :: w) c' (tk hb)
    exact this

theorem objPatItem_rest (hr : RecSpells r) : Reads (.punct .ellipsis) (objPatItem r) fun x w _ => Spell.patternProperties [x] w := by
  unfold objPatItem
  refine .cur fun t ht => .ite (fun _ => rest_reads hr fun b w c' hb => .pure ?_) fun h => absurd rfl (ht.notP h)
  rw [List.append_nil]
  exact element_last hb rfl

/-- what follows the name of a property -/
theorem objPatTail_reads (hr : RecSpells r) {v : ValueOrExpr} {sp : Span} {w : List Mark} (hv : nameWords v w)
    {t : Token} (ht : IsTok t c) : Reads c (
      if t.isP .assign then do
        let _ ← advance .regExp
        let name ← shorthandName v
        let key ← valueToKey v false sp
        let right ← withIn true r.assignmentExpr
        pure (ObjectPatternProperty.property key false
          (some (.assignmentPattern (.bindingIdentifier name sp) right)) cs!"init" false true)
      else if t.isP .colon then do
        let _ ← advance .regExp
        let key ← valueToKey v true sp
        let computed := match key with | .expression _ => true | _ => false
        let v ← objPatValue r
        pure (.property key computed (some v) cs!"init" false false)
      else do
        let key ← valueToKey v false sp
        pure (.property key false none cs!"init" false true))
      fun p ws _ => Spell.patternProperty p (w ++ ws) := by
  refine .ite (fun h => ?_) fun _ => .ite (fun h => ?_) fun _ => ?_
  · have := ht.isP h
    subst this
    refine .advance fun _ c _ => ?_
    have hn : ∀ {k : Str → PM ObjectPatternProperty} {R : ObjectPatternProperty → List Mark → Content → Prop},
        (∀ name, v = .value (.str name) → Reads c (k name) R) → Reads c (shorthandName v >>= k) R := by
      intro k R h
      unfold shorthandName
      split
      · exact h _ rfl
      · exact .failsBind
    exact hn fun name hname => valueToKey_reads fun key _ hk => .bind (.withIn (hr.assignmentExpr c)) fun n w' c' h' => .pure
      (.inr (sq ((hk rfl).1 _ hv) (tk (last (by
        rw [(hk rfl).2 _ hname]
        change (if name = name then Spell.node n else nothing) w'
        rw [if_pos rfl]
        exact h')))))
  · have := ht.isP h
    subst this
    refine .advance fun _ c _ => valueToKey_reads fun key hk _ => .bind (objPatValue_reads hr c) fun x w' c' h' => .pure (.inl ?_)
    exact ⟨[], _, rfl, h'.2.1, sq (hk _ hv) (sq (a := [.punct .colon]) (by rw [h'.2.2]; rfl) (last (A := Spell.propertyValue x) h'.1))⟩
  · refine valueToKey_reads fun key _ hk => .pure (.inl ⟨[], _, rfl, .inr rfl, sq ((hk rfl).1 _ hv) ⟨[], [], rfl, rfl, rfl⟩⟩)

theorem objPatItem_reads (hr : RecSpells r) (c : Content) (hc : c ≠ .punct .ellipsis) : Reads c (objPatItem r) fun x w c' =>
    ∀ xs ws, (xs = [] ↔ c' = .punct .rBrace) → Spell.patternProperties xs ws → Spell.patternProperties (x :: xs) (w ++ ws) := by
  unfold objPatItem
  refine .cur fun t ht => .ite (fun h => absurd (ht.isP h) hc) fun _ => .quiet fun _ => .bind (objPatName_reads hr c) fun v w c h =>
    .quiet fun sp => .cur fun t ht => .bind (objPatTail_reads hr h ht) fun x w' c' hx => (element_end c' hx).mono fun y w2 c2 hy xs ws he hs => ?_
  obtain ⟨rfl, hy⟩ := hy
  have := hy xs _ ws he hs
  simp only [List.append_assoc] at this ⊢
  exact this

theorem parseObjBindingPat_reads (hr : RecSpells r) : Spells (parseObjBindingPat r) Spell.binding := by
  intro c
  unfold parseObjBindingPat
  exact .quiet fun _ => .consume fun _ c _ _ => .bind
    (untilPuncOrRest_reads (p := .rBrace) (fun h => nomatch h) (I := Spell.patternProperties) rfl (fun c _ hc => objPatItem_reads hr c hc) (objPatItem_rest hr) c)
    fun ps w c h => .consume fun _ c _ _ => .quiet fun _ => .pure (tk (sq h rfl))

/-! ### Array patterns -/

theorem arrPatItem_rest (hr : RecSpells r) : Reads (.punct .ellipsis) (arrPatItem r) fun x w _ => Spell.patternElements [x] w := by
  unfold arrPatItem
  refine .cur fun t ht => .ite (fun h => nomatch ht.isP h) fun _ => .ite (fun _ => rest_reads hr fun b w c' hb => .pure ?_)
    fun h => absurd rfl (ht.notP h)
  rw [List.append_nil]
  exact element_last (A := Spell.patternElement (.restElement b)) hb rfl

theorem arrPatItem_reads (hr : RecSpells r) (c : Content) (hc : c ≠ .punct .ellipsis) : Reads c (arrPatItem r) fun x w c' =>
    ∀ xs ws, (xs = [] ↔ c' = .punct .rBracket) → Spell.patternElements xs ws → Spell.patternElements (x :: xs) (w ++ ws) := by
  unfold arrPatItem
  refine .cur fun t ht => .ite (fun h => ?_) fun _ => .ite (fun h => absurd (ht.isP h) hc) fun _ => .bind (hr.bindingIdOrPat c) fun b w c h =>
    .cur fun t' ht' => .bind (Q := fun e w' _ => Spell.patternElement e (w ++ w')) (.ite (fun ha => ?_) fun _ => ?_) fun e w' c' he => ?_
  · have := ht.isP h
    subst this
    exact .advance fun _ c _ => .pure fun xs ws _ hs => tk hs
  · have := ht'.isP ha
    subst this
    exact .advance fun _ c _ => .bind (.withIn (hr.assignmentExpr c)) fun n w' c h' => .pure (sq h (tk (last h')))
  · cases b with
    | expression n => exact Reads.fails (m := M.fail _)
    | _ => exact .pure (last (A := Spell.binding _) h)
  · refine (element_end (γ := Option ArrayPatternElement) c' he).mono fun y w2 c2 hy xs ws hx hs => ?_
    obtain ⟨rfl, hy⟩ := hy
    have := hy xs _ ws hx hs
    simp only [List.append_assoc] at this ⊢
    exact this

theorem parseArrBindingPat_reads (hr : RecSpells r) : Spells (parseArrBindingPat r) Spell.binding := by
  intro c
  unfold parseArrBindingPat
  exact .quiet fun _ => .consume fun _ c _ _ => .bind
    (untilPuncOrRest_reads (p := .rBracket) (fun h => nomatch h) (I := Spell.patternElements) rfl (fun c _ hc => arrPatItem_reads hr c hc) (arrPatItem_rest hr) c)
    fun ps w c h => .consume fun _ c _ _ => .quiet fun _ => .pure (tk (sq h rfl))

theorem parseBindingIdOrPat_reads (hr : RecSpells r) : Spells (parseBindingIdOrPat r) Spell.binding := by
  intro c
  unfold parseBindingIdOrPat
  exact .cur fun t _ => .ite (fun _ => parseBindingId_spells c) fun _ => .ite (fun _ => parseObjBindingPat_reads hr c) fun _ =>
    .ite (fun _ => parseArrBindingPat_reads hr c) fun _ => .fails

/-! ### Parameters -/

theorem formalParam_rest (hr : RecSpells r) : Reads (.punct .ellipsis) (formalParam r) fun x w _ => Spell.parameters [x] w := by
  unfold formalParam
  refine .cur fun t ht => .ite (fun _ => rest_reads hr fun b w c' hb => .pure ?_) fun h => absurd rfl (ht.notP h)
  rw [List.append_nil]
  exact element_last (A := Spell.parameter (.restElement b)) hb rfl

theorem formalParam_reads (hr : RecSpells r) (c : Content) (hc : c ≠ .punct .ellipsis) : Reads c (formalParam r) fun x w c' =>
    ∀ xs ws, (xs = [] ↔ c' = .punct .rParen) → Spell.parameters xs ws → Spell.parameters (x :: xs) (w ++ ws) := by
  unfold formalParam
  refine .cur fun t ht => .ite (fun h => absurd (ht.isP h) hc) fun _ => .bind (hr.bindingIdOrPat c) fun b w c h =>
    .cur fun t' ht' => .bind (Q := fun e w' _ => Spell.parameter e (w ++ w')) (.ite (fun ha => ?_) fun _ => ?_) fun e w' c' he => ?_
  · have := ht'.isP ha
    subst this
    exact .advance fun _ c _ => .bind (.withIn (hr.assignmentExpr c)) fun n w' c h' => .pure (sq h (tk (last h')))
  · cases b with
    | expression n => exact Reads.fails (m := M.fail _)
    | _ => exact .pure (last (A := Spell.binding _) h)
  · refine (element_end c' he).mono fun y w2 c2 hy xs ws hx hs => ?_
    obtain ⟨rfl, hy⟩ := hy
    have := hy xs _ ws hx hs
    simp only [List.append_assoc] at this ⊢
    exact this

theorem parseFormalParams_reads (hr : RecSpells r) (c : Content) : Reads c (parseFormalParams r) fun ps ws _ =>
    c = .punct .lParen ∧ (pun .lParen ⬝ Spell.parameters ps ⬝ pun .rParen) ws := by
  unfold parseFormalParams
  exact .consume fun _ c hc _ => .bind
    (untilPuncOrRest_reads (p := .rParen) (fun h => nomatch h) (I := Spell.parameters) rfl (fun c _ hc => formalParam_reads hr c hc) (formalParam_rest hr) c)
    fun ps w c h => .consume fun _ c _ _ => .pure ⟨hc, tk (sq h rfl)⟩

theorem cat_assoc {A B C : Lang} {ws : List Mark} (h : ((A.cat B).cat C) ws) : (A.cat (B.cat C)) ws := by
  obtain ⟨a, b, rfl, ⟨a', b', rfl, h1, h2⟩, h3⟩ := h
  rw [List.append_assoc]
  exact sq h1 (sq h2 h3)

theorem params_body {ps : List FunctionParameter} {b : Node} {w w' : List Mark} (h : (pun .lParen ⬝ Spell.parameters ps ⬝ pun .rParen) w)
    (h' : Spell.node b w') : (pun .lParen ⬝ Spell.parameters ps ⬝ pun .rParen ⬝ Spell.node b) (w ++ w') := by
  obtain ⟨a, b, rfl, h1, c, d, rfl, h2, h3⟩ := h
  simp only [List.append_assoc]
  exact sq h1 (sq h2 (sq h3 h'))

theorem parseParamsAndBody_reads (hr : RecSpells r) {g a : Bool} (c : Content) : Reads c (parseParamsAndBody r g a) fun x ws _ =>
    c = .punct .lParen ∧ (pun .lParen ⬝ Spell.parameters x.1 ⬝ pun .rParen ⬝ Spell.node x.2) ws := by
  unfold parseParamsAndBody
  exact .bind (.withYieldAwait (parseFormalParams_reads hr c)) fun ps w c h => .bind (.withYieldAwait (parseFunctionBody_reads hr c))
    fun b w' c h' => .pure ⟨h.1, by rw [List.append_nil]; exact params_body h.2 h'⟩

end Parser
end Giron

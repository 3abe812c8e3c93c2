import Verif.Proofs.Spell.Primary
/-
The words read by the parser methods for member and call expressions, operators and assignments.
-/
namespace Giron
open M Spec Spec.Lang
namespace Parser
variable [Env] {α β : Type} {c : Content} {R : β → List Mark → Content → Prop} {r : Rec}

/-- The method goes on from an expression already read. -/
abbrev Extends (e : Node) (m : PM Node) : Prop :=
  ∀ w, Spell.node e w → ∀ c, Reads c m fun n ws _ => Spell.node n (w ++ ws)

theorem parseComputedMemberExpr_reads (hr : RecSpells r) {e : Node} : Extends e (parseComputedMemberExpr r e) := by
  intro w hw c
  unfold parseComputedMemberExpr
  exact .quiet fun _ => .consume fun _ c _ _ => .bind (.withIn (parseExpression_reads hr c)) fun n w c h => .quiet fun _ =>
    .consume fun _ c _ _ => .pure (sq hw (tk (sq h rfl)))

theorem parseStaticMemberExpr_reads {e : Node} : Extends e (parseStaticMemberExpr e) := by
  intro w hw c
  unfold parseStaticMemberExpr
  exact .quiet fun _ => .consume fun _ c _ _ => .quiet fun _ => .idName fun v c' hc _ => .quiet fun _ => .quiet fun _ => .pure (sq hw (tk rfl))

theorem parseSuper_reads (c : Content) : Reads c parseSuper fun n ws _ => Spell.node n ws := by
  unfold parseSuper
  exact .quiet fun _ => .consumeKw fun _ c _ _ => .cur fun t ht => .ite (fun _ => .quiet fun _ => .pure rfl) fun _ => .fails

theorem Extends.then {e : Node} {m : PM Node} {k : Node → PM Node} (hm : Extends e m) (hk : ∀ n, Extends n (k n)) : Extends e (m >>= k) := by
  intro w hw c
  refine .bind (hm w hw c) fun n w' c h => (hk n _ h c).mono fun x ws _ hx => ?_
  rw [← List.append_assoc]
  exact hx

theorem Extends.ret {e : Node} : Extends e (pure e : PM Node) := fun _ hw _ => .pure (last hw)

theorem memberLoopF_reads (hr : RecSpells r) (n : Nat) (e : Node) : Extends e (memberLoopF r n e) := by
  induction n generalizing e with
  | zero => intro w hw c; exact Reads.fails (m := M.fail .fuel)
  | succ n ih =>
    intro w hw c
    unfold memberLoopF
    exact .cur fun t ht => .ite (fun _ => (parseComputedMemberExpr_reads hr).then ih w hw c) fun _ =>
      .ite (fun _ => parseStaticMemberExpr_reads.then ih w hw c) fun _ =>
      .ite (fun _ => Extends.then (fun _ hw c => parseTaggedTemplate_reads hr hw c) ih w hw c) fun _ => Extends.ret w hw c

theorem parseMemberHead_reads (hr : RecSpells r) : Spells (parseMemberHead r) Spell.node := by
  intro c
  unfold parseMemberHead
  exact .cur fun t ht => .ite (fun _ => .bind (parseSuper_reads c) fun o w c h => .cur fun _ _ => .ite (fun _ => parseComputedMemberExpr_reads hr w h c) fun _ =>
    .ite (fun _ => parseStaticMemberExpr_reads w h c) fun _ => .fails) fun _ => parsePrimaryExpr_reads hr c

theorem parseMemberExpr_reads (hr : RecSpells r) : Spells (parseMemberExpr r) Spell.node := by
  intro c
  unfold parseMemberExpr
  exact .bind (parseMemberHead_reads hr c) fun e w c h => fun s text a s' hs hm => memberLoopF_reads hr _ e w h c s text a s' hs hm

theorem call_words {e : Node} {w w' : List Mark} {as : List ArgumentListElement} {a : ATT} {sp : Span} (hw : Spell.node e w)
    (h : (pun .lParen ⬝ Spell.arguments as ⬝ pun .rParen) w') : Spell.node (.callExpression e as a sp) (w ++ w') := sq hw h

theorem callLoopF_reads (hr : RecSpells r) (n : Nat) (e : Node) : Extends e (callLoopF r n e) := by
  induction n generalizing e with
  | zero => intro w hw c; exact Reads.fails (m := M.fail .fuel)
  | succ n ih =>
    intro w hw c
    unfold callLoopF
    refine .cur fun t ht => .ite (fun _ => .bind (parseArguments_reads hr c) fun as w' c h => .quiet fun sp => ?_) fun _ => .ite (fun _ => (parseComputedMemberExpr_reads hr).then ih w hw c) fun _ =>
      .ite (fun _ => parseStaticMemberExpr_reads.then ih w hw c) fun _ =>
      .ite (fun _ => Extends.then (fun _ hw c => parseTaggedTemplate_reads hr hw c) ih w hw c) fun _ => Extends.ret w hw c
    refine (ih _ _ (call_words hw h.2) c).mono fun x ws _ hx => ?_
    rw [← List.append_assoc]; exact hx

theorem parseCallExprTail_reads (hr : RecSpells r) {e : Node} : Extends e (parseCallExprTail r e) := by
  intro w hw c
  unfold parseCallExprTail
  exact .bind (Q := fun n ws _ => Spell.node n (w ++ ws)) (fun s text a s' hs hm => callLoopF_reads hr _ e w hw c s text a s' hs hm)
    fun n w' c h => .quiet fun _ => .pure (by rw [List.append_nil]; exact h)

theorem parseCallHead_reads (hr : RecSpells r) : Spells (parseCallHead r) Spell.node := by
  intro c
  unfold parseCallHead
  exact .cur fun t ht => .ite (fun _ => .bind (parseSuper_reads c) fun o w c h => .cur fun _ _ =>
    .ite (fun _ => .bind (parseArguments_reads hr c) fun as w' c h' => .quiet fun sp => .pure (by rw [List.append_nil]; exact call_words h h'.2)) fun _ =>
    .ite (fun _ => parseComputedMemberExpr_reads hr w h c) fun _ =>
    .ite (fun _ => parseStaticMemberExpr_reads w h c) fun _ => .fails) fun _ => parseMemberExpr_reads hr c

theorem parseCallExpr_reads (hr : RecSpells r) : Spells (parseCallExpr r) Spell.node := by
  intro c
  unfold parseCallExpr
  exact .quiet fun _ => .bind (parseCallHead_reads hr c) fun e w c h => parseCallExprTail_reads hr w h c

theorem _root_.Giron.IsTok.string {t : Token} {v u : Str} (h : IsTok t (.name v)) (ht : t.value.string? = some u) : u = v := by
  obtain ⟨l, k, st, e, rfl⟩ := h
  simp only [Content.token, nameToken] at ht
  by_cases h1 : v = cs!"null"
  · rw [if_pos h1] at ht; cases ht
  · rw [if_neg h1] at ht
    by_cases h2 : v = cs!"true" ∨ v = cs!"false"
    · rw [if_pos h2] at ht; cases ht; rfl
    · rw [if_neg h2] at ht
      split at ht <;> cases ht <;> rfl

theorem parseNewTarget_reads {newTok : Token} {sp : Span} (hn : IsTok newTok (.name cs!"new")) :
    Reads (.punct .dot) (parseNewTarget newTok sp) fun n ws _ => Spell.node n (.name cs!"new" :: ws) := by
  unfold parseNewTarget
  refine .advance fun _ c _ => .cur fun t ht => .ite (fun h => ?_) fun _ => .fails
  have := ht.isId h
  subst this
  refine .advance fun t' c ht' => .unwrap fun name h1 => .unwrap fun nn h2 => .quiet fun _ => .pure ?_
  have h1 := ht'.string h1
  have h2 := hn.string h2
  subst h1; subst h2
  exact tk (tk rfl)

theorem parseNewCallee_reads (hr : RecSpells r) (c : Content) :
    Reads c (parseNewCallee r) fun n ws _ => Spell.node n (.name cs!"new" :: ws) := by
  unfold parseNewCallee
  refine .bind (parseMemberExpr_reads hr c) fun e w c h => .cur fun t ht => .bind
    (Q := fun (as : List ArgumentListElement) w _ => ((pun .lParen ⬝ Spell.arguments as ⬝ pun .rParen).or (if as.isEmpty then eps else nothing)) w)
    (.ite (fun _ => (parseArguments_reads hr c).mono fun _ _ _ h => .inl h.2) fun _ => .pure (.inr rfl)) fun as w' c h' => .quiet fun sp => ?_
  have key : Spell.node (.newExpression e as .invalid sp) (.name cs!"new" :: (w ++ w')) := tk (sq h h')
  refine (parseCallExprTail_reads hr _ key c).mono fun n ws _ hn => same_words hn (by simp)

theorem parseNewExpr_reads (hr : RecSpells r) : Spells (parseNewExpr r) Spell.node := by
  intro c
  unfold parseNewExpr
  refine .quiet fun _ => .consumeKw fun t c hc ht => .quiet fun sp => .cur fun t' ht' => .ite (fun h => ?_) fun _ => .ite (fun _ => ?_) fun _ =>
    parseNewCallee_reads hr c
  · have := ht'.isP h
    subst this; subst hc
    exact parseNewTarget_reads ht
  · exact .bind (hr.newExpr c) fun e w c h => .quiet fun _ => .pure (tk (sq h (b := []) (.inr rfl)))

theorem parseLeftHandSideExpr_reads (hr : RecSpells r) : Spells (parseLeftHandSideExpr r) Spell.node := by
  intro c
  unfold parseLeftHandSideExpr
  exact .cur fun t ht => .ite (fun _ => parseNewExpr_reads hr c) fun _ => parseCallExpr_reads hr c

/-! ### Operators -/

theorem _root_.Giron.IsTok.isPunct {t : Token} {c : Content} (h : IsTok t c) (ht : t.tokentype = .punctuator) : ∃ p, c = .punct p := by
  obtain ⟨l, k, st, e, rfl⟩ := h
  cases c with
  | name v =>
    simp only [Content.token, nameToken] at ht
    split at ht
    · cases ht
    · split at ht
      · cases ht
      · split at ht <;> cases ht
  | punct p => exact ⟨_, rfl⟩
  | _ => cases ht

theorem _root_.Giron.IsTok.operator {t t' : Token} {c : Content} {v : Str} (h : IsTok t c) (h' : IsTok t' c)
    (ht : t.tokentype = .punctuator ∨ t.tokentype = .keyword) (hv : t'.toStr? = some v) : Spell.operator v [c] := by
  rcases ht with ht | ht
  · obtain ⟨p, rfl⟩ := h.isPunct ht
    obtain ⟨l, k, st, e, rfl⟩ := h'
    cases hv
    exact ⟨_, rfl, .inl ⟨p, rfl, rfl⟩⟩
  · obtain ⟨u, rfl, _, hn⟩ := h.name (by simp [Token.isIdOrKw, ht])
    have : u = v := by
      obtain ⟨l, k, st, e, rfl⟩ := h'
      simp only [Content.token, Token.toStr?, nameToken, if_neg hn.1, if_neg (show ¬ (u = cs!"true" ∨ u = cs!"false") from fun h => h.elim hn.2.1 hn.2.2)] at hv
      by_cases h3 : u ∈ keywords
      · rw [if_pos h3] at hv; cases hv; rfl
      · rw [if_neg h3] at hv; cases hv; rfl
    subst this
    refine ⟨_, rfl, .inr ⟨?_, rfl⟩⟩
    obtain ⟨l, k, st, e, rfl⟩ := h
    simp only [Content.token, nameToken, if_neg hn.1, if_neg (show ¬ (u = cs!"true" ∨ u = cs!"false") from fun h => h.elim hn.2.1 hn.2.2)] at ht
    by_cases h3 : u ∈ keywords
    · exact h3
    · rw [if_neg h3] at ht; cases ht

theorem _root_.Giron.IsTok.punct_of_value {t : Token} {c : Content} {p : Punctuator} (h : IsTok t c) (hv : t.value = .punc p) : c = .punct p :=
  h.punc (by simp [Token.matchesPunc, hv])

theorem _root_.Giron.IsTok.update {t : Token} {c : Content} (h : IsTok t c) (ht : t.isUpdateOp = true) : ∃ p, c = .punct p := by
  unfold Token.isUpdateOp at ht
  split at ht
  · next hv => exact ⟨_, h.punct_of_value hv⟩
  · next hv => exact ⟨_, h.punct_of_value hv⟩
  · cases ht

theorem _root_.Giron.IsTok.sign {t : Token} {p : Punctuator} {v : Str} (h : IsTok t (.punct p)) (hv : t.toStr? = some v) : Spell.sign v [.punct p] := by
  obtain ⟨l, k, st, e, rfl⟩ := h
  cases hv
  exact ⟨_, rfl, p, rfl, rfl⟩

theorem parsePrefixUpdate_reads (hr : RecSpells r) {p : Punctuator} : Reads (.punct p) (parsePrefixUpdate r) fun n ws _ => Spell.node n ws := by
  unfold parsePrefixUpdate
  exact .quiet fun _ => .advanceStr fun t v c ht hv => .cur fun _ _ => .bind (hr.unaryExpr c) fun e w c h => .ite (fun _ => .fails) fun _ =>
    .quiet fun _ => .pure (sq (a := [.punct p]) (ht.sign hv) (last (A := Spell.node e) h))

theorem parsePostfix_reads (hr : RecSpells r) : Spells (parsePostfix r) Spell.node := by
  intro c
  unfold parsePostfix
  refine .quiet fun _ => .cur fun _ _ => .bind (parseLeftHandSideExpr_reads hr c) fun e w c h =>
    .getLine (fun s hs hl => ⟨none, .inl rfl, .ite (fun hu => absurd (hl.symm.trans hu.1) (fun h => nomatch h)) fun _ => .pure (last h)⟩) fun s hs hl => ?_
  by_cases hu : s.hasLineTerminator = false ∧ s.current.isUpdateOp = true
  · refine ⟨some .joined, .inr rfl, .ite (fun _ => .ite (fun _ => .fails) fun _ => ?_) fun h => absurd hu h⟩
    obtain ⟨p, rfl⟩ := hs.update hu.2
    exact .advanceStr fun t v c ht hv => .quiet fun _ => .pure (sq (a := w) h (tk (ht.sign hv)))
  · exact ⟨none, .inl rfl, .ite (fun h => absurd h hu) fun _ => .pure (last h)⟩

theorem parseUpdateExpr_reads (hr : RecSpells r) : Spells (parseUpdateExpr r) Spell.node := by
  intro c
  unfold parseUpdateExpr
  refine .cur fun t ht => .ite (fun h => ?_) fun _ => parsePostfix_reads hr c
  obtain ⟨p, rfl⟩ := ht.update h
  exact parsePrefixUpdate_reads hr

theorem parseUnaryExpr_reads (hr : RecSpells r) : Spells (parseUnaryExpr r) Spell.node := by
  intro c
  unfold parseUnaryExpr
  refine .get fun s hs => .ite (fun ht => .quiet fun b => .ite (fun _ => ?_) fun _ => parseUpdateExpr_reads hr c) fun _ => parseUpdateExpr_reads hr c
  unfold parseUnaryOp
  exact .quiet fun _ => .advanceStr (hc := hs.ne_eof (by rcases ht with h | h <;> rw [h] <;> exact fun h => nomatch h)) fun t v c' ht' hv =>
    .bind (hr.unaryExpr c') fun e w c'' h => .quiet fun _ => .pure (sq (a := [c]) (hs.operator ht' ht hv) (last (A := Spell.node e) h))

theorem parsePow_reads (hr : RecSpells r) : Spells (parsePow r) Spell.node := by
  intro c
  unfold parsePow
  refine .quiet fun _ => .bind (parseUpdateExpr_reads hr c) fun e w c h => .cur fun t ht => .ite (fun _ => .consume fun t' c' hc ht' => .unwrap fun v hv =>
    .bind (hr.exponentiationExpr c') fun e' w' c'' h' => .quiet fun _ => .pure ?_) fun _ => .quiet fun _ => .pure (last h)
  subst hc
  exact sq h (sq (a := [.punct .pow]) (ht'.operator ht' (.inl ht'.punctuator) hv) (last (A := Spell.node e') h'))

theorem parseExponentiationExpr_reads (hr : RecSpells r) : Spells (parseExponentiationExpr r) Spell.node := by
  intro c
  unfold parseExponentiationExpr
  exact .get fun s hs => .quiet fun b => .ite (fun _ => parseUnaryExpr_reads hr c) fun _ => parsePow_reads hr c

theorem climbInnerF_reads (hr : RecSpells r) (p n : Nat) (e : Node) : Extends e (climbInnerF r p n e) := by
  induction n generalizing e with
  | zero => intro w hw c; exact Reads.fails (m := M.fail .fuel)
  | succ n ih =>
    intro w hw c
    unfold climbInnerF
    exact .get fun s _ => .ite (fun _ => Extends.then (fun w hw c => hr.precedenceClimbing e _ w hw c) ih w hw c) fun _ => Extends.ret w hw c

theorem _root_.Giron.Token.binOp_type {t : Token} (h : t.isBinOp = true) : t.tokentype = .punctuator ∨ t.tokentype = .keyword := by
  unfold Token.isBinOp at h
  split at h
  · next h' => exact .inl h'
  · next h' => exact .inr h'
  · cases h

theorem climbStep_reads (hr : RecSpells r) {e : Node} {w : List Mark} (hw : Spell.node e w) {t : Token} (ht : IsTok t c)
    (hb : t.isBinOp = true) : Reads c (climbStep r e) fun n ws _ => Spell.node n (w ++ ws) := by
  unfold climbStep
  refine .advance (hc := ht.ne_eof (by rcases Token.binOp_type hb with h | h <;> rw [h] <;> exact fun h => nomatch h)) fun t' c' ht' =>
    .bind (hr.exponentiationExpr c') fun e' w' c'' h' => .get fun s _ => .bind (Q := fun n ws _ => Spell.node n (w' ++ ws))
    (fun s text a s' hs hm => climbInnerF_reads hr _ _ e' w' h' c'' s text a s' hs hm) fun n w2 c2 h2 => .unwrap fun v hv => .quiet fun _ => .quiet fun _ => .pure ?_
  rw [List.append_nil]
  exact sq hw (sq (a := [c]) (ht.operator ht' (Token.binOp_type hb) hv) h2)

theorem climbF_reads (hr : RecSpells r) (p n : Nat) (e : Node) : Extends e (climbF r p n e) := by
  induction n generalizing e with
  | zero => intro w hw c; exact Reads.fails (m := M.fail .fuel)
  | succ n ih =>
    intro w hw c
    unfold climbF
    refine .get fun s hs => .ite (fun h => .bind (climbStep_reads hr hw hs h.1) fun n w' c' hn => (ih n _ hn c').mono fun x ws _ hx => ?_) fun _ => Extends.ret w hw c
    rw [← List.append_assoc]; exact hx

theorem precedenceClimbing_reads (hr : RecSpells r) (e : Node) (p : Nat) : Extends e (precedenceClimbing r e p) := by
  intro w hw c
  unfold precedenceClimbing
  exact .bind (Q := fun n ws _ => Spell.node n (w ++ ws)) (fun s text a s' hs hm => climbF_reads hr _ _ e w hw c s text a s' hs hm)
    fun n w' c h => .quiet fun _ => .pure (by rw [List.append_nil]; exact h)

theorem parseBinaryExpr_reads (hr : RecSpells r) : Spells (parseBinaryExpr r) Spell.node := by
  intro c
  unfold parseBinaryExpr
  exact .quiet fun _ => .bind (parseExponentiationExpr_reads hr c) fun e w c h => precedenceClimbing_reads hr e 1 w h c

theorem parseConditionalExpr_reads (hr : RecSpells r) : Spells (parseConditionalExpr r) Spell.node := by
  intro c
  unfold parseConditionalExpr
  exact .quiet fun _ => .bind (parseBinaryExpr_reads hr c) fun e w c h => .cur fun t ht => .ite (fun _ => .consume fun _ c _ _ =>
    .bind (.withIn (hr.assignmentExpr c)) fun x wx c hx => .consume fun _ c _ _ => .bind (hr.assignmentExpr c) fun y wy c hy => .quiet fun _ =>
    .pure (sq h (tk (sq hx (tk (last (A := Spell.node y) hy)))))) fun _ => .pure (last h)

/-! ### Arrow functions, `yield` and assignments -/

theorem parseSingleParamArrow_reads (hr : RecSpells r) (name : Str) (c : Content) :
    Reads c (parseSingleParamArrow r name) fun n ws _ => Spell.node n (.name name :: ws) := by
  unfold parseSingleParamArrow
  exact .consume fun _ c _ _ => .bind (parseArrowBody_reads hr c) fun ⟨b, e⟩ w c h => .quiet fun _ => .pure
    (sq (a := [.name name]) (.inr rfl) (tk (last (A := Spell.arrowBody e (Spell.node b)) h)))

theorem parseYieldExpr_reads (hr : RecSpells r) : Spells (parseYieldExpr r) Spell.node := by
  intro c
  unfold parseYieldExpr
  refine .quiet fun _ => .consumeKw fun _ c _ _ => .getLine (fun s hs hl => ⟨some .broken, .inr (.inl rfl), .ite (fun h =>
    absurd (hl.symm.trans h) (fun h => nomatch h)) fun _ => .quiet fun _ => .pure (tk (tk (nil rfl)))⟩) fun s hs hl => ?_
  by_cases ha : s.current.isP .fatArrow = true
  · refine ⟨none, .inl rfl, .ite (fun _ => .ite (fun h => ?_) fun _ => .ite (fun _ => parseSingleParamArrow_reads hr _ c) fun h => absurd ha h) fun h => absurd hl h⟩
    have := hs.isP h
    subst this
    cases hs.isP ha
  · refine ⟨some .joined, .inr rfl, .ite (fun _ => .ite (fun h => ?_) fun _ => .ite (fun h => absurd h ha) fun _ =>
      .bind (.withYield (hr.assignmentExpr c)) fun e w c h => .quiet fun _ => .pure (tk (tk (nil (last (A := Spell.node e) h))))) fun h => absurd hl h⟩
    have := hs.isP h
    subst this
    exact .advance fun _ c _ => .bind (.withYield (hr.assignmentExpr c)) fun e w c h => .quiet fun _ => .pure (tk (tk (tk (last (A := Spell.node e) h))))

theorem arrowIfIdentifier_reads (hr : RecSpells r) (e : Node) : Extends e (arrowIfIdentifier r e) := by
  intro w hw c
  cases e with
  | identifier name a sp =>
    cases hw
    exact .cur fun t _ => .ite (fun _ => parseSingleParamArrow_reads hr name c) fun _ => .pure rfl
  | _ => exact Extends.ret w hw c

theorem parseAssignTail_reads (hr : RecSpells r) {e : Node} {w : List Mark} (hw : Spell.node e w) :
    Reads (.punct .assign) (parseAssignTail r e) fun n ws _ => Spell.node n (w ++ ws) := by
  unfold parseAssignTail
  exact .advance fun t c _ => .ofExcept fun l hl => .ite (fun _ => .fails) fun _ => .bind (hr.assignmentExpr c) fun x wx c hx => .quiet fun _ =>
    .pure (sq (Spell.toAssignmentPattern_keeps e l hl w hw) (sq (a := [.punct .assign]) ⟨_, rfl, .assign, rfl, rfl⟩ (last (A := Spell.node x) hx)))

theorem parseOpAssignTail_reads (hr : RecSpells r) {e : Node} {w : List Mark} (hw : Spell.node e w) (c : Content) (hc : c ≠ .eof) :
    Reads c (parseOpAssignTail r e) fun n ws _ => Spell.node n (w ++ ws) := by
  unfold parseOpAssignTail
  refine .advance fun t c ht => .unwrap fun p hp => .ite (fun _ => .fails) fun _ => .bind (hr.assignmentExpr c) fun x wx c hx => .quiet fun _ => .pure ?_
  have : t.value = .punc p := by
    revert hp
    cases t.value <;> simp [Value.punc?]
  have := ht.punct_of_value this
  subst this
  exact sq hw (sq (a := [.punct p]) ⟨_, rfl, p, rfl, rfl⟩ (last (A := Spell.node x) hx))

theorem parseAssignmentExpr_reads (hr : RecSpells r) : Spells (parseAssignmentExpr r) Spell.node := by
  intro c
  unfold parseAssignmentExpr
  refine .get fun s _ => .ite (fun _ => parseYieldExpr_reads hr c) fun _ => .quiet fun _ => .bind (parseConditionalExpr_reads hr c) fun e w c h =>
    .bind (arrowIfIdentifier_reads hr e w h c) fun e' w' c h' => .cur fun t ht => .ite (fun ha => ?_) fun _ => .ite (fun hp => ?_) fun _ => .quiet fun _ => .pure ?_
  · have := ht.isP ha
    subst this
    exact (parseAssignTail_reads hr h').mono fun n ws _ hn => by rw [← List.append_assoc]; exact hn
  · exact (parseOpAssignTail_reads hr h' c (ht.ne_eof (by rw [hp.1]; exact fun h => nomatch h))).mono fun n ws _ hn => by rw [← List.append_assoc]; exact hn
  · rw [List.append_nil]; exact h'

end Parser
end Giron

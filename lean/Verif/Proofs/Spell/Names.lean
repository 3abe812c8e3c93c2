import Verif.Proofs.Spell.Convert
/-
The words read by the parser methods for names, comma expressions, function bodies, patterns and parameters.
-/
namespace Giron
open M Spec Spec.Lang
namespace Parser
variable [Env] {α β : Type} {c : Content} {R : β → List Mark → Content → Prop} {r : Rec}

theorem Quiet.bind {m : PM α} {k : α → PM β} (h : Quiet m) (hk : ∀ a, Quiet (k a)) : Quiet (m >>= k) := by
  constructor
  intro s b s'' hm
  obtain ⟨a, s1, h1, h2⟩ := bind_ok_inv hm
  obtain ⟨e1, e2, e3⟩ := h.out _ _ _ h1
  obtain ⟨f1, f2, f3⟩ := (hk a).out _ _ _ h2
  exact ⟨f1.trans e1, f2.trans e2, f3.trans e3⟩

theorem Fails.quiet {m : PM α} (h : Fails m) : Quiet m := ⟨fun s a s' hm => absurd hm (h.out s a s')⟩

instance quiet_strictReservedCheck : Quiet strictReservedCheck := by
  unfold strictReservedCheck
  refine quiet_get.bind fun s => ?_
  split
  · refine quiet_unwrap.bind fun b => ?_
    split
    · exact fails_errorCurrent.quiet
    · exact quiet_pure
  · exact quiet_pure

namespace Reads

theorem advanceStr {g : LexGoal} {k : Str → PM β}
    (h : ∀ t v c', IsTok t c → t.toStr? = some v → Reads c' (k v) fun b ws c'' => R b (c :: ws) c'')
    (hc : c ≠ .eof := by first | assumption | exact (fun h => nomatch h)) :
    Reads c (Parser.advanceStr g >>= k) R := by
  unfold Parser.advanceStr
  simp only [bind_assoc]
  exact .advance fun t c' ht => .unwrap fun v hv => h t v c' ht hv

/-- a name or keyword -/
theorem nameStr {g : LexGoal} {k : Str → PM β} {v : Str} (hc : c = .name v) (hv : v ≠ cs!"null")
    (h : ∀ c', Reads c' (k v) fun b ws c'' => R b (.name v :: ws) c'') : Reads c (Parser.advanceStr g >>= k) R := by
  subst hc
  refine .advanceStr fun t u c' ht hu => ?_
  obtain ⟨l, k', st, e, rfl⟩ := ht
  have : u = v := by
    simp only [Content.token, Token.toStr?, nameToken, if_neg hv] at hu
    split at hu <;> rename_i heq
    · split at heq
      · cases heq; cases hu; rfl
      · split at heq <;> (cases heq; cases hu; rfl)
    · split at heq
      · cases heq
      · split at heq <;> cases heq
    · cases hu
  subst this
  exact h c'

theorem idName {g : LexGoal} {k : Str → PM β}
    (h : ∀ v c', c = .name v → v ≠ cs!"null" ∧ v ≠ cs!"true" ∧ v ≠ cs!"false" →
      Reads c' (k v) fun b ws c'' => R b (.name v :: ws) c'') :
    Reads c (Parser.parseIdName g >>= k) R := by
  unfold Parser.parseIdName
  simp only [bind_assoc]
  refine .cur fun t ht => ?_
  split
  · next hi =>
    obtain ⟨v, hc, _, hn⟩ := ht.name hi
    simp only [bind_assoc]
    subst hc
    refine .advance fun t' c' ht' => .unwrap fun u hu => ?_
    obtain ⟨l, k', st, e, rfl⟩ := ht'
    have : u = v := by
      simp only [Content.token, nameToken, if_neg hn.1] at hu
      split at hu
      · cases hu; rfl
      · split at hu <;> (cases hu; rfl)
    subst this
    exact h _ c' rfl hn
  · exact .failsBind

end Reads

theorem _root_.Giron.IsTok.kwName {t : Token} {c : Content} {v : Str} (h : IsTok t c) (ht : t.isKw v = true) :
    c = .name v ∧ v ≠ cs!"null" := by
  have h1 := h.isKw ht
  refine ⟨h1, ?_⟩
  rintro rfl
  subst h1
  obtain ⟨l, k', st, e, rfl⟩ := h
  revert ht
  simp [Content.token, nameToken, Token.isKw]

theorem parseIdReference_reads (c : Content) : Reads c parseIdReference fun n ws _ =>
    ∃ v a sp, c = .name v ∧ n = .identifier v a sp ∧ ws = [.name v] := by
  unfold parseIdReference
  refine .quiet fun _ => .quiet fun _ => .get fun s hs => .ite (fun h => ?_) fun _ => .ite (fun h => .ite (fun _ => .fails) fun _ => ?_)
    fun _ => .ite (fun h => .ite (fun _ => .fails) fun _ => ?_) fun _ => .fails
  · obtain ⟨v, hc, _, hn⟩ := hs.name (by simp [Token.isIdOrKw, h])
    exact .nameStr hc hn.1 fun c' => .quiet fun sp => .pure ⟨v, _, sp, hc, rfl, rfl⟩
  · obtain ⟨hc, hn⟩ := hs.kwName h
    exact .nameStr hc hn fun c' => .quiet fun sp => .pure ⟨_, _, sp, hc, rfl, rfl⟩
  · obtain ⟨hc, hn⟩ := hs.kwName h
    exact .nameStr hc hn fun c' => .quiet fun sp => .pure ⟨_, _, sp, hc, rfl, rfl⟩

theorem parseIdReference_spells : Spells parseIdReference Spell.node :=
  fun c => (parseIdReference_reads c).mono fun _ _ _ ⟨_, _, _, _, h, h'⟩ => by rw [h, h']; rfl

theorem parseBindingId_reads (c : Content) : Reads c parseBindingId fun b ws _ =>
    ∃ v sp, c = .name v ∧ b = .bindingIdentifier v sp ∧ ws = [.name v] := by
  unfold parseBindingId
  refine .quiet fun _ => .quiet fun _ => .cur fun t ht => .ite (fun h => ?_) fun _ => .fails
  have : ∃ v, c = .name v ∧ v ≠ cs!"null" := by
    rcases h with h | h | h
    · obtain ⟨v, hc, _, hn⟩ := ht.name (by simp [Token.isIdOrKw, h])
      exact ⟨v, hc, hn.1⟩
    · exact ⟨_, ht.kwName h⟩
    · exact ⟨_, ht.kwName h⟩
  obtain ⟨v, hc, hn⟩ := this
  exact .nameStr hc hn fun c' => .quiet fun sp => .pure ⟨v, sp, hc, rfl, rfl⟩

theorem parseBindingId_spells : Spells parseBindingId Spell.binding :=
  fun c => (parseBindingId_reads c).mono fun _ _ _ ⟨_, _, _, h, h'⟩ => by rw [h, h']; rfl

/-! ### Comma expressions -/

/-- more expressions, each after a comma -/
def moreNodes : List Node → Lang
  | [] => eps
  | n :: more => pun .comma ⬝ Spell.node n ⬝ moreNodes more

theorem commaNodes_more {n : Node} {more : List Node} {w ws : List Mark} (h : Spell.node n w) (hm : moreNodes more ws) :
    Spell.commaNodes (n :: more) (w ++ ws) := by
  induction more generalizing n w ws with
  | nil => cases hm; exact sq h ⟨[], [], rfl, rfl, rfl⟩
  | cons m more ih =>
    obtain ⟨a, b, rfl, rfl, a', b', rfl, h1, h2⟩ := hm
    exact sq h (sq rfl (ih h1 h2))

theorem commaExpr_reads (hr : RecSpells r) : Spells (commaExpr r) fun n ws => (pun .comma ⬝ Spell.node n) ws := by
  intro c
  unfold commaExpr
  exact .consume fun _ c' _ _ => (hr.assignmentExpr c').mono fun n ws _ h => tk h

theorem moreNodes_reads {f : PM Node} (hf : Spells f fun n ws => (pun .comma ⬝ Spell.node n) ws) :
    Spells (whilePunc .comma f) moreNodes :=
  whilePunc_reads rfl ((hf _).mono fun n w _ h xs ws hxs => by
    obtain ⟨a, b, rfl, rfl, h1⟩ := h
    exact tk (sq h1 hxs))

theorem moreNodes_reads' {f : PM Node} (hf : Spells f fun n ws => (pun .comma ⬝ Spell.node n) ws) :
    Reads (.punct .comma) (whilePunc .comma f) fun more ws _ => moreNodes more ws ∧ more ≠ [] := by
  have key : ∀ n, Reads (.punct .comma) (whilePuncF .comma f n) fun more ws _ => moreNodes more ws ∧ more ≠ [] := by
    intro n
    cases n with
    | zero => exact Reads.fails (m := M.fail .fuel)
    | succ n =>
      refine .cur fun t ht => .ite (fun _ => ?_) fun h => absurd rfl (ht.notP h)
      refine .bind (hf _) fun x w c' h => .bind (whilePuncF_reads (I := moreNodes) rfl ((hf _).mono fun n w _ h xs ws hxs => ?_) n c') fun xs ws c'' hxs => .pure ?_
      · obtain ⟨a, b, rfl, rfl, h1⟩ := h
        exact tk (sq h1 hxs)
      · obtain ⟨a, b, rfl, rfl, h1⟩ := h
        rw [List.append_nil]
        exact ⟨tk (sq h1 hxs), List.cons_ne_nil _ _⟩
  exact fun s past n text a s' hs hm => key _ s past n text a s' hs hm

theorem parseExpression_reads (hr : RecSpells r) : Spells (parseExpression r) Spell.node := by
  intro c
  unfold parseExpression
  refine .quiet fun _ => .bind (hr.assignmentExpr c) fun e w c' h => .cur fun t ht => .ite (fun hc => ?_) fun _ => .pure (last h)
  obtain rfl := ht.punc hc
  refine .bind (moreNodes_reads' (commaExpr_reads hr)) fun more ws c'' ⟨hm, hne⟩ => .quiet fun sp => .pure ?_
  rw [List.append_nil]
  refine .inr ?_
  rw [if_neg (by cases more <;> simp_all)]
  exact commaNodes_more h hm

/-! ### Function bodies -/

theorem nodes_append {l l' : List Node} {w w' : List Mark} (h : Spell.nodes l w) (h' : Spell.nodes l' w') :
    Spell.nodes (l ++ l') (w ++ w') := by
  induction l generalizing w with
  | nil => cases h; exact h'
  | cons n l ih =>
    obtain ⟨a, b, rfl, h1, h2⟩ := h
    rw [List.append_assoc]
    exact sq h1 (ih h2)

theorem parseDirective_reads (hr : RecSpells r) (c : Content) (hc : c ≠ .punct .lBrace) :
    Reads c (parseDirective r) fun n ws _ => Spell.node n ws := by
  unfold parseDirective
  refine .quiet fun _ => .bind (Reads.notFirst (bad := [.punct .lBrace]) (by simpa using hc) (parseExpression_reads hr c)) fun e w c' h => ?_
  have := quiet_ctx (f := fun s => { s.ctx with strict := true })
  exact .quiet fun _ => .bind (consumeSemicolon_reads c') fun _ w' c'' h' => .quiet fun _ => .pure (sq h (last h'))

theorem directiveProloguesF_reads (hr : RecSpells r) (n : Nat) : Spells (directiveProloguesF r n) Spell.nodes := by
  induction n with
  | zero => intro c; exact Reads.fails (m := M.fail .fuel)
  | succ n ih =>
    intro c
    exact .cur fun t ht => .ite (fun h => .bind (parseDirective_reads hr c (by rintro rfl; obtain ⟨_, _, _, _, rfl⟩ := ht; cases h)) fun x w c' h =>
      .bind (ih c') fun xs ws c'' hs => .pure (sq h (last hs))) fun _ => .pure rfl

theorem parseDirectivePrologues_reads (hr : RecSpells r) : Spells (parseDirectivePrologues r) Spell.nodes :=
  fun c s past n text a s' hs hm => directiveProloguesF_reads hr _ c s past n text a s' hs hm

theorem parseStatementList_reads (hr : RecSpells r) : Spells (parseStatementList r) Spell.nodes :=
  fun c => (untilPunc_reads (I := Spell.nodes) rfl (fun c _ => (hr.stmtListItem c).mono fun x w _ h xs ws _ hs => sq h hs) c).mono
    fun _ _ _ h => h.1

theorem parseFunctionBodyBlock_reads (hr : RecSpells r) : Spells (parseFunctionBodyBlock r) Spell.node := by
  intro c
  unfold parseFunctionBodyBlock
  refine .quiet fun _ => .consume fun _ c _ _ => .get fun _ _ => .bind (parseDirectivePrologues_reads hr c) fun ps w c h => .get fun _ _ =>
    .bind (parseStatementList_reads hr c) fun ss w' c h' => .ctx fun _ => .consume fun _ c _ _ => .ctx fun _ => .quiet fun _ => .pure ?_
  rw [← List.append_assoc]
  exact tk (sq (nodes_append h h') rfl)

theorem parseFunctionBody_reads (hr : RecSpells r) : Spells (parseFunctionBody r) Spell.node := by
  intro c
  unfold parseFunctionBody
  exact .get fun _ _ => .ctx fun _ => .bind (.withReturn (parseFunctionBodyBlock_reads hr c)) fun b w c h => .ctx fun _ => .pure (last h)

theorem parseArrowBody_reads (hr : RecSpells r) : Spells (parseArrowBody r) fun b => Spell.arrowBody b.2 (Spell.node b.1) := by
  intro c
  unfold parseArrowBody
  exact .cur fun t ht => .ite
    (fun _ => .bind (.withYieldAwait (parseFunctionBody_reads hr c)) fun b w c h => .pure (last (A := Spell.node b) h))
    fun hn => .bind (.withYieldAwait (Reads.notFirst (bad := [.punct .lBrace]) (by simpa using ht.notP hn) (hr.assignmentExpr c)))
      fun b w c h => .pure (last (A := notFirst [.punct .lBrace] (Spell.node b)) h)

end Parser
end Giron

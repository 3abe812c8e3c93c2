import Verif.Proofs.Spell.Stmt
/-
The words read by the parser methods for imports, exports, scripts and modules.
-/
namespace Giron
open M Spec Spec.Lang

theorem IsTok.kw_mem [Env] {t : Token} {c : Content} {v : Str} (h : IsTok t c) (ht : t.isKw v = true) : v ∈ keywords := by
  have hc := h.isKw ht
  subst hc
  unfold Token.isKw at ht
  simp only [Bool.and_eq_true, decide_eq_true_eq] at ht
  obtain ⟨l, k, st, e, rfl⟩ := h
  have ht := ht.1
  simp only [Content.token, nameToken] at ht
  split at ht
  · cases ht
  · split at ht
    · cases ht
    · split at ht
      · assumption
      · cases ht

namespace Parser
variable [Env] {α β : Type} {c : Content} {R : β → List Mark → Content → Prop} {r : Rec}

/-! ### Imports -/

theorem parseImportLocal_reads {k : Identifier → PM β} (h : ∀ v sp c', Reads c' (k ⟨v, sp⟩) fun b ws c'' => R b (.name v :: ws) c'') :
    Reads c (parseImportLocal >>= k) R := by
  unfold parseImportLocal
  simp only [bind_assoc]
  refine .bind (.withYieldAwait (parseBindingId_reads c)) fun b w c' hb => ?_
  obtain ⟨v, sp, _, rfl, rfl⟩ := hb
  exact h v sp c'

theorem _root_.Giron.IsTok.stringLit {t : Token} {c : Content} (h : IsTok t c) (ht : t.tokentype = .stringLiteral) : ∃ v o, c = .string v o := by
  obtain ⟨l, k, st, e, rfl⟩ := h
  cases c with
  | name v =>
    simp only [Content.token, nameToken] at ht
    split at ht
    · cases ht
    · split at ht
      · cases ht
      · split at ht <;> cases ht
  | string v o => exact ⟨_, _, rfl⟩
  | _ => cases ht

theorem parseModuleSpecifier_reads : Spells parseModuleSpecifier Spell.stringWord := by
  intro c
  unfold parseModuleSpecifier
  refine .cur fun t ht => .ite (fun h => .quiet fun _ => ?_) fun _ => .fails
  obtain ⟨v, o, rfl⟩ := ht.stringLit h
  refine .advance fun t' _ ht' => .quiet fun _ => .pure ?_
  obtain ⟨l, k, st, e, rfl⟩ := ht'
  exact ⟨_, rfl, v, o, rfl, rfl, rfl⟩

/-- after `import` -/
def importWords (n : Node) (ws : List Mark) : Prop := Spell.node n (.name cs!"import" :: ws)

theorem parseImportFrom_reads {l : List ImportDeclarationSpecifier} {w : List Mark} (hw : Spell.importClause l w) (c : Content) :
    Reads c (parseImportFrom l) fun n ws _ => importWords n (w ++ ws) := by
  unfold parseImportFrom
  exact .consumeId fun _ c _ _ => .bind (parseModuleSpecifier_reads c) fun s ws c hs => .bind (consumeSemicolon_reads c) fun _ w' c h' => .quiet fun _ =>
    .pure (tk (sq hw (tk (sq hs (last h')))))

theorem parseNamespaceImport_reads : Spells parseNamespaceImport Spell.importList := by
  intro c
  unfold parseNamespaceImport
  exact .consume fun _ c _ _ => .consumeId fun _ c _ _ => parseImportLocal_reads fun v sp c' => .pure (tk (tk rfl))

theorem importSpec_reads (c : Content) : Reads c importSpec fun x w c' =>
    ∀ xs ws, (xs = [] ↔ c' = .punct .rBrace) → Spell.importNames xs ws → Spell.importNames (x :: xs) (w ++ ws) := by
  unfold importSpec
  refine .quiet fun _ => .idName fun v c hc _ => .quiet fun sp => .cur fun t ht => .ite (fun h => ?_) fun _ => .ite (fun _ => .fails) fun _ =>
    .bind (commaUnless_reads c) fun _ w' c h' => .pure fun xs ws he hs => ?_
  · have := ht.isId h
    subst this
    refine .advance fun _ c _ => parseImportLocal_reads fun u sp' c => .bind (commaUnless_reads c) fun _ w' c h' => .pure fun xs ws he hs => ?_
    have h1 : (word v ⬝ word cs!"as" ⬝ word u) [.name v, .name cs!"as", .name u] := tk (tk rfl)
    exact same_words (sq (A := (word v ⬝ word cs!"as" ⬝ word u).or _) (.inl h1) (sq (h' xs he) hs)) (by simp)
  · have h1 : (if (⟨v, sp⟩ : Identifier) = ⟨v, sp⟩ then word v else nothing) [.name v] := by rw [if_pos rfl]; rfl
    exact same_words (sq (A := Lang.or (word v ⬝ word cs!"as" ⬝ word v) _) (.inr h1) (sq (h' xs he) hs)) (by simp)

theorem importList_names {l : List ImportDeclarationSpecifier} {ws : List Mark} (h : Spell.importNames l ws) :
    Spell.importList l (.punct .lBrace :: (ws ++ [.punct .rBrace])) := by
  unfold Spell.importList
  split
  · exact h.elim
  · exact tk (sq h rfl)

theorem parseNamedImports_reads : Spells parseNamedImports Spell.importList := by
  intro c
  unfold parseNamedImports
  exact .consume fun _ c _ _ => .bind (untilPunc_reads (p := .rBrace) (I := Spell.importNames) rfl (fun c _ => importSpec_reads c) c) fun l w c h =>
    .consume fun _ _ _ _ => .pure (importList_names h.1)

theorem importClause_more {v : Str} {sp : Span} {l : List ImportDeclarationSpecifier} {w : List Mark} (h : Spell.importList l w) :
    Spell.importClause (.importSpecifier ⟨v, sp⟩ ⟨v, sp⟩ :: l) (.name v :: .punct .comma :: w) := by
  refine .inr ?_
  dsimp only
  rw [if_pos rfl]
  exact tk (.inl (tk h))

theorem parseImportDefault_reads : Spells parseImportDefault importWords := by
  intro c
  unfold parseImportDefault
  refine parseImportLocal_reads fun v sp c => .cur fun t ht => .ite (fun h => ?_) fun _ => parseImportFrom_reads (w := [.name v]) ?_ c
  · have := ht.isP h
    subst this
    exact .advance fun _ c _ => .cur fun t ht => .ite (fun _ => .bind (parseNamespaceImport_reads c) fun l w c h => parseImportFrom_reads (importClause_more h) c) fun _ =>
      .ite (fun _ => .bind (parseNamedImports_reads c) fun l w c h => parseImportFrom_reads (importClause_more h) c) fun _ => .fails
  · refine .inr ?_
    dsimp only
    rw [if_pos rfl]
    exact tk (.inr rfl)

theorem parseImportDclr_reads : Spells parseImportDclr Spell.node := by
  intro c
  unfold parseImportDclr
  exact .quiet fun _ => .consumeKw fun _ c _ _ => .cur fun t ht => .ite (fun _ => .bind (parseNamespaceImport_reads c) fun l w c h => parseImportFrom_reads (.inl h) c) fun _ =>
      .ite (fun _ => .bind (parseNamedImports_reads c) fun l w c h => parseImportFrom_reads (.inl h) c) fun _ => .ite (fun _ => parseImportDefault_reads c) fun _ =>
      .ite (fun _ => .fails) fun _ => .fails

/-! ### Exports -/

theorem exportSpec_reads (c : Content) : Reads c exportSpec fun x w c' =>
    ∀ xs ws, (xs = [] ↔ c' = .punct .rBrace) → Spell.exportNames xs ws → Spell.exportNames (x :: xs) (w ++ ws) := by
  unfold exportSpec
  refine .quiet fun _ => .idName fun v c hc _ => .cur fun t ht => .ite (fun h => .quiet fun sp => ?_) fun _ => .quiet fun sp =>
    .bind (commaUnless_reads c) fun _ w' c h' => .pure fun xs ws he hs => ?_
  · have := ht.isId h
    subst this
    refine .advance fun _ c _ => .quiet fun _ => .idName fun u c _ _ => .quiet fun _ => .bind (commaUnless_reads c) fun _ w' c h' => .pure fun xs ws he hs => ?_
    have h1 : (word v ⬝ word cs!"as" ⬝ word u) [.name v, .name cs!"as", .name u] := tk (tk rfl)
    exact same_words (sq (A := (word v ⬝ word cs!"as" ⬝ word u).or _) (.inl h1) (sq (h' xs he) hs)) (by simp)
  · have h1 : (if (⟨v, sp⟩ : Identifier) = ⟨v, sp⟩ then word v else nothing) [.name v] := by rw [if_pos rfl]; rfl
    exact same_words (sq (A := Lang.or (word v ⬝ word cs!"as" ⬝ word v) _) (.inr h1) (sq (h' xs he) hs)) (by simp)

/-- Every result of the method is of this kind. -/
def Gives (m : PM α) (P : α → Prop) : Prop := ∀ s a s', m s = .ok (a, s') → P a

theorem Gives.bind {m : PM α} {k : α → PM β} {P : β → Prop} (h : ∀ a, Gives (k a) P) : Gives (m >>= k) P := by
  intro s b s' hb
  obtain ⟨a, s1, _, h2⟩ := bind_ok_inv hb
  exact h a s1 b s' h2

theorem Gives.pure {a : α} {P : α → Prop} (h : P a) : Gives (pure a : PM α) P := by
  intro s b s' hb
  cases hb
  exact h

theorem Gives.ite {c : Prop} [Decidable c] {m m' : PM α} {P : α → Prop} (h : Gives m P) (h' : Gives m' P) : Gives (if c then m else m') P := by
  split
  · exact h
  · exact h'

theorem Gives.fails {m : PM α} [Fails m] {P : α → Prop} : Gives m P := fun s a s' h => (Fails.out s a s' h).elim

theorem Reads.gives {c : Content} {m : PM α} {Q : α → List Mark → Content → Prop} {P : α → Prop} (h : Reads c m Q) (hg : Gives m P) :
    Reads c m fun a ws c' => Q a ws c' ∧ P a := by
  intro s past n text a s' hs hm
  obtain ⟨ms, past', w', text', h1, h2, h3⟩ := h s past n text a s' hs hm
  exact ⟨ms, past', w', text', h1, h2, h3, hg s a s' hm⟩

theorem parseFunctionDclr_gives (r : Rec) (async gen : Bool) : Gives (parseFunctionDclr r async gen) fun n => Spell.isDeclaration n = true := by
  unfold parseFunctionDclr parseFunctionDclrRest
  exact .bind fun _ => .ite .fails (.bind fun _ => .bind fun _ => .bind fun _ => .bind fun _ => .bind fun _ => .bind fun _ => .pure rfl)

theorem parseHoistableDclr_gives (r : Rec) : Gives (parseHoistableDclr r) fun n => Spell.isDeclaration n = true := by
  unfold parseHoistableDclr
  exact .bind fun _ => .ite (.bind fun _ => .bind fun _ => parseFunctionDclr_gives _ _ _) (.ite (parseFunctionDclr_gives _ _ _) .fails)

theorem parseClassTail_gives (r : Rec) (id : Option Node) : Gives (parseClassTail r id) fun n => Spell.isDeclaration n = true := by
  unfold parseClassTail
  exact .bind fun _ => .bind fun _ => .bind fun _ => .bind fun _ => .bind fun _ => .bind fun _ => .pure rfl

theorem parseClassDclr_gives (r : Rec) : Gives (parseClassDclr r) fun n => Spell.isDeclaration n = true := by
  unfold parseClassDclr
  refine .bind fun _ => .bind fun _ => .bind fun _ => .bind fun _ => .bind fun _ => .bind fun _ => ?_
  intro s a s' h
  obtain ⟨b, s1, h1, h2⟩ := bind_ok_inv h
  obtain ⟨_, s2, _, h2⟩ := bind_ok_inv h2
  cases h2
  exact parseClassTail_gives _ _ _ _ _ h1

theorem parseExportDefault_reads (hr : RecSpells r) : Reads (.name cs!"default") (parseExportDefault r) fun n ws _ =>
    Spell.node n (.name cs!"export" :: ws) := by
  unfold parseExportDefault
  exact .advance fun _ c _ => .cur fun t ht =>
    .ite (fun _ => .bind (.withParams ((parseHoistableDclr_reads hr c).gives (parseHoistableDclr_gives r))) fun d w c h => .quiet fun _ => .pure (tk (tk (sq h.1 (b := []) (.inr (by rw [if_pos h.2]; rfl)))))) fun _ =>
    .ite (fun _ => .bind (.withParams ((parseClassDclr_reads hr c).gives (parseClassDclr_gives r))) fun d w c h => .quiet fun _ => .pure (tk (tk (sq h.1 (b := []) (.inr (by rw [if_pos h.2]; rfl)))))) fun _ =>
    .bind (.withParams (hr.assignmentExpr c)) fun d w c h => .bind (consumeSemicolon_reads c) fun _ w' c h' => .quiet fun _ => .pure (tk (tk (sq h (last (.inl h')))))

theorem parseExportNamed_reads (c : Content) : Reads c parseExportNamed fun n ws _ => Spell.node n (.name cs!"export" :: ws) := by
  unfold parseExportNamed
  refine .bind (Q := fun l ws _ => (pun .lBrace ⬝ Spell.exportNames l ⬝ pun .rBrace) ws) ?_ fun l w c h => .cur fun t ht => .ite (fun hk => ?_) fun _ => .quiet fun _ =>
    .pure (tk (last (A := pun .lBrace ⬝ Spell.exportNames l ⬝ pun .rBrace) h))
  · unfold parseNamedExports
    exact .consume fun _ c _ _ => .bind (untilPunc_reads (p := .rBrace) (I := Spell.exportNames) rfl (fun c _ => exportSpec_reads c) c) fun l w c h =>
      .consume fun _ _ _ _ => .pure (tk (sq h.1 rfl))
  · exact absurd (ht.kw_mem hk) (by decide)

theorem parseExportAll_reads : Reads (.punct .star) parseExportAll fun n ws _ => Spell.node n (.name cs!"export" :: ws) := by
  unfold parseExportAll
  exact .advance fun _ c _ => .consumeId fun _ c _ _ => .bind (parseModuleSpecifier_reads c) fun s ws c hs => .bind (consumeSemicolon_reads c) fun _ w' c h' =>
    .quiet fun _ => .pure (tk (tk (tk (sq hs (last h')))))

theorem parseExportDclr_reads (hr : RecSpells r) : Spells (parseExportDclr r) Spell.node := by
  intro c
  unfold parseExportDclr
  refine .quiet fun _ => .consumeKw fun _ c _ _ => .cur fun t ht => .ite (fun h => ?_) fun _ =>
    .ite (fun _ => .bind (.withYieldAwait (parseVariableStmt_reads hr c)) fun d w c h => .quiet fun _ => .pure (tk (last (A := Spell.node d) h))) fun _ =>
    .ite (fun _ => .bind (.withYieldAwait (parseDeclaration_reads hr c)) fun d w c h => .quiet fun _ => .pure (tk (last (A := Spell.node d) h))) fun _ =>
    .ite (fun _ => parseExportNamed_reads c) fun _ => .ite (fun h => ?_) fun _ => .fails
  · have := ht.isKw h
    subst this
    exact parseExportDefault_reads hr
  · have := ht.isP h
    subst this
    exact parseExportAll_reads

theorem parseModuleItem_reads (hr : RecSpells r) : Spells (parseModuleItem r) Spell.node := by
  intro c
  unfold parseModuleItem
  exact .cur fun t ht => .ite (fun _ => parseImportDclr_reads c) fun _ => .ite (fun _ => parseExportDclr_reads hr c) fun _ => .withParams (hr.stmtListItem c)

/-! ### Programs -/

theorem run_spells (n : Nat) : RecSpells (run n) := by
  induction n with
  | zero =>
    exact ⟨fun _ => Reads.fails (m := M.fail .fuel), fun _ => Reads.fails (m := M.fail .fuel), fun _ => Reads.fails (m := M.fail .fuel),
      fun _ => Reads.fails (m := M.fail .fuel), fun _ => Reads.fails (m := M.fail .fuel), fun _ => Reads.fails (m := M.fail .fuel),
      fun _ _ _ _ _ => Reads.fails (m := M.fail .fuel), fun _ => Reads.fails (m := M.fail .fuel), fun _ => Reads.fails (m := M.fail .fuel)⟩
  | succ n ih =>
    exact ⟨parseAssignmentExpr_reads ih, parseStmtListItem_reads ih, parseStatement_reads ih, parseUnaryExpr_reads ih,
      parseExponentiationExpr_reads ih, parseNewExpr_reads ih, fun e p w hw => precedenceClimbing_reads ih e p w hw, parseBindingIdOrPat_reads ih,
      parseLeftHandSideExpr_reads ih⟩

theorem parseScriptBody_reads (hr : RecSpells r) (c : Content) : Reads c (parseScriptBody r) fun n ws c' => Spell.whole n ws ∧ c' = .eof := by
  unfold parseScriptBody
  refine .quiet fun _ => .bind (parseDirectivePrologues_reads hr c) fun ps w c h => .bind (untilEof_reads (I := Spell.nodes) rfl
    (fun c => (hr.stmtListItem c).mono fun x w _ h xs ws hs => sq h hs) c) fun l w' c h' => .quiet fun _ => .pure ⟨?_, h'.2⟩
  rw [List.append_nil]
  exact nodes_append h h'.1

theorem parseModuleBody_reads (hr : RecSpells r) (c : Content) : Reads c (parseModuleBody r) fun n ws c' => Spell.whole n ws ∧ c' = .eof := by
  unfold parseModuleBody
  refine .quiet fun _ => .ctx fun _ => .bind (.withParams (parseDirectivePrologues_reads hr c)) fun ps w c h => .bind (untilEof_reads (I := Spell.nodes) rfl
    (fun c => (parseModuleItem_reads hr c).mono fun x w _ h xs ws hs => sq h hs) c) fun l w' c h' => .quiet fun _ => .pure ⟨?_, h'.2⟩
  rw [List.append_nil]
  exact nodes_append h h'.1

theorem new_stands {source : Str} {p : Parser} (h : Parser.new source = .ok p) :
    ∃ w text, Stands p [] w text ∧ Tok source w text := by
  unfold Parser.new at h
  split at h
  · next t sc hn =>
    cases h
    have hs : Stands ⟨Scanner.new source, false, Content.token 1 0 0 0 .eof, ⟨false, false, false, false⟩, Params.new, [], []⟩
        [] ⟨.eof, false⟩ source :=
      ⟨⟨1, 0, 0, 0, rfl⟩, ⟨rfl, rfl⟩, .inl ⟨rfl, rfl⟩, fun h => (nomatch h), fun _ => .inl rfl, Nat.le_refl _, .inl rfl⟩
    obtain ⟨w, text', k1, k2, k3, k4, k5, _, _, k8⟩ := Reads.next_tok hs hn
    have hl : sc.line = t.lineNum := by
      rcases k8 with k8 | ⟨_, v, _, hv⟩
      · exact k8
      · cases hv
    exact ⟨w, text', ⟨k1, k3, .inl ⟨k4, k5⟩, fun h => (nomatch h), fun _ => .inr (.inl rfl), Nat.le_of_eq hl, .inl hl⟩, k2⟩
  · cases h
  · cases h

theorem _root_.Giron.Passes.obeys {past past' : List Word} {w w' : Word} {text source text' : Str} {ms : List Mark}
    (hp : Passes past w text ms past' w' text') (hw : w'.c = .eof) (ht : Tok source w text) :
    ∃ ws, Lexes source (w :: ws) ∧ Obeys past ms (w :: ws) := by
  induction hp generalizing source with
  | @here past w text =>
    obtain ⟨c, n⟩ := w
    change c = .eof at hw
    subst hw
    obtain ⟨g, b, w, x, rfl, h1, _, h3, h4⟩ := ht
    dsimp only at h3 h4
    cases h3
    simp only [List.append_nil] at h1 h4 ⊢
    subst h4
    exact ⟨[], .done h1, .done⟩
  | @step past past' w w1 w' text text1 text' ms hc hk _ ih =>
    obtain ⟨ws, h1, h2⟩ := ih hw hk
    obtain ⟨c, n⟩ := w
    obtain ⟨g, b, w, x, rfl, k1, k2, k3, k4⟩ := ht
    change n = _ at k4
    subst k4
    exact ⟨_, .word k1 k2 k3 hc h1, .word h2⟩
  | mark hm _ ih =>
    obtain ⟨ws, h1, h2⟩ := ih hw ht
    exact ⟨ws, h1, .mark hm h2⟩

theorem spells_source {body : PM Node} (hb : ∀ c, Reads c body fun n ws c' => Spell.whole n ws ∧ c' = .eof) {source : Str} {p : Parser}
    (hn : Parser.new source = .ok p) {t : Node} {p' : Parser} (h : body p = .ok (t, p')) :
    ∃ ws ms, Lexes source ws ∧ Obeys [] ms ws ∧ Spell.whole t ms := by
  obtain ⟨⟨c, n⟩, text, hs, ht⟩ := new_stands hn
  obtain ⟨ms, past', w', text', _, hp, hq, hw⟩ := hb c _ _ _ _ _ _ hs h
  obtain ⟨ws, h1, h2⟩ := hp.obeys hw ht
  exact ⟨_, ms, h1, h2, hq⟩

end Parser

variable [Env]

theorem parseScript_spells {source : Str} {t : Node} (h : parseScript source = .ok t) : ∃ ws ms, Lexes source ws ∧ Obeys [] ms ws ∧ Spell.whole t ms := by
  unfold parseScript parseScriptState at h
  split at h
  · next p hp =>
    cases hb : Parser.parseScriptBody (Parser.run (Parser.depth source)) p with
    | error f => rw [hb] at h; cases h
    | ok x => rw [hb] at h; cases h; exact Parser.spells_source (Parser.parseScriptBody_reads (Parser.run_spells _)) hp hb
  · cases h

theorem parseModule_spells {source : Str} {t : Node} (h : parseModule source = .ok t) : ∃ ws ms, Lexes source ws ∧ Obeys [] ms ws ∧ Spell.whole t ms := by
  unfold parseModule parseModuleState at h
  split at h
  · next p hp =>
    cases hb : Parser.parseModuleBody (Parser.run (Parser.depth source)) p with
    | error f => rw [hb] at h; cases h
    | ok x => rw [hb] at h; cases h; exact Parser.spells_source (Parser.parseModuleBody_reads (Parser.run_spells _)) hp hb
  · cases h

end Giron

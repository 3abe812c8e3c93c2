import Verif.Spec.Program
import Verif.Proofs.Complete.Switch
import Verif.Proofs.Complete.Feed
import Verif.Proofs.Lex.Escapes
/-
Grammar completeness: scripts and modules.
-/
namespace Giron.Complete
open Giron M Spec Grammar Parser
variable [Env]
variable {α β : Type} {c c' : Ctx} {ps : List Giron.Params} {k : Nat} {w nx : Word} {ws rest l l' semi : List Word} {s : Parser}
  {v u : Str} {n m : Bool} {r : Rec} {t o a b : Node}

/-- Items up to the end of input. -/
theorem untilEofF_ok {R : Ctx → List Word → Word → Node → Prop} {f : PM Node} (hR : ∀ w nx a, R c w nx a → Begins (fun x => isEof x = false ∧ x.fits .regExp = true) w)
    (hf : ∀ w nx a, R c w nx a → ReadsBefore f bareNode c w nx a) (j : Nat) :
    ∀ {ws ts s}, Items R c ws ⟨.eof, m⟩ ts → St c ps k (ws ++ [⟨.eof, m⟩]) s →
    Ok (untilEofF f j) s (fun xs s' => xs.map bareNode = ts ∧ St c ps k [⟨.eof, m⟩] s') := by
  induction j with
  | zero => intro _ _ _ _ _; exact rfl
  | succ j ih =>
    intro ws ts s hl h
    unfold untilEofF
    cases hl with
    | nil =>
      lk! h ht
      exact ok_then (by tk ht) (pure_ok ⟨rfl, h⟩)
    | @cons _ w ws _ a as hi hl =>
      obtain ⟨x, w', rfl, hx⟩ := hR _ _ _ hi
      nm! h
      lk! h ht
      refine ok_else (by rw [ht.eof, hx.1]; simp) ?_
      obtain ⟨l, e⟩ := first_cons ws ⟨.eof, m⟩ []
      rw [e] at h
      have hfit : (first ws ⟨.eof, m⟩).c.fits .regExp = true := by
        cases hl with
        | nil => rfl
        | cons h _ =>
          obtain ⟨x, l, rfl, hx⟩ := hR _ _ _ h
          exact hx.2
      rde! (hf _ _ _ hi hfit _ _ _ _ h) with a ea h
      rw [← e] at h
      rde! (ih hl h) with xs exs h
      exact pure_ok ⟨by simp [ea, exs], h⟩

theorem item_eof (h : Item c ws nx t) : Begins (fun x => isEof x = false ∧ x.fits .regExp = true) ws :=
  (item_begins h).mono fun _ h => ⟨startsItem_eof h, startsItem_fits h⟩

theorem noString_first {e : Bool} (h : NoString ws) : isString (first ws ⟨.eof, e⟩).c = false := by
  cases ws with
  | nil => rfl
  | cons x ws =>
    obtain ⟨x, k⟩ := x
    cases x with
    | string v o => exact absurd rfl (h v o k ws)
    | _ => rfl

/-- Scripts. -/
theorem parseScriptBody_ok (hr : RecOk r) (hs : Script ws t) (h : St scriptCtx ps k ws s) :
    Ok (parseScriptBody r) s (fun a _ => bareNode a = t) := by
  cases hs with
  | @mk w ws e c ds ts hp hl hstr =>
    unfold parseScriptBody
    sp! h
    obtain ⟨l, e1⟩ := first_cons ws ⟨.eof, e⟩ []
    rw [e1] at h
    rde! (parseDirectivePrologues_ok hr (items_fits hl rfl) (noString_first hstr) hp h) with xs ex h
    rw [← e1] at h
    rde! (untilEofF_ok (fun _ _ _ => item_eof) (fun _ _ _ => hr.item) _ hl h) with ys ey h
    es! h
    exact pure_ok (by simp [bareNode, bareListNode_eq, ex, ey])

theorem script_fits (hs : Script ws t) : FitsAt .regExp ws := by
  cases hs with
  | @mk w ws e c ds ts hp hl hstr =>
    obtain ⟨l, e1⟩ := first_cons ws ⟨.eof, e⟩ []
    rw [e1]
    obtain ⟨l', e2⟩ := first_cons w (first ws ⟨.eof, e⟩) l
    rw [e2]
    exact prologue_fits hp (items_fits hl rfl)

/-! ### Imports -/

theorem parseImportLocal_ok (hv : Bindable moduleCtx v) (h : St moduleCtx ps k (W v n :: l) s) (hl : FitsAt .div l) :
    Ok parseImportLocal s (fun a s' => bareIdentifier a = ⟨v, sp⟩ ∧ St moduleCtx ps k l s') := by
  unfold parseImportLocal
  rde! (withYieldAwait_ok (c := moduleCtx) (y := false) (a := false) (fun ps s h => parseBindingId_ok' hv h hl) h) with x ex h
  obtain ⟨s', rfl⟩ := bare_bindingId ex
  exact ⟨rfl, h⟩

theorem parseModuleSpecifier_ok {oct : Bool} (h : St c ps k (⟨.string v oct, n⟩ :: l) s) (hl : FitsAt .regExp l) :
    Ok parseModuleSpecifier s (fun a s' => bareLiteral a = source v ∧ St c ps k l s') := by
  unfold parseModuleSpecifier
  lk! h ht
  refine ok_then (by tk ht) ?_
  sp! h
  ad! h ht hl
  es! h
  refine pure_ok ⟨?_, h⟩
  rw [ht.value]
  rfl

theorem parseImportFrom_ok {xs : List ImportDeclarationSpecifier} {oct j : Bool} (hs : Semi semi nx) (hnx : nx.c.fits .regExp = true)
    (h : St c ps (k + 1) (W cs!"from" n :: ⟨.string v oct, j⟩ :: (semi ++ nx :: rest)) s) :
    Ok (parseImportFrom xs) s (fun a s' => bareNode a = .importDeclaration (xs.map bareImportSpecifier) (source v) sp ∧
      St c ps k (nx :: rest) s') := by
  unfold parseImportFrom
  id! h rfl
  rde! (parseModuleSpecifier_ok h (semi_fits hs hnx)) with x ex h
  sc! h hs hnx
  es! h
  exact pure_ok ⟨by simp [bareNode, ex], h⟩

theorem importSpec_begins {x : ImportDeclarationSpecifier} (h : ImportSpec c ws x) : Begins (ItemStart .rBrace) ws := by
  cases h <;> exact .cons ⟨rfl, rfl, rfl⟩

theorem afterComma_fits {close : Punctuator} {g : LexGoal} (h : AfterComma close l l') (hc : (Content.punct close).fits g = true) :
    FitsAt g l := by
  rcases h with ⟨n, rfl, -⟩ | ⟨n, X, rfl, -⟩
  · cases g <;> rfl
  · exact hc

theorem importSpec_ok : ReadsItem .rBrace importSpec bareImportSpecifier moduleCtx (ImportSpec moduleCtx) := by
  intro w a hw ps k l l' s hl h
  unfold importSpec
  cases hw with
  | @as v _ u n m j hv hu =>
    nm! h
    sp! h
    rd! (parseIdName_ok h hv rfl) with x h
    es! h
    lk! h ht
    refine ok_then (by tk ht [plain, wordy]) ?_
    ad! h ht rfl
    rde! (parseImportLocal_ok hu h (afterComma_fits hl rfl)) with x ex h
    refine Sat.bind (commaUnless_ok (by decide) hl h) ?_
    clear h
    rintro _ _ h
    exact pure_ok ⟨by simp [bareImportSpecifier, ex]; rfl, h⟩
  | @plain v _ n hv =>
    nm! h
    sp! h
    rd! (parseIdName_ok h hv.2 (afterComma_fits hl rfl)) with x h
    es! h
    obtain ⟨y, rest, rfl, j, hy⟩ := hl.split
    lk! h ht
    refine ok_else (by rcases hy with rfl | rfl <;> tk ht) ?_
    refine ok_else (by rw [Scanner.isKeyword_iff]; exact hv.1) ?_
    refine Sat.bind (commaUnless_ok (by decide) hl h) ?_
    clear h
    rintro _ _ h
    exact pure_ok ⟨rfl, h⟩

theorem parseNamespaceImport_ok {i j : Bool} (hv : Bindable moduleCtx v)
    (h : St moduleCtx ps k (P .star i :: W cs!"as" j :: W v n :: l) s) (hl : FitsAt .div l) :
    Ok parseNamespaceImport s (fun xs s' => xs.map bareImportSpecifier = [.importNamespaceSpecifier ⟨v, sp⟩] ∧
      St moduleCtx ps k l s') := by
  unfold parseNamespaceImport
  eat! h rfl
  id! h rfl
  rde! (parseImportLocal_ok hv h hl) with x ex h
  exact pure_ok ⟨by simp [bareImportSpecifier, ex], h⟩

theorem parseNamedImports_ok {i j : Bool} {xs : List ImportDeclarationSpecifier} (hx : Commas ImportSpec moduleCtx ws xs)
    (h : St moduleCtx ps k (P .lBrace i :: (ws ++ P .rBrace j :: l)) s) (hl : FitsAt .regExp l) :
    Ok parseNamedImports s (fun ys s' => ys.map bareImportSpecifier = xs ∧ St moduleCtx ps k l s') := by
  unfold parseNamedImports
  eat! h (commas_fits rfl (fun _ _ => importSpec_begins) hx)
  rde! (untilPunc_commas rfl (fun _ _ => importSpec_begins) importSpec_ok hx h) with ys ey h
  eat! h hl
  exact pure_ok ⟨ey, h⟩

theorem parseImportDclr_ok {j oct : Bool} {xs : List ImportDeclarationSpecifier} (hx : ImportClause moduleCtx ws xs) (hs : Semi semi nx) :
    ReadsBefore parseImportDclr bareNode moduleCtx (W cs!"import" n :: (ws ++ W cs!"from" m :: ⟨.string v oct, j⟩ :: semi)) nx
      (.importDeclaration xs (source v) sp) := by
  intro hnx ps k rest s h
  unfold parseImportDclr
  nm! h
  sp! h
  cases hx with
  | names hx =>
    cases hx with
    | «namespace» hv =>
      nm! h
      kw! h rfl
      lk! h ht
      br ht
      rde! (parseNamespaceImport_ok hv h rfl) with ys ey h
      rw [← ey]
      exact parseImportFrom_ok hs hnx h
    | named hl =>
      nm! h
      kw! h rfl
      lk! h ht
      br ht
      rde! (parseNamedImports_ok hl h rfl) with ys ey h
      rw [← ey]
      exact parseImportFrom_ok hs hnx h
  | default hv =>
    nm! h
    kw! h rfl
    lk! h ht
    refine ok_else (by tk ht) (ok_else (by tk ht) (ok_then (by rw [ht.isIdOrKw]; exact hv.wordy) ?_))
    clear ht
    unfold parseImportDefault
    rde! (parseImportLocal_ok hv h rfl) with x ex h
    lk! h ht
    br ht
    refine (parseImportFrom_ok hs hnx h).mono ?_ 
    rintro a s ⟨ea, h⟩
    exact ⟨by rw [ea]; simp [bareImportSpecifier, ex], h⟩
  | both hv hx =>
    nm! h
    kw! h rfl
    lk! h ht
    refine ok_else (by tk ht) (ok_else (by tk ht) (ok_then (by rw [ht.isIdOrKw]; exact hv.wordy) ?_))
    clear ht
    unfold parseImportDefault
    rde! (parseImportLocal_ok hv h rfl) with x ex h
    lk! h ht
    refine ok_then (by tk ht) ?_
    clear ht
    cases hx with
    | «namespace» hu =>
      nm! h
      ad! h ht rfl
      clear ht
      lk! h ht
      refine ok_then (by tk ht) ?_
      rde! (parseNamespaceImport_ok hu h rfl) with ys ey h
      refine (parseImportFrom_ok hs hnx h).mono ?_
      rintro a s ⟨ea, h⟩
      exact ⟨by rw [ea]; simp [bareImportSpecifier, ex, ey], h⟩
    | named hl =>
      nm! h
      ad! h ht rfl
      clear ht
      lk! h ht
      refine ok_else (by tk ht) (ok_then (by tk ht) ?_)
      rde! (parseNamedImports_ok hl h rfl) with ys ey h
      refine (parseImportFrom_ok hs hnx h).mono ?_
      rintro a s ⟨ea, h⟩
      exact ⟨by rw [ea]; simp [bareImportSpecifier, ex, ey], h⟩

/-! ### Exports -/

theorem exportSpec_begins {x : ExportSpecifier} (h : ExportSpec c ws x) : Begins (ItemStart .rBrace) ws := by
  cases h <;> exact .cons ⟨rfl, rfl, rfl⟩

theorem exportSpec_ok : ReadsItem .rBrace exportSpec bareExportSpecifier c (ExportSpec c) := by
  intro w a hw ps k l l' s hl h
  unfold exportSpec
  cases hw with
  | @as v u _ n m j hv hu =>
    nm! h
    sp! h
    rd! (parseIdName_ok h hv rfl) with x h
    lk! h ht
    refine ok_then (by tk ht [plain, wordy]) ?_
    es! h
    ad! h ht rfl
    sp! h
    rd! (parseIdName_ok h hu (afterComma_fits hl rfl)) with x h
    es! h
    refine Sat.bind (commaUnless_ok (by decide) hl h) ?_
    clear h
    rintro _ _ h
    exact pure_ok ⟨rfl, h⟩
  | @plain v _ n hv =>
    nm! h
    sp! h
    rd! (parseIdName_ok h hv (afterComma_fits hl rfl)) with x h
    obtain ⟨y, rest, rfl, j, hy⟩ := hl.split
    lk! h ht
    refine ok_else (by rcases hy with rfl | rfl <;> tk ht) ?_
    es! h
    refine Sat.bind (commaUnless_ok (by decide) hl h) ?_
    clear h
    rintro _ _ h
    exact pure_ok ⟨rfl, h⟩

theorem parseAnonymous_ok (hr : RecOk r) (hd : c.dflt = true) (hf : Anonymous c ws t) :
    Reads (parseFunctionDclr r false true) bareNode c 0 0 ws t (fun _ => True) := by
  intro ps k nx rest s hnx h
  unfold parseFunctionDclr
  refine get_ok (ok_else (by simp) ?_)
  unfold parseFunctionDclrRest
  have hst : Ok (when (false = false) startSpan) s (fun _ s' => St c ps (k + 1) (ws ++ nx :: rest) s') := startSpan_ok h
  refine Sat.bind hst ?_
  clear h hst
  rintro _ _ h
  have hname : ∀ {ws l s} {es : List FunctionParameter} {d : Ctx}, Grammar.Params d ws es → St c ps (k + 1) (ws ++ l) s →
      Ok parseFunctionName s (fun x s' => x = none ∧ St c ps (k + 1) (ws ++ l) s') := by
    intro ws l s es d hp h
    unfold parseFunctionName
    refine get_ok ?_
    obtain ⟨⟨x, n⟩, hx, ht⟩ := begins_tok (params_begins hp) h
    dsimp only at hx
    subst hx
    exact ok_then (by tk ht) (ok_else (by rw [h.params.dflt, hd]; simp) (pure_ok ⟨rfl, h⟩))
  cases hf with
  | @function ws qs ws' b n hp hb =>
    nm! h
    kw! h (params_fits hp _).append.fits
    refine Sat.bind (P := fun x s' => x = false ∧ St c ps (k + 1) (ws ++ (ws' ++ nx :: rest)) s') ?_ ?_
    · unfold parseGeneratorMark
      refine get_ok ?_
      obtain ⟨⟨x, n⟩, hx, ht⟩ := begins_tok (params_begins hp) h
      dsimp only at hx
      subst hx
      exact ok_else (by tk ht) (pure_ok ⟨rfl, h⟩)
    clear h
    rintro _ _ ⟨rfl, h⟩
    refine Sat.bind (hname hp h) ?_
    clear h
    rintro _ _ ⟨rfl, h⟩
    rw [← List.append_assoc] at h
    refine Sat.bind (parseParamsAndBody_ok hr hp hb _ _ _ _ _ trivial h) ?_
    clear h
    rintro ⟨qs', b'⟩ _ ⟨e1, h⟩
    simp only [Prod.mk.injEq] at e1
    obtain ⟨rfl, rfl⟩ := e1
    dsimp only
    es! h
    exact pure_ok ⟨by simp [bareNode, bareOptNode_eq, bareListFunctionParameter_eq], h⟩
  | @generator ws qs ws' b n j hp hb =>
    nm! h
    kw! h rfl
    refine Sat.bind (P := fun x s' => x = true ∧ St c ps (k + 1) (ws ++ (ws' ++ nx :: rest)) s') ?_ ?_
    · unfold parseGeneratorMark
      lk! h ht
      refine ok_then (by tk ht) (ok_else (by simp) ?_)
      ad! h ht (params_fits hp _).append.fits
      exact pure_ok ⟨rfl, h⟩
    clear h
    rintro _ _ ⟨rfl, h⟩
    refine Sat.bind (hname hp h) ?_
    clear h
    rintro _ _ ⟨rfl, h⟩
    rw [← List.append_assoc] at h
    refine Sat.bind (parseParamsAndBody_ok hr hp hb _ _ _ _ _ trivial h) ?_
    clear h
    rintro ⟨qs', b'⟩ _ ⟨e1, h⟩
    simp only [Prod.mk.injEq] at e1
    obtain ⟨rfl, rfl⟩ := e1
    dsimp only
    es! h
    exact pure_ok ⟨by simp [bareNode, bareOptNode_eq, bareListFunctionParameter_eq], h⟩

/-- A declared function. -/
theorem hoistable_ok (hr : RecOk r) (hk : Begins (fun x => x = .name cs!"function") ws)
    (hf : Reads (parseFunctionDclr r false true) bareNode c 0 0 ws t (fun _ => True)) :
    Reads (parseHoistableDclr r) bareNode c 0 0 ws t (fun _ => True) := by
  intro ps k nx rest s hnx h
  unfold parseHoistableDclr
  refine get_ok ?_
  obtain ⟨⟨x, n⟩, hx, ht⟩ := begins_tok hk h
  dsimp only at hx
  subst hx
  br ht
  exact hf ps k nx rest s trivial h

theorem function_kw {g : Bool} (h : Function c g ws t) : Begins (fun x => x = .name cs!"function") ws := by cases h <;> exact .cons rfl
theorem anonymous_kw (h : Anonymous c ws t) : Begins (fun x => x = .name cs!"function") ws := by cases h <;> exact .cons rfl

theorem kw_fits (h : Begins (fun x => x = .name v) ws) (g : LexGoal) : Begins (fun x => x.fits g = true) ws :=
  h.mono fun _ h => by subst h; cases g <;> rfl

/-- `export default` and a function. -/
theorem defaultFunction_ok (hr : RecOk r) (hk : Begins (fun x => x = .name cs!"function") ws)
    (hf : Reads (parseFunctionDclr r false true) bareNode { moduleCtx with dflt := true } 0 0 ws t (fun _ => True))
    (h : St moduleCtx ps (k + 1) (W cs!"default" n :: (ws ++ nx :: rest)) s) :
    Ok (parseExportDefault r) s (fun a s' => bareNode a = .exportDefaultDeclaration t sp ∧ St moduleCtx ps k (nx :: rest) s') := by
  unfold parseExportDefault
  ad! h ht (kw_fits hk _).append.fits
  clear ht
  refine get_ok ?_
  obtain ⟨⟨x, n⟩, hx, ht⟩ := begins_tok hk h
  dsimp only at hx
  subst hx
  refine ok_then ⟨by tk ht [wordy], by tk ht⟩ ?_
  rde! (withParams_ok (c := moduleCtx) (c' := { moduleCtx with dflt := true }) ⟨rfl, rfl, rfl⟩ (fun _ h => ⟨h.inn, rfl, rfl, h.ret, rfl⟩)
    (fun ps s h => hoistable_ok hr hk hf ps (k + 1) nx rest s trivial h) h) with x ex h
  es! h
  exact pure_ok ⟨by simp [bareNode, ex], h⟩

theorem parseExportDclr_ok (hr : RecOk r) (hx : Export moduleCtx ws nx t) :
    ReadsBefore (parseExportDclr r) bareNode moduleCtx (W cs!"export" n :: ws) nx t := by
  intro hnx ps k rest s h
  unfold parseExportDclr
  nm! h
  sp! h
  cases hx with
  | var hd hs =>
    nm! h
    kw! h rfl
    lk! h ht
    br ht
    rde! (withYieldAwait_ok (c := moduleCtx) (y := false) (a := false)
      (fun ps s h => parseVariableStmt_ok hr hd hs hnx ps _ rest s (by simp only [List.cons_append, List.append_assoc]; exact h)) h) with x ex h
    es! h
    exact pure_ok ⟨by simp [bareNode, bareOptNode, ex], h⟩
  | const hd hs =>
    nm! h
    kw! h rfl
    lk! h ht
    br ht
    rde! (withYieldAwait_ok (c := moduleCtx) (y := false) (a := false) (fun ps s h => by
      unfold parseDeclaration
      lk! h ht
      br ht
      exact withIn_ok (fun ps s h => parseLexicalDclr_ok (c := { moduleCtx with inn := true }) hr (.inr rfl) hd hs hnx h) h) h) with x ex h
    es! h
    exact pure_ok ⟨by simp [bareNode, bareOptNode, ex], h⟩
  | function hf =>
    kw! h (kw_fits (function_kw hf) _).append.fits
    refine get_ok ?_
    obtain ⟨⟨x, n⟩, hx, ht⟩ := begins_tok (function_kw hf) h
    dsimp only at hx
    subst hx
    br ht
    clear ht
    rde! (withYieldAwait_ok (c := moduleCtx) (y := false) (a := false) (fun ps s h => by
      unfold parseDeclaration
      refine get_ok ?_
      obtain ⟨⟨x, n⟩, hx, ht⟩ := begins_tok (function_kw hf) h
      dsimp only at hx
      subst hx
      br ht
      exact withDefault_ok (c := moduleCtx) (fun ps s h => hoistable_ok hr (function_kw hf) (parseFunctionDclr_ok hr hf) ps _ nx rest s trivial h) h) h) with x ex h
    es! h
    exact pure_ok ⟨by simp [bareNode, bareOptNode, ex], h⟩
  | «class» hc =>
    kw! h rfl
    lk! h ht
    br ht
    rde! (withYieldAwait_ok (c := moduleCtx) (y := false) (a := false) (fun ps s h => by
      unfold parseDeclaration
      lk! h ht
      br ht
      exact withDefault_ok (fun ps s h => parseClassDclr_ok (c := { moduleCtx with dflt := false }) hr hc ps _ nx rest s trivial h) h) h) with x ex h
    es! h
    exact pure_ok ⟨by simp [bareNode, bareOptNode, ex], h⟩
  | @names _ ws xs n m _ hl hn =>
    nm! h
    kw! h rfl
    lk! h ht
    br ht
    unfold parseExportNamed
    refine Sat.bind (P := fun ys s' => ys.map bareExportSpecifier = xs ∧ St moduleCtx ps (k + 1) (nx :: rest) s') ?_ ?_
    · unfold parseNamedExports
      eat! h (commas_fits rfl (fun _ _ => exportSpec_begins) hl)
      rde! (untilPunc_commas rfl (fun _ _ => exportSpec_begins) exportSpec_ok hl h) with ys ey h
      eat! h hnx
      exact pure_ok ⟨ey, h⟩
    · clear h
      rintro ys _ ⟨ey, h⟩
      lk! h ht
      refine ok_else (by rw [ht.isKw, isKw_no hn]; simp) ?_
      es! h
      exact pure_ok ⟨by simp [bareNode, bareOptNode, ey], h⟩
  | all hs =>
    nm! h
    kw! h rfl
    lk! h ht
    br ht
    unfold parseExportAll
    ad! h ht rfl
    id! h rfl
    rde! (parseModuleSpecifier_ok h (semi_fits hs hnx)) with x ex h
    sc! h hs hnx
    es! h
    exact pure_ok ⟨by simp [bareNode, ex], h⟩
  | defaultFunction hf =>
    kw! h rfl
    lk! h ht
    br ht
    exact defaultFunction_ok hr (function_kw hf) (parseFunctionDclr_ok hr hf) h
  | defaultAnonymous hf =>
    kw! h rfl
    lk! h ht
    br ht
    exact defaultFunction_ok hr (anonymous_kw hf) (parseAnonymous_ok hr rfl hf) h
  | defaultClass hc =>
    nm! h
    kw! h rfl
    lk! h ht
    br ht
    clear ht
    unfold parseExportDefault
    ad! h ht rfl
    clear ht
    lk! h ht
    refine ok_else (by tk ht) (ok_then (by tk ht) ?_)
    rde! (withParams_ok (c := moduleCtx) (c' := { moduleCtx with dflt := true }) ⟨rfl, rfl, rfl⟩ (fun _ h => ⟨h.inn, rfl, rfl, h.ret, rfl⟩)
      (fun ps s h => parseClassDclr_ok (c := { moduleCtx with dflt := true }) hr hc ps (k + 1) nx rest s trivial h) h) with x ex h
    es! h
    exact pure_ok ⟨by simp [bareNode, ex], h⟩
  | defaultExpr he hf hs =>
    nm! h
    kw! h rfl
    lk! h ht
    br ht
    clear ht
    unfold parseExportDefault
    ad! h ht (assign_fits he).append.fits
    clear ht
    refine get_ok ?_
    obtain ⟨⟨x, n⟩, w', e, hx⟩ := assign_begins he
    subst e
    have ht := h.tok
    have hf' : ∀ v ∈ [cs!"function", cs!"class", cs!"async"], x ≠ .name v := hf
    refine ok_else ?_ (ok_else ?_ ?_)
    · rintro ⟨-, h2⟩
      rw [ht.isHoistableDclrKw] at h2
      cases x with
      | name u =>
        simp only [oneOf, Bool.and_eq_true, decide_eq_true_eq, List.mem_cons, List.not_mem_nil, or_false] at h2
        rcases h2.2 with rfl | rfl <;> exact hf' _ (by simp) rfl
      | _ => simp [oneOf] at h2
    · rw [ht.isKw, isKw_no (hf' _ (by simp))]; simp
    · obtain ⟨l, e1⟩ := first_cons _ nx rest
      rw [e1] at h
      rde! (withParams_ok (c := moduleCtx) (c' := { moduleCtx with inn := true }) ⟨rfl, rfl, rfl⟩ (fun _ h => ⟨rfl, rfl, rfl, h.ret, h.dflt⟩)
        (fun ps s h => hr.assign he ps (k + 1) _ l s hs.follow.toSAssign h) h) with x ex h
      rw [← e1] at h
      sc! h hs.toSemi hnx
      es! h
      exact pure_ok ⟨by simp [bareNode, ex], h⟩

/-! ### Modules -/

theorem export_fits (h : Export c ws nx t) : FitsAt .regExp (ws ++ nx :: rest) := by
  cases h with
  | function hf => exact (kw_fits (function_kw hf) _).append.fits
  | _ => rfl

theorem moduleItem_begins (h : ModuleItem c ws nx t) : Begins (fun x => isEof x = false ∧ x.fits .regExp = true) ws := by
  cases h with
  | item h => exact item_eof h
  | «import» _ _ => exact .cons ⟨rfl, rfl⟩
  | «export» _ => exact .cons ⟨rfl, rfl⟩

theorem startsItem_module {x : Content} (h : startsItem x = true) : isKw x cs!"import" = false ∧ isKw x cs!"export" = false := by
  rcases startsItem_cases h with h | rfl | ⟨u, rfl, hk, hu⟩
  · exact ⟨startsExpr_isKw h, startsExpr_isKw h⟩
  · exact ⟨rfl, rfl⟩
  · simp only [isKw, Bool.and_eq_false_iff, decide_eq_false_iff_not]
    constructor <;> (right; rintro rfl; simp at hu)

theorem parseModuleItem_ok (hr : RecOk r) (hi : ModuleItem moduleCtx ws nx t) :
    ReadsBefore (parseModuleItem r) bareNode moduleCtx ws nx t := by
  intro hnx ps k rest s h
  unfold parseModuleItem
  cases hi with
  | item hi =>
    refine get_ok ?_
    obtain ⟨⟨x, n⟩, hx, ht⟩ := begins_tok (item_begins hi) h
    obtain ⟨h1, h2⟩ := startsItem_module hx
    refine ok_else (by rw [ht.isKw, h1]; simp) (ok_else (by rw [ht.isKw, h2]; simp) ?_)
    exact withParams_ok (c := moduleCtx) (c' := moduleCtx) ⟨rfl, rfl, rfl⟩ (fun _ h => ⟨h.inn, rfl, rfl, rfl, h.dflt⟩)
      (fun ps s h => hr.item hi hnx ps k rest s h) h
  | «import» hx hs =>
    lk! h ht
    refine ok_then (by tk ht) ?_
    exact parseImportDclr_ok hx hs hnx _ _ _ _ h
  | «export» hx =>
    lk! h ht
    refine ok_else (by tk ht) (ok_then (by tk ht) ?_)
    exact parseExportDclr_ok hr hx hnx _ _ _ _ h

theorem moduleItems_fits {ts : List Node} (h : Items ModuleItem c ws nx ts) (hnx : nx.c.fits .regExp = true) :
    (first ws nx).c.fits .regExp = true := by
  cases h with
  | nil => exact hnx
  | cons h _ =>
    obtain ⟨x, l, rfl, hx⟩ := moduleItem_begins h
    exact hx.2

theorem prologue_ctx {ds : List Node} (h : Prologue Expr c ws nx c' ds) (hs : c.strict = true) : c' = c := by
  induction h with
  | nil => rfl
  | cons _ _ _ ih =>
    have := ih (by simp [hs])
    rw [this]
    simp [hs]
    rw [← hs]

/-- Modules. -/
theorem parseModuleBody_ok (hr : RecOk r) (hs : Module ws t) (h : St scriptCtx ps k ws s) :
    Ok (parseModuleBody r) s (fun a _ => bareNode a = t) := by
  cases hs with
  | @mk w ws e c ds ts hp hl hstr =>
    unfold parseModuleBody
    sp! h
    refine Sat.bind (P := fun _ s' => St moduleCtx ps (k + 1) _ s') (Sat.modify h.setStrict) ?_
    clear h
    rintro _ _ h
    have hc := prologue_ctx hp rfl
    subst hc
    obtain ⟨l, e1⟩ := first_cons ws ⟨.eof, e⟩ []
    rw [e1] at h
    rde! (withParams_ok (c := moduleCtx) (c' := moduleCtx) ⟨rfl, rfl, rfl⟩ (fun _ h => ⟨h.inn, rfl, rfl, rfl, h.dflt⟩)
      (fun ps s h => parseDirectivePrologues_ok hr (moduleItems_fits hl rfl) (noString_first hstr) hp h) h) with xs ex h
    rw [← e1] at h
    rde! (untilEofF_ok (fun _ _ _ => moduleItem_begins) (fun _ _ _ => parseModuleItem_ok hr) _ hl h) with ys ey h
    es! h
    exact pure_ok (by simp [bareNode, bareListNode_eq, ex, ey])

theorem module_fits (hs : Module ws t) : FitsAt .regExp ws := by
  cases hs with
  | @mk w ws e c ds ts hp hl hstr =>
    obtain ⟨l, e1⟩ := first_cons ws ⟨.eof, e⟩ []
    rw [e1]
    obtain ⟨l', e2⟩ := first_cons w (first ws ⟨.eof, e⟩) l
    rw [e2]
    exact prologue_fits hp (moduleItems_fits hl rfl)

end Giron.Complete

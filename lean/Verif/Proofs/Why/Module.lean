import Verif.Proofs.Why.Stmt
/-
There is a reason for every error.  (One instance per method.)
-/
namespace Giron
namespace Why
open M Giron.Parser Layout Spec
variable [Env] {R : Src} {r : Rec}

instance wy_parseImportLocal  : Wy R (parseImportLocal) := by
  unfold parseImportLocal; wy

instance wy_parseModuleSpecifier  : Wy R (parseModuleSpecifier) := by
  unfold parseModuleSpecifier; wy

instance wy_parseImportFrom {specifiers : List ImportDeclarationSpecifier}  : Wy R (parseImportFrom specifiers) := by
  unfold parseImportFrom; wy

instance wy_parseNamespaceImport  : Wy R (parseNamespaceImport) := by
  unfold parseNamespaceImport; wy

theorem parseIdName_reads {g : LexGoal} (c : Content) : Reads c (parseIdName g) fun v ws _ => ws = [.word (.name v)] := by
  rw [← bind_pure (parseIdName g)]
  exact .idName fun v c' _ _ => .pure rfl

theorem wy_importSpec : WyAt R (Before (Seen cs!"import")) importSpec := by
  unfold importSpec
  intro s past w h hi
  refine Wp.still h fun _ s1 _ _ _ h1 => ((Wp.reads h1 inferInstance inferInstance (parseIdName_reads w.c)).bind fun name s2 p2 w2 h2 l2 hq =>
    Wp.still h2 fun _ s3 _ _ _ h3 => Wp.cur (Wp.ite (fun _ => (by wy : Wy R _).out _ _ _ h3) fun _ => Wp.ite (fun hk => ?_) fun _ =>
      (by wy : Wy R _).out _ _ _ h3))
  obtain ⟨_, ms, text, text', hp, hl⟩ := hq
  exact Wp.advanceError h3 ⟨⟨name, (Scanner.isKeyword_iff name).1 hk, first_of_passes hp [] hl⟩, seen_mono hi (suf_of_later l2)⟩

theorem wy_parseNamedImports : WyAt R (Before (Seen cs!"import")) parseNamedImports := by
  unfold parseNamedImports
  exact wyAt_bind (Wy.at inferInstance) fun _ => wyAt_bind (wyAt_untilPunc wy_importSpec) fun _ => Wy.at (by wy)

theorem wy_parseImportDefault : WyAt R (Before (Seen cs!"import")) parseImportDefault := by
  unfold parseImportDefault
  refine wyAt_bind (Wy.at inferInstance) fun _ => wyAt_bind (Wy.at inferInstance) fun _ => wyAt_ite ?_ (Wy.at inferInstance)
  exact wyAt_bind (Wy.at inferInstance) fun _ => wyAt_bind (Wy.at inferInstance) fun _ => wyAt_ite (Wy.at (by wy)) (wyAt_ite
    (wyAt_bind wy_parseNamedImports fun _ => Wy.at inferInstance) (Wy.at inferInstance))

instance wy_parseImportDclr : Wy R parseImportDclr := by
  unfold parseImportDclr
  constructor
  intro s past w h
  refine Wp.still h fun _ s1 _ _ _ h1 => Wp.consumeKw h1 fun _ s2 w2 hw h2 _ => ?_
  have hi : Seen cs!"import" (w :: past) := ⟨_, List.mem_cons_self, hw⟩
  exact Wp.cur (Wp.ite (fun _ => (by wy : Wy R _).out _ _ _ h2) fun _ => Wp.ite (fun _ => (wy_parseNamedImports _ _ _ h2 hi).bind
    fun _ _ _ _ h3 _ _ => Wp.last h3) fun _ => Wp.ite (fun _ => wy_parseImportDefault _ _ _ h2 hi) fun _ => (by wy : Wy R _).out _ _ _ h2)

instance wy_exportSpec  : Wy R (exportSpec) := by
  unfold exportSpec; wy

instance wy_parseNamedExports  : Wy R (parseNamedExports) := by
  unfold parseNamedExports; wy

instance wy_parseExportDefault [RecWy R r] : Wy R (parseExportDefault r) := by
  unfold parseExportDefault; wy

instance wy_parseExportNamed  : Wy R (parseExportNamed) := by
  unfold parseExportNamed; wy

instance wy_parseExportAll  : Wy R (parseExportAll) := by
  unfold parseExportAll; wy

instance wy_parseExportDclr [RecWy R r] : Wy R (parseExportDclr r) := by
  unfold parseExportDclr; wy

instance wy_parseModuleItem [RecWy R r] : Wy R (parseModuleItem r) := by
  unfold parseModuleItem; wy

instance wy_parseScriptBody [RecWy R r] : Wy R (parseScriptBody r) := by
  unfold parseScriptBody; wy

theorem wy_parseModuleBody [RecWy R r] (hm : R.module = true) : Wy R (parseModuleBody r) := by
  unfold parseModuleBody
  constructor
  intro s past w h
  exact Wp.still h fun _ s1 _ _ _ h1 => Wp.setCtx (f := fun s => { s.ctx with strict := true }) h1 (fun _ => .inl hm) fun h2 =>
    (by wy : Wy R _).out _ _ _ h2

theorem pattern_parseBindingIdOrPat {s s' : Parser} {b : Binding} (h : parseBindingIdOrPat r s = .ok (b, s')) (n : Node) : b ≠ .expression n := by
  unfold parseBindingIdOrPat at h
  obtain ⟨t, s1, h1, h⟩ := bind_ok_inv h
  split at h
  · unfold parseBindingId at h
    obtain ⟨_, s1, h1, h⟩ := bind_ok_inv h
    obtain ⟨_, s1, h1, h⟩ := bind_ok_inv h
    obtain ⟨_, s1, h1, h⟩ := bind_ok_inv h
    split at h
    · obtain ⟨_, s1, h1, h⟩ := bind_ok_inv h
      obtain ⟨_, s1, h1, h⟩ := bind_ok_inv h
      cases h
      exact nofun
    · exact absurd h (fails_unexpectedCurrent.out _ _ _)
  split at h
  · unfold parseObjBindingPat at h
    obtain ⟨_, s1, h1, h⟩ := bind_ok_inv h
    obtain ⟨_, s1, h1, h⟩ := bind_ok_inv h
    obtain ⟨_, s1, h1, h⟩ := bind_ok_inv h
    obtain ⟨_, s1, h1, h⟩ := bind_ok_inv h
    obtain ⟨_, s1, h1, h⟩ := bind_ok_inv h
    cases h
    exact nofun
  split at h
  · unfold parseArrBindingPat at h
    obtain ⟨_, s1, h1, h⟩ := bind_ok_inv h
    obtain ⟨_, s1, h1, h⟩ := bind_ok_inv h
    obtain ⟨_, s1, h1, h⟩ := bind_ok_inv h
    obtain ⟨_, s1, h1, h⟩ := bind_ok_inv h
    obtain ⟨_, s1, h1, h⟩ := bind_ok_inv h
    cases h
    exact nofun
  · exact absurd h (fails_unexpectedCurrent.out _ _ _)


theorem wy_fuel {α : Type} : Wy R (M.fail .fuel : PM α) := wy_still (hm := still_fuel)

/-- the recursive entry points -/
instance recWy_run : ∀ n, RecWy R (run n) := by
  intro n
  induction n with
  | zero => exact ⟨wy_fuel, wy_fuel, wy_fuel, wy_fuel, wy_fuel, wy_fuel, fun _ _ => wy_fuel, wy_fuel, wy_fuel, run_spells 0, recFr_run 0,
      fun _ _ _ h => by (cases h)⟩
  | succ n ih =>
    exact ⟨wy_parseAssignmentExpr, wy_parseStmtListItem, wy_parseStatement, wy_parseUnaryExpr,
      wy_parseExponentiationExpr, wy_parseNewExpr, fun _ _ => wy_precedenceClimbing, wy_parseBindingIdOrPat,
      wy_parseLeftHandSideExpr, run_spells _, recFr_run _, fun _ _ _ h => pattern_parseBindingIdOrPat h⟩

/-- the place where a source begins -/
theorem here_new {p : Parser} (h : Parser.new R.source = .ok p) : ∃ w, Here R p [] w := by
  obtain ⟨w, text, h1, h2⟩ := new_stands h
  obtain ⟨goal, resume, tr, x, e1, e2, e3, e4, e5⟩ := h2
  refine ⟨w, ⟨text, h1, ?_⟩, fun hs => ?_⟩
  · have := OpensWith.word (source := R.source) (ws := []) (w := tr) (x := x) (r := text) (e1 ▸ .nil) e2 e3 e4
    rw [← e1, ← e5] at this
    exact this
  · unfold Parser.new at h
    split at h <;> cases h
    cases hs

theorem script_because {source : Str} {e : Error} {p : Parser} (h : Parser.new source = .ok p) {n : Nat}
    (he : parseScriptBody (run n) p = .error (.err e)) : Because source false e.errortype := by
  obtain ⟨w, hw⟩ := here_new (R := ⟨source, false⟩) h
  exact (wy_parseScriptBody.out _ _ _ hw).bad _ he

theorem module_because {source : Str} {e : Error} {p : Parser} (h : Parser.new source = .ok p) {n : Nat}
    (he : parseModuleBody (run n) p = .error (.err e)) : Because source true e.errortype := by
  obtain ⟨w, hw⟩ := here_new (R := ⟨source, true⟩) h
  exact ((wy_parseModuleBody rfl).out _ _ _ hw).bad _ he

end Why
end Giron

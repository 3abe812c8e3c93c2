import Verif.Proofs.Pos.WStmt
/-
Every parser method keeps the invariant, and the spans of what it returns have the property.  (One instance per method.)
-/
namespace Giron
namespace Pos
open M Giron.Parser Layout
variable [Env] {I : Parser → Prop} {P : Pr} [F : Fair P] [W : World I P] {r : Rec}

instance ks_parseImportLocal  : Ks I P (parseImportLocal) := by
  unfold parseImportLocal; ks

instance ks_parseModuleSpecifier  : Ks I P (parseModuleSpecifier) := by
  unfold parseModuleSpecifier; ks

instance ks_parseImportFrom {specifiers : List ImportDeclarationSpecifier} [Al P specifiers]  : Ks I P (parseImportFrom specifiers) := by
  unfold parseImportFrom; ks

instance ks_parseNamespaceImport  : Ks I P (parseNamespaceImport) := by
  unfold parseNamespaceImport; ks

instance ks_importSpec  : Ks I P (importSpec) := by
  unfold importSpec; ks

instance ks_parseNamedImports  : Ks I P (parseNamedImports) := by
  unfold parseNamedImports; ks

instance ks_parseImportDefault  : Ks I P (parseImportDefault) := by
  unfold parseImportDefault; ks

instance ks_parseImportDclr  : Ks I P (parseImportDclr) := by
  unfold parseImportDclr; ks

instance ks_exportSpec  : Ks I P (exportSpec) := by
  unfold exportSpec; ks

instance ks_parseNamedExports  : Ks I P (parseNamedExports) := by
  unfold parseNamedExports; ks

instance ks_parseExportDefault [RecKs I P r] : Ks I P (parseExportDefault r) := by
  unfold parseExportDefault; ks

instance ks_parseExportNamed  : Ks I P (parseExportNamed) := by
  unfold parseExportNamed; ks

instance ks_parseExportAll  : Ks I P (parseExportAll) := by
  unfold parseExportAll; ks

instance ks_parseExportDclr [RecKs I P r] : Ks I P (parseExportDclr r) := by
  unfold parseExportDclr; ks

instance ks_parseModuleItem [RecKs I P r] : Ks I P (parseModuleItem r) := by
  unfold parseModuleItem; ks

instance ks_parseScriptBody [RecKs I P r] : Ks I P (parseScriptBody r) := by
  unfold parseScriptBody; ks

instance ks_parseModuleBody [RecKs I P r] : Ks I P (parseModuleBody r) := by
  unfold parseModuleBody; ks


/-- the recursive entry points -/
instance recKs_run : ∀ n, RecKs I P (run n) := by
  intro n
  induction n with
  | zero => exact ⟨ks_fuel, ks_fuel, ks_fuel, ks_fuel, ks_fuel, ks_fuel, fun _ _ _ => ks_fuel, ks_fuel, ks_fuel⟩
  | succ n ih =>
    exact ⟨ks_parseAssignmentExpr, ks_parseStmtListItem, ks_parseStatement, ks_parseUnaryExpr,
      ks_parseExponentiationExpr, ks_parseNewExpr, fun _ _ h => ks_precedenceClimbing, ks_parseBindingIdOrPat,
      ks_parseLeftHandSideExpr⟩

end Pos
end Giron

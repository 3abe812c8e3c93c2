import Verif.Proofs.Layout.Stmt
/-
Texts made of the same words: modules.
-/
namespace Giron
open M Spec

namespace Layout
open Parser
variable [Env] {α β γ : Type} [Er α] [Er β] [Er γ] {ι : Type} {r : Rec} {r' : ι → Rec} {C : Token → Prop}

/-! ### modules -/

instance sim_parseImportLocal : Sim (ι := ι) (parseImportLocal ) (fun _ => parseImportLocal) := by
  unfold parseImportLocal; lsim

instance sim_parseModuleSpecifier : Sim (ι := ι) (parseModuleSpecifier ) (fun _ => parseModuleSpecifier) := by
  unfold parseModuleSpecifier; lsim

omit [Env] in
instance rel_importSpec {a b : Identifier} {a' b' : ι → Identifier} [h : Rel a a'] [h' : Rel b b'] :
    Rel (ImportDeclarationSpecifier.importSpecifier a b) (fun i => .importSpecifier (a' i) (b' i)) :=
  ⟨fun i => by relfact h; relfact h'; simp only [bareIdentifier, Identifier.mk.injEq] at *; ersimp⟩

instance sim_parseImportFrom {l : List ImportDeclarationSpecifier} {l' : ι → List ImportDeclarationSpecifier} [h : Rel l l'] :
    Sim (parseImportFrom l) (fun i => parseImportFrom (l' i)) := by
  relfact h
  unfold parseImportFrom; lsim

instance sim_parseNamespaceImport : Sim (ι := ι) (parseNamespaceImport ) (fun _ => parseNamespaceImport) := by
  unfold parseNamespaceImport; lsim

instance sim_importSpec : Sim (ι := ι) (importSpec ) (fun _ => importSpec) := by
  unfold importSpec; lsim

instance sim_parseNamedImports : Sim (ι := ι) (parseNamedImports ) (fun _ => parseNamedImports) := by
  unfold parseNamedImports; lsim

instance sim_parseImportDefault : Sim (ι := ι) (parseImportDefault ) (fun _ => parseImportDefault) := by
  unfold parseImportDefault; lsim

instance sim_parseImportDclr : Sim (ι := ι) (parseImportDclr ) (fun _ => parseImportDclr) := by
  unfold parseImportDclr; lsim

instance sim_exportSpec : Sim (ι := ι) (exportSpec ) (fun _ => exportSpec) := by
  unfold exportSpec; lsim

instance sim_parseNamedExports : Sim (ι := ι) (parseNamedExports ) (fun _ => parseNamedExports) := by
  unfold parseNamedExports; lsim

instance sim_parseExportDefault [RecSim r r'] : Sim (ι := ι) (parseExportDefault r) (fun i => parseExportDefault (r' i)) := by
  unfold parseExportDefault; lsim

instance sim_parseExportNamed : Sim (ι := ι) (parseExportNamed ) (fun _ => parseExportNamed) := by
  unfold parseExportNamed; lsim

instance sim_parseExportAll : Sim (ι := ι) (parseExportAll ) (fun _ => parseExportAll) := by
  unfold parseExportAll; lsim

instance sim_parseExportDclr [RecSim r r'] : Sim (ι := ι) (parseExportDclr r) (fun i => parseExportDclr (r' i)) := by
  unfold parseExportDclr; lsim

instance sim_parseModuleItem [RecSim r r'] : Sim (ι := ι) (parseModuleItem r) (fun i => parseModuleItem (r' i)) := by
  unfold parseModuleItem; lsim

instance sim_parseScriptBody [RecSim r r'] : Sim (ι := ι) (parseScriptBody r) (fun i => parseScriptBody (r' i)) := by
  unfold parseScriptBody; lsim

instance sim_parseModuleBody [RecSim r r'] : Sim (ι := ι) (parseModuleBody r) (fun i => parseModuleBody (r' i)) := by
  unfold parseModuleBody; lsim

end Layout
end Giron

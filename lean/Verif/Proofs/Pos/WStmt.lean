import Verif.Proofs.Pos.WExpr
/-
Every parser method keeps the invariant, and the spans of what it returns have the property.  (One instance per method.)
-/
namespace Giron
namespace Pos
open M Giron.Parser Layout
variable [Env] {I : Parser → Prop} {P : Pr} [F : Fair P] [W : World I P] {r : Rec}

instance kx_forTarget {n : Node} [Al P n] : Kx P (forTarget n) := by
  unfold forTarget; kx

instance ks_parseBlockStmt [RecKs I P r] : Ks I P (parseBlockStmt r) := by
  unfold parseBlockStmt; ks

instance ks_parseVariableDclr [RecKs I P r] : Ks I P (parseVariableDclr r) := by
  unfold parseVariableDclr; ks

instance ks_commaDclr [RecKs I P r] : Ks I P (commaDclr r) := by
  unfold commaDclr; ks

instance ks_parseVarList [RecKs I P r] : Ks I P (parseVarList r) := by
  unfold parseVarList; ks

instance ks_parseVariableStmt [RecKs I P r] : Ks I P (parseVariableStmt r) := by
  unfold parseVariableStmt; ks

instance ks_parseLexicalDclr [RecKs I P r] : Ks I P (parseLexicalDclr r) := by
  unfold parseLexicalDclr; ks

instance ks_parseEmptyStmt  : Ks I P (parseEmptyStmt) := by
  unfold parseEmptyStmt; ks

instance ks_parseExpressionStmt {expression : Node} [Al P expression]  : Ks I P (parseExpressionStmt expression) := by
  unfold parseExpressionStmt; ks

instance ks_parseElse [RecKs I P r] : Ks I P (parseElse r) := by
  unfold parseElse; ks

instance ks_parseIfStmt [RecKs I P r] : Ks I P (parseIfStmt r) := by
  unfold parseIfStmt; ks

instance ks_parseLoopBody [RecKs I P r] : Ks I P (parseLoopBody r) := by
  unfold parseLoopBody; ks

instance ks_optExpr {close : Punctuator} [RecKs I P r] : Ks I P (optExpr r close) := by
  unfold optExpr; ks

instance ks_parseForClassic {init : Option Node} [Al P init] [RecKs I P r] : Ks I P (parseForClassic r init) := by
  unfold parseForClassic; ks

instance ks_parseForIn {left : Node} [Al P left] [RecKs I P r] : Ks I P (parseForIn r left) := by
  unfold parseForIn; ks

instance ks_parseForOf {left : Node} [Al P left] [RecKs I P r] : Ks I P (parseForOf r left) := by
  unfold parseForOf; ks

instance ks_forCommaDclr [RecKs I P r] : Ks I P (forCommaDclr r) := by
  unfold forCommaDclr; ks

instance ks_parseForDclrs {kind : Str} {d : VariableDeclarator} [Al P d] [RecKs I P r] : Ks I P (parseForDclrs r kind d) := by
  unfold parseForDclrs; ks

instance ks_parseForInit {kind : Str} {id : Binding} [Al P id] [RecKs I P r] : Ks I P (parseForInit r kind id) := by
  unfold parseForInit; ks

instance ks_parseForVar [RecKs I P r] : Ks I P (parseForVar r) := by
  unfold parseForVar; ks

instance ks_parseForKind  : Ks I P (parseForKind) := by
  unfold parseForKind; ks

instance ks_parseForLexical [RecKs I P r] : Ks I P (parseForLexical r) := by
  unfold parseForLexical; ks

instance ks_parseForTarget {expr : Node} [Al P expr]  : Ks I P (parseForTarget expr) := by
  unfold parseForTarget; ks

instance ks_forCommaExpr [RecKs I P r] : Ks I P (forCommaExpr r) := by
  unfold forCommaExpr; ks

instance ks_parseForExpr [RecKs I P r] : Ks I P (parseForExpr r) := by
  unfold parseForExpr; ks

instance ks_parseForStmt [RecKs I P r] : Ks I P (parseForStmt r) := by
  unfold parseForStmt; ks

instance ks_parseWhileStmt [RecKs I P r] : Ks I P (parseWhileStmt r) := by
  unfold parseWhileStmt; ks

instance ks_parseDoWhileStmt [RecKs I P r] : Ks I P (parseDoWhileStmt r) := by
  unfold parseDoWhileStmt; ks

instance ks_parseIterationStmt [RecKs I P r] : Ks I P (parseIterationStmt r) := by
  unfold parseIterationStmt; ks

instance ks_consequentF [RecKs I P r] {n : Nat} : Ks I P (consequentF r n) := by
  induction n with
  | zero => exact ks_fuel
  | succ n ih => unfold consequentF; ks

instance ks_parseConsequent [RecKs I P r] : Ks I P (parseConsequent r) := by
  unfold parseConsequent; ks

instance ks_parseCaseTest {firstDefault : Bool} [RecKs I P r] : Ks I P (parseCaseTest r firstDefault) := by
  unfold parseCaseTest; ks

theorem ks_casesF [RecKs I P r] (n : Nat) : ∀ (x1 : Bool), Ks I P (casesF r n x1) := by
  induction n with
  | zero => intro x1; exact ks_fuel
  | succ n ih => intro x1; unfold casesF; ks

instance ks_casesF' [RecKs I P r] {n : Nat} {x1 : Bool} : Ks I P (casesF r n x1) := ks_casesF n x1

instance ks_parseSwitchInner [RecKs I P r] : Ks I P (parseSwitchInner r) := by
  unfold parseSwitchInner; ks

instance ks_parseSwitchStmt [RecKs I P r] : Ks I P (parseSwitchStmt r) := by
  unfold parseSwitchStmt; ks

instance ks_parseLabelOpt  : Ks I P (parseLabelOpt) := by
  unfold parseLabelOpt; ks

instance ks_parseContinueStmt  : Ks I P (parseContinueStmt) := by
  unfold parseContinueStmt; ks

instance ks_parseBreakStmt  : Ks I P (parseBreakStmt) := by
  unfold parseBreakStmt; ks

instance ks_parseReturnArg [RecKs I P r] : Ks I P (parseReturnArg r) := by
  unfold parseReturnArg; ks

instance ks_parseReturnStmt [RecKs I P r] : Ks I P (parseReturnStmt r) := by
  unfold parseReturnStmt; ks

instance ks_parseReturn [RecKs I P r] : Ks I P (parseReturn r) := by
  unfold parseReturn; ks

instance ks_parseWithStmt [RecKs I P r] : Ks I P (parseWithStmt r) := by
  unfold parseWithStmt; ks

instance ks_parseThrowStmt [RecKs I P r] : Ks I P (parseThrowStmt r) := by
  unfold parseThrowStmt; ks

instance ks_parseCatchParam [RecKs I P r] : Ks I P (parseCatchParam r) := by
  unfold parseCatchParam; ks

instance ks_parseCatchClause [RecKs I P r] : Ks I P (parseCatchClause r) := by
  unfold parseCatchClause; ks

instance ks_parseFinallyClause [RecKs I P r] : Ks I P (parseFinallyClause r) := by
  unfold parseFinallyClause; ks

instance ks_parseTryStmt [RecKs I P r] : Ks I P (parseTryStmt r) := by
  unfold parseTryStmt; ks

instance ks_parseDebuggerStmt  : Ks I P (parseDebuggerStmt) := by
  unfold parseDebuggerStmt; ks

instance ks_parseGeneratorMark {allowGenerator : Bool}  : Ks I P (parseGeneratorMark allowGenerator) := by
  unfold parseGeneratorMark; ks

instance ks_parseFunctionName  : Ks I P (parseFunctionName) := by
  unfold parseFunctionName; ks

instance ks_parseFunctionDclrRest {async allowGenerator : Bool} [RecKs I P r] : Ks I P (parseFunctionDclrRest r async allowGenerator) := by
  unfold parseFunctionDclrRest; ks

instance ks_parseFunctionDclr {async allowGenerator : Bool} [RecKs I P r] : Ks I P (parseFunctionDclr r async allowGenerator) := by
  unfold parseFunctionDclr; ks

instance ks_parseHoistableDclr [RecKs I P r] : Ks I P (parseHoistableDclr r) := by
  unfold parseHoistableDclr; ks

instance ks_parseDeclaration [RecKs I P r] : Ks I P (parseDeclaration r) := by
  unfold parseDeclaration; ks

instance ks_parseLabelBody [RecKs I P r] : Ks I P (parseLabelBody r) := by
  unfold parseLabelBody; ks

instance ks_parseLabelledStmt {label : Identifier} [Al P label] [RecKs I P r] : Ks I P (parseLabelledStmt r label) := by
  unfold parseLabelledStmt; ks

instance ks_parseExpressionOrLabelled [RecKs I P r] : Ks I P (parseExpressionOrLabelled r) := by
  unfold parseExpressionOrLabelled; ks

theorem ks_parseAsyncItem [RecKs I P r] {C : Token → Prop} (hC : ∀ t, C t → lookTok t = true) :
    KsAt I P C (parseAsyncItem r) := by
  constructor
  · intro s a s' hI hc h
    unfold parseAsyncItem at h
    obtain ⟨_, s1, h1, h⟩ := bind_ok_inv h
    cases h1
    obtain ⟨_, s2, h2, h⟩ := bind_ok_inv h
    cases h2
    obtain ⟨u, s3, h3, h⟩ := bind_ok_inv h
    have hI' := (World.look (P := P) _ _ _ (World.push P _ hI) (hC _ hc) h3).1
    split at h
    · exact Ks.out _ _ _ hI' h
    · obtain ⟨_, s4, h4, h⟩ := bind_ok_inv h
      exact Ks.out _ _ _ (Ks.out (P := P) _ _ _ hI' h4).1 h
  · intro s e hI hc h
    unfold parseAsyncItem at h
    rcases bind_err_inv h with h | ⟨_, s1, h1, h⟩
    · cases h
    cases h1
    rcases bind_err_inv h with h | ⟨_, s2, h2, h⟩
    · cases h
    cases h2
    rcases bind_err_inv h with h | ⟨u, s3, h3, h⟩
    · exact World.lookStop _ _ (World.push P _ hI) (hC _ hc) h
    have hI' := (World.look (P := P) _ _ _ (World.push P _ hI) (hC _ hc) h3).1
    split at h
    · exact Ks.bad (α := Node) (I := I) _ _ hI' h
    · rcases bind_err_inv h with h | ⟨_, s4, h4, h⟩
      · exact Ks.bad (α := Span) (I := I) _ _ hI' h
      exact Ks.bad (α := Node) (I := I) _ _ (Ks.out (P := P) _ _ _ hI' h4).1 h

instance ks_parseStmtListItem [RecKs I P r] : Ks I P (parseStmtListItem r) := by
  unfold parseStmtListItem
  refine KsAt.ks (ksAt_cur fun t _ => ?_)
  iterate 13
    refine ksAt_ite (fun _ => Ks.at inferInstance) (fun _ => ?_)
  refine ksAt_ite (fun h => ks_parseAsyncItem ?_) (fun _ => ?_)
  · intro u hu; rw [hu.2]; unfold lookTok; simp [h]
  refine Ks.at ?_
  ks

instance ks_parseStatement [RecKs I P r] : Ks I P (parseStatement r) := by
  unfold parseStatement; ks

end Pos
end Giron

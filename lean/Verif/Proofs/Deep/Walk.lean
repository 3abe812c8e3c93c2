import Verif.Proofs.Deep.Basic
/-
More depth changes nothing: every parser method.  (Generated: one instance per method.)
-/
namespace Giron
open M

namespace Parser
variable [Env] {α β : Type} {r r' : Rec}

instance dp_commaExpr  [RecDp r r'] : Dp (commaExpr r) (commaExpr r') := by
  unfold commaExpr; dp

instance dp_parseExpression  [RecDp r r'] : Dp (parseExpression r) (parseExpression r') := by
  unfold parseExpression; dp

instance dp_parseDirective  [RecDp r r'] : Dp (parseDirective r) (parseDirective r') := by
  unfold parseDirective; dp

theorem dp_directiveProloguesF  [RecDp r r'] {n n' : Nat} (hn : n ≤ n') : Dp (directiveProloguesF r n) (directiveProloguesF r' n') := by
  induction n generalizing n' with
  | zero => exact dp_fuel
  | succ n ih =>
    cases n' with
    | zero => cases hn
    | succ n' => have ih := @ih _ (Nat.le_of_succ_le_succ hn); unfold directiveProloguesF; dp
instance dp_directiveProloguesF'  [RecDp r r'] {n : Nat}  : Dp (directiveProloguesF r n) (directiveProloguesF r' n) := dp_directiveProloguesF (Nat.le_refl _)

instance dp_parseDirectivePrologues  [RecDp r r'] : Dp (parseDirectivePrologues r) (parseDirectivePrologues r') := by
  unfold parseDirectivePrologues; dp

instance dp_parseStatementList  [RecDp r r'] : Dp (parseStatementList r) (parseStatementList r') := by
  unfold parseStatementList; dp

instance dp_parseFunctionBodyBlock  [RecDp r r'] : Dp (parseFunctionBodyBlock r) (parseFunctionBodyBlock r') := by
  unfold parseFunctionBodyBlock; dp

instance dp_parseFunctionBody  [RecDp r r'] : Dp (parseFunctionBody r) (parseFunctionBody r') := by
  unfold parseFunctionBody; dp

instance dp_parseArrowBody  [RecDp r r'] : Dp (parseArrowBody r) (parseArrowBody r') := by
  unfold parseArrowBody; dp

instance dp_objPatName  [RecDp r r'] : Dp (objPatName r) (objPatName r') := by
  unfold objPatName; dp

instance dp_objPatValue  [RecDp r r'] : Dp (objPatValue r) (objPatValue r') := by
  unfold objPatValue; dp

instance dp_objPatItem  [RecDp r r'] : Dp (objPatItem r) (objPatItem r') := by
  unfold objPatItem; dp

instance dp_parseObjBindingPat  [RecDp r r'] : Dp (parseObjBindingPat r) (parseObjBindingPat r') := by
  unfold parseObjBindingPat; dp

instance dp_arrPatItem  [RecDp r r'] : Dp (arrPatItem r) (arrPatItem r') := by
  unfold arrPatItem; dp

instance dp_parseArrBindingPat  [RecDp r r'] : Dp (parseArrBindingPat r) (parseArrBindingPat r') := by
  unfold parseArrBindingPat; dp

instance dp_parseBindingIdOrPat  [RecDp r r'] : Dp (parseBindingIdOrPat r) (parseBindingIdOrPat r') := by
  unfold parseBindingIdOrPat; dp

instance dp_formalParam  [RecDp r r'] : Dp (formalParam r) (formalParam r') := by
  unfold formalParam; dp

instance dp_parseFormalParams  [RecDp r r'] : Dp (parseFormalParams r) (parseFormalParams r') := by
  unfold parseFormalParams; dp

instance dp_parseParamsAndBody {generator async : Bool} [RecDp r r'] : Dp (parseParamsAndBody r generator async) (parseParamsAndBody r' generator async) := by
  unfold parseParamsAndBody; dp

instance dp_parseComputedPropertyName  [RecDp r r'] : Dp (parseComputedPropertyName r) (parseComputedPropertyName r') := by
  unfold parseComputedPropertyName; dp

instance dp_parsePropertyName  [RecDp r r'] : Dp (parsePropertyName r) (parsePropertyName r') := by
  unfold parsePropertyName; dp

instance dp_classGetter {isStatic : Bool} [RecDp r r'] : Dp (classGetter r isStatic) (classGetter r' isStatic) := by
  unfold classGetter; dp

instance dp_classSetter {isStatic : Bool} [RecDp r r'] : Dp (classSetter r isStatic) (classSetter r' isStatic) := by
  unfold classSetter; dp

instance dp_classAsync {isStatic : Bool} [RecDp r r'] : Dp (classAsync r isStatic) (classAsync r' isStatic) := by
  unfold classAsync; dp

instance dp_classGenerator {isStatic : Bool} [RecDp r r'] : Dp (classGenerator r isStatic) (classGenerator r' isStatic) := by
  unfold classGenerator; dp

instance dp_classMethod {isStatic : Bool} [RecDp r r'] : Dp (classMethod r isStatic) (classMethod r' isStatic) := by
  unfold classMethod; dp

instance dp_classItem  [RecDp r r'] : Dp (classItem r) (classItem r') := by
  unfold classItem; dp

instance dp_parseClassBody  [RecDp r r'] : Dp (parseClassBody r) (parseClassBody r') := by
  unfold parseClassBody; dp

instance dp_parseClassTail {id : Option Node} [RecDp r r'] : Dp (parseClassTail r id) (parseClassTail r' id) := by
  unfold parseClassTail; dp

instance dp_parseClassDclr  [RecDp r r'] : Dp (parseClassDclr r) (parseClassDclr r') := by
  unfold parseClassDclr; dp

instance dp_parseClassExpr  [RecDp r r'] : Dp (parseClassExpr r) (parseClassExpr r') := by
  unfold parseClassExpr; dp

theorem dp_templateLoopF  [RecDp r r'] {n n' : Nat} (hn : n ≤ n') (x1 : Bool) : Dp (templateLoopF r n x1) (templateLoopF r' n' x1) := by
  induction n generalizing n' x1 with
  | zero => exact dp_fuel
  | succ n ih =>
    cases n' with
    | zero => cases hn
    | succ n' => have ih := @ih _ (Nat.le_of_succ_le_succ hn); unfold templateLoopF; dp
instance dp_templateLoopF'  [RecDp r r'] {n : Nat}  {x1 : Bool} : Dp (templateLoopF r n x1) (templateLoopF r' n x1) := dp_templateLoopF (Nat.le_refl _) x1

instance dp_parseTemplateParts  [RecDp r r'] : Dp (parseTemplateParts r) (parseTemplateParts r') := by
  unfold parseTemplateParts; dp

instance dp_parseTemplateLiteral  [RecDp r r'] : Dp (parseTemplateLiteral r) (parseTemplateLiteral r') := by
  unfold parseTemplateLiteral; dp

instance dp_parseTaggedTemplate {tag : Node} [RecDp r r'] : Dp (parseTaggedTemplate r tag) (parseTaggedTemplate r' tag) := by
  unfold parseTaggedTemplate; dp

instance dp_parseFunctionExpr {async : Bool} [RecDp r r'] : Dp (parseFunctionExpr r async) (parseFunctionExpr r' async) := by
  unfold parseFunctionExpr; dp

instance dp_argument  [RecDp r r'] : Dp (argument r) (argument r') := by
  unfold argument; dp

instance dp_parseArguments  [RecDp r r'] : Dp (parseArguments r) (parseArguments r') := by
  unfold parseArguments; dp

instance dp_seqItem  [RecDp r r'] : Dp (seqItem r) (seqItem r') := by
  unfold seqItem; dp

instance dp_seqToArrow {seq : List Node} [RecDp r r'] : Dp (seqToArrow r seq) (seqToArrow r' seq) := by
  unfold seqToArrow; dp

instance dp_parseSeqOrArrow  [RecDp r r'] : Dp (parseSeqOrArrow r) (parseSeqOrArrow r') := by
  unfold parseSeqOrArrow; dp

instance dp_arrayItem  [RecDp r r'] : Dp (arrayItem r) (arrayItem r') := by
  unfold arrayItem; dp

instance dp_parseArrayLitExpr  [RecDp r r'] : Dp (parseArrayLitExpr r) (parseArrayLitExpr r') := by
  unfold parseArrayLitExpr; dp

instance dp_parseMethodDefinition {key : PropertyKey} {kind : PropKind} {async generator computed : Bool} [RecDp r r'] : Dp (parseMethodDefinition r key kind async generator computed) (parseMethodDefinition r' key kind async generator computed) := by
  unfold parseMethodDefinition; dp

instance dp_accessorHead {name : Str} {kind : PropKind} [RecDp r r'] : Dp (accessorHead r name kind) (accessorHead r' name kind) := by
  unfold accessorHead; dp

instance dp_asyncHead  [RecDp r r'] : Dp (asyncHead r) (asyncHead r') := by
  unfold asyncHead; dp

instance dp_propHead  [RecDp r r'] : Dp (propHead r) (propHead r') := by
  unfold propHead; dp

instance dp_propKey  [RecDp r r'] : Dp (propKey r) (propKey r') := by
  unfold propKey; dp

instance dp_propRest {key : PropertyKey} {computed : Bool} {kind : PropKind} {async generator : Bool} [RecDp r r'] : Dp (propRest r key computed kind async generator) (propRest r' key computed kind async generator) := by
  unfold propRest; dp

instance dp_objectItem  [RecDp r r'] : Dp (objectItem r) (objectItem r') := by
  unfold objectItem; dp

instance dp_parseObjectLitExpr  [RecDp r r'] : Dp (parseObjectLitExpr r) (parseObjectLitExpr r') := by
  unfold parseObjectLitExpr; dp

instance dp_parseAsyncPrimaryExpr  [RecDp r r'] : Dp (parseAsyncPrimaryExpr r) (parseAsyncPrimaryExpr r') := by
  unfold parseAsyncPrimaryExpr; dp

instance dp_parsePrimaryExpr  [RecDp r r'] : Dp (parsePrimaryExpr r) (parsePrimaryExpr r') := by
  unfold parsePrimaryExpr; dp

instance dp_parseComputedMemberExpr {object : Node} [RecDp r r'] : Dp (parseComputedMemberExpr r object) (parseComputedMemberExpr r' object) := by
  unfold parseComputedMemberExpr; dp

theorem dp_memberLoopF  [RecDp r r'] {n n' : Nat} (hn : n ≤ n') (x1 : Node) : Dp (memberLoopF r n x1) (memberLoopF r' n' x1) := by
  induction n generalizing n' x1 with
  | zero => exact dp_fuel
  | succ n ih =>
    cases n' with
    | zero => cases hn
    | succ n' => have ih := @ih _ (Nat.le_of_succ_le_succ hn); unfold memberLoopF; dp
instance dp_memberLoopF'  [RecDp r r'] {n : Nat}  {x1 : Node} : Dp (memberLoopF r n x1) (memberLoopF r' n x1) := dp_memberLoopF (Nat.le_refl _) x1

instance dp_parseMemberHead  [RecDp r r'] : Dp (parseMemberHead r) (parseMemberHead r') := by
  unfold parseMemberHead; dp

instance dp_parseMemberExpr  [RecDp r r'] : Dp (parseMemberExpr r) (parseMemberExpr r') := by
  unfold parseMemberExpr; dp

theorem dp_callLoopF  [RecDp r r'] {n n' : Nat} (hn : n ≤ n') (x1 : Node) : Dp (callLoopF r n x1) (callLoopF r' n' x1) := by
  induction n generalizing n' x1 with
  | zero => exact dp_fuel
  | succ n ih =>
    cases n' with
    | zero => cases hn
    | succ n' => have ih := @ih _ (Nat.le_of_succ_le_succ hn); unfold callLoopF; dp
instance dp_callLoopF'  [RecDp r r'] {n : Nat}  {x1 : Node} : Dp (callLoopF r n x1) (callLoopF r' n x1) := dp_callLoopF (Nat.le_refl _) x1

instance dp_parseCallExprTail {callee : Node} [RecDp r r'] : Dp (parseCallExprTail r callee) (parseCallExprTail r' callee) := by
  unfold parseCallExprTail; dp

instance dp_parseCallHead  [RecDp r r'] : Dp (parseCallHead r) (parseCallHead r') := by
  unfold parseCallHead; dp

instance dp_parseCallExpr  [RecDp r r'] : Dp (parseCallExpr r) (parseCallExpr r') := by
  unfold parseCallExpr; dp

instance dp_parseNewCallee  [RecDp r r'] : Dp (parseNewCallee r) (parseNewCallee r') := by
  unfold parseNewCallee; dp

instance dp_parseNewExpr  [RecDp r r'] : Dp (parseNewExpr r) (parseNewExpr r') := by
  unfold parseNewExpr; dp

instance dp_parseLeftHandSideExpr  [RecDp r r'] : Dp (parseLeftHandSideExpr r) (parseLeftHandSideExpr r') := by
  unfold parseLeftHandSideExpr; dp

instance dp_parsePrefixUpdate  [RecDp r r'] : Dp (parsePrefixUpdate r) (parsePrefixUpdate r') := by
  unfold parsePrefixUpdate; dp

instance dp_parsePostfix  [RecDp r r'] : Dp (parsePostfix r) (parsePostfix r') := by
  unfold parsePostfix; dp

instance dp_parseUpdateExpr  [RecDp r r'] : Dp (parseUpdateExpr r) (parseUpdateExpr r') := by
  unfold parseUpdateExpr; dp

instance dp_parseUnaryOp  [RecDp r r'] : Dp (parseUnaryOp r) (parseUnaryOp r') := by
  unfold parseUnaryOp; dp

instance dp_parseUnaryExpr  [RecDp r r'] : Dp (parseUnaryExpr r) (parseUnaryExpr r') := by
  unfold parseUnaryExpr; dp

instance dp_parsePow  [RecDp r r'] : Dp (parsePow r) (parsePow r') := by
  unfold parsePow; dp

instance dp_parseExponentiationExpr  [RecDp r r'] : Dp (parseExponentiationExpr r) (parseExponentiationExpr r') := by
  unfold parseExponentiationExpr; dp

theorem dp_climbInnerF {opPrec : Nat} [RecDp r r'] {n n' : Nat} (hn : n ≤ n') (x1 : Node) : Dp (climbInnerF r opPrec n x1) (climbInnerF r' opPrec n' x1) := by
  induction n generalizing n' x1 with
  | zero => exact dp_fuel
  | succ n ih =>
    cases n' with
    | zero => cases hn
    | succ n' => have ih := @ih _ (Nat.le_of_succ_le_succ hn); unfold climbInnerF; dp
instance dp_climbInnerF' {opPrec : Nat} [RecDp r r'] {n : Nat}  {x1 : Node} : Dp (climbInnerF r opPrec n x1) (climbInnerF r' opPrec n x1) := dp_climbInnerF (Nat.le_refl _) x1

instance dp_climbStep {lhs : Node} [RecDp r r'] : Dp (climbStep r lhs) (climbStep r' lhs) := by
  unfold climbStep; dp

theorem dp_climbF {prec : Nat} [RecDp r r'] {n n' : Nat} (hn : n ≤ n') (x1 : Node) : Dp (climbF r prec n x1) (climbF r' prec n' x1) := by
  induction n generalizing n' x1 with
  | zero => exact dp_fuel
  | succ n ih =>
    cases n' with
    | zero => cases hn
    | succ n' => have ih := @ih _ (Nat.le_of_succ_le_succ hn); unfold climbF; dp
instance dp_climbF' {prec : Nat} [RecDp r r'] {n : Nat}  {x1 : Node} : Dp (climbF r prec n x1) (climbF r' prec n x1) := dp_climbF (Nat.le_refl _) x1

instance dp_precedenceClimbing {lhs : Node} {prec : Nat} [RecDp r r'] : Dp (precedenceClimbing r lhs prec) (precedenceClimbing r' lhs prec) := by
  unfold precedenceClimbing; dp

instance dp_parseBinaryExpr  [RecDp r r'] : Dp (parseBinaryExpr r) (parseBinaryExpr r') := by
  unfold parseBinaryExpr; dp

instance dp_parseConditionalExpr  [RecDp r r'] : Dp (parseConditionalExpr r) (parseConditionalExpr r') := by
  unfold parseConditionalExpr; dp

instance dp_parseSingleParamArrow {name : Str} [RecDp r r'] : Dp (parseSingleParamArrow r name) (parseSingleParamArrow r' name) := by
  unfold parseSingleParamArrow; dp

instance dp_parseYieldExpr  [RecDp r r'] : Dp (parseYieldExpr r) (parseYieldExpr r') := by
  unfold parseYieldExpr; dp

instance dp_arrowIfIdentifier {lhs : Node} [RecDp r r'] : Dp (arrowIfIdentifier r lhs) (arrowIfIdentifier r' lhs) := by
  unfold arrowIfIdentifier; dp

instance dp_parseAssignTail {lhs : Node} [RecDp r r'] : Dp (parseAssignTail r lhs) (parseAssignTail r' lhs) := by
  unfold parseAssignTail; dp

instance dp_parseOpAssignTail {lhs : Node} [RecDp r r'] : Dp (parseOpAssignTail r lhs) (parseOpAssignTail r' lhs) := by
  unfold parseOpAssignTail; dp

instance dp_parseAssignmentExpr  [RecDp r r'] : Dp (parseAssignmentExpr r) (parseAssignmentExpr r') := by
  unfold parseAssignmentExpr; dp

instance dp_parseBlockStmt  [RecDp r r'] : Dp (parseBlockStmt r) (parseBlockStmt r') := by
  unfold parseBlockStmt; dp

instance dp_parseVariableDclr  [RecDp r r'] : Dp (parseVariableDclr r) (parseVariableDclr r') := by
  unfold parseVariableDclr; dp

instance dp_commaDclr  [RecDp r r'] : Dp (commaDclr r) (commaDclr r') := by
  unfold commaDclr; dp

instance dp_parseVarList  [RecDp r r'] : Dp (parseVarList r) (parseVarList r') := by
  unfold parseVarList; dp

instance dp_parseVariableStmt  [RecDp r r'] : Dp (parseVariableStmt r) (parseVariableStmt r') := by
  unfold parseVariableStmt; dp

instance dp_parseLexicalDclr  [RecDp r r'] : Dp (parseLexicalDclr r) (parseLexicalDclr r') := by
  unfold parseLexicalDclr; dp

instance dp_parseElse  [RecDp r r'] : Dp (parseElse r) (parseElse r') := by
  unfold parseElse; dp

instance dp_parseIfStmt  [RecDp r r'] : Dp (parseIfStmt r) (parseIfStmt r') := by
  unfold parseIfStmt; dp

instance dp_parseLoopBody  [RecDp r r'] : Dp (parseLoopBody r) (parseLoopBody r') := by
  unfold parseLoopBody; dp

instance dp_optExpr {close : Punctuator} [RecDp r r'] : Dp (optExpr r close) (optExpr r' close) := by
  unfold optExpr; dp

instance dp_parseForClassic {init : Option Node} [RecDp r r'] : Dp (parseForClassic r init) (parseForClassic r' init) := by
  unfold parseForClassic; dp

instance dp_parseForIn {left : Node} [RecDp r r'] : Dp (parseForIn r left) (parseForIn r' left) := by
  unfold parseForIn; dp

instance dp_parseForOf {left : Node} [RecDp r r'] : Dp (parseForOf r left) (parseForOf r' left) := by
  unfold parseForOf; dp

instance dp_forCommaDclr  [RecDp r r'] : Dp (forCommaDclr r) (forCommaDclr r') := by
  unfold forCommaDclr; dp

instance dp_parseForDclrs {kind : Str} {d : VariableDeclarator} [RecDp r r'] : Dp (parseForDclrs r kind d) (parseForDclrs r' kind d) := by
  unfold parseForDclrs; dp

instance dp_parseForInit {kind : Str} {id : Binding} [RecDp r r'] : Dp (parseForInit r kind id) (parseForInit r' kind id) := by
  unfold parseForInit; dp

instance dp_parseForVar  [RecDp r r'] : Dp (parseForVar r) (parseForVar r') := by
  unfold parseForVar; dp

instance dp_parseForLexical  [RecDp r r'] : Dp (parseForLexical r) (parseForLexical r') := by
  unfold parseForLexical; dp

instance dp_forCommaExpr  [RecDp r r'] : Dp (forCommaExpr r) (forCommaExpr r') := by
  unfold forCommaExpr; dp

instance dp_parseForExpr  [RecDp r r'] : Dp (parseForExpr r) (parseForExpr r') := by
  unfold parseForExpr; dp

instance dp_parseForStmt  [RecDp r r'] : Dp (parseForStmt r) (parseForStmt r') := by
  unfold parseForStmt; dp

instance dp_parseWhileStmt  [RecDp r r'] : Dp (parseWhileStmt r) (parseWhileStmt r') := by
  unfold parseWhileStmt; dp

instance dp_parseDoWhileStmt  [RecDp r r'] : Dp (parseDoWhileStmt r) (parseDoWhileStmt r') := by
  unfold parseDoWhileStmt; dp

instance dp_parseIterationStmt  [RecDp r r'] : Dp (parseIterationStmt r) (parseIterationStmt r') := by
  unfold parseIterationStmt; dp

theorem dp_consequentF  [RecDp r r'] {n n' : Nat} (hn : n ≤ n') : Dp (consequentF r n) (consequentF r' n') := by
  induction n generalizing n' with
  | zero => exact dp_fuel
  | succ n ih =>
    cases n' with
    | zero => cases hn
    | succ n' => have ih := @ih _ (Nat.le_of_succ_le_succ hn); unfold consequentF; dp
instance dp_consequentF'  [RecDp r r'] {n : Nat}  : Dp (consequentF r n) (consequentF r' n) := dp_consequentF (Nat.le_refl _)

instance dp_parseConsequent  [RecDp r r'] : Dp (parseConsequent r) (parseConsequent r') := by
  unfold parseConsequent; dp

instance dp_parseCaseTest {firstDefault : Bool} [RecDp r r'] : Dp (parseCaseTest r firstDefault) (parseCaseTest r' firstDefault) := by
  unfold parseCaseTest; dp

theorem dp_casesF  [RecDp r r'] {n n' : Nat} (hn : n ≤ n') (x1 : Bool) : Dp (casesF r n x1) (casesF r' n' x1) := by
  induction n generalizing n' x1 with
  | zero => exact dp_fuel
  | succ n ih =>
    cases n' with
    | zero => cases hn
    | succ n' => have ih := @ih _ (Nat.le_of_succ_le_succ hn); unfold casesF; dp
instance dp_casesF'  [RecDp r r'] {n : Nat}  {x1 : Bool} : Dp (casesF r n x1) (casesF r' n x1) := dp_casesF (Nat.le_refl _) x1

instance dp_parseSwitchInner  [RecDp r r'] : Dp (parseSwitchInner r) (parseSwitchInner r') := by
  unfold parseSwitchInner; dp

instance dp_parseSwitchStmt  [RecDp r r'] : Dp (parseSwitchStmt r) (parseSwitchStmt r') := by
  unfold parseSwitchStmt; dp

instance dp_parseReturnArg  [RecDp r r'] : Dp (parseReturnArg r) (parseReturnArg r') := by
  unfold parseReturnArg; dp

instance dp_parseReturnStmt  [RecDp r r'] : Dp (parseReturnStmt r) (parseReturnStmt r') := by
  unfold parseReturnStmt; dp

instance dp_parseReturn  [RecDp r r'] : Dp (parseReturn r) (parseReturn r') := by
  unfold parseReturn; dp

instance dp_parseWithStmt  [RecDp r r'] : Dp (parseWithStmt r) (parseWithStmt r') := by
  unfold parseWithStmt; dp

instance dp_parseThrowStmt  [RecDp r r'] : Dp (parseThrowStmt r) (parseThrowStmt r') := by
  unfold parseThrowStmt; dp

instance dp_parseCatchParam  [RecDp r r'] : Dp (parseCatchParam r) (parseCatchParam r') := by
  unfold parseCatchParam; dp

instance dp_parseCatchClause  [RecDp r r'] : Dp (parseCatchClause r) (parseCatchClause r') := by
  unfold parseCatchClause; dp

instance dp_parseFinallyClause  [RecDp r r'] : Dp (parseFinallyClause r) (parseFinallyClause r') := by
  unfold parseFinallyClause; dp

instance dp_parseTryStmt  [RecDp r r'] : Dp (parseTryStmt r) (parseTryStmt r') := by
  unfold parseTryStmt; dp

instance dp_parseFunctionDclrRest {async allowGenerator : Bool} [RecDp r r'] : Dp (parseFunctionDclrRest r async allowGenerator) (parseFunctionDclrRest r' async allowGenerator) := by
  unfold parseFunctionDclrRest; dp

instance dp_parseFunctionDclr {async allowGenerator : Bool} [RecDp r r'] : Dp (parseFunctionDclr r async allowGenerator) (parseFunctionDclr r' async allowGenerator) := by
  unfold parseFunctionDclr; dp

instance dp_parseHoistableDclr  [RecDp r r'] : Dp (parseHoistableDclr r) (parseHoistableDclr r') := by
  unfold parseHoistableDclr; dp

instance dp_parseDeclaration  [RecDp r r'] : Dp (parseDeclaration r) (parseDeclaration r') := by
  unfold parseDeclaration; dp

instance dp_parseLabelBody  [RecDp r r'] : Dp (parseLabelBody r) (parseLabelBody r') := by
  unfold parseLabelBody; dp

instance dp_parseLabelledStmt {label : Identifier} [RecDp r r'] : Dp (parseLabelledStmt r label) (parseLabelledStmt r' label) := by
  unfold parseLabelledStmt; dp

instance dp_parseExpressionOrLabelled  [RecDp r r'] : Dp (parseExpressionOrLabelled r) (parseExpressionOrLabelled r') := by
  unfold parseExpressionOrLabelled; dp

instance dp_parseAsyncItem  [RecDp r r'] : Dp (parseAsyncItem r) (parseAsyncItem r') := by
  unfold parseAsyncItem; dp

instance dp_parseStmtListItem  [RecDp r r'] : Dp (parseStmtListItem r) (parseStmtListItem r') := by
  unfold parseStmtListItem; dp

instance dp_parseStatement  [RecDp r r'] : Dp (parseStatement r) (parseStatement r') := by
  unfold parseStatement; dp

instance dp_parseExportDefault  [RecDp r r'] : Dp (parseExportDefault r) (parseExportDefault r') := by
  unfold parseExportDefault; dp

instance dp_parseExportDclr  [RecDp r r'] : Dp (parseExportDclr r) (parseExportDclr r') := by
  unfold parseExportDclr; dp

instance dp_parseModuleItem  [RecDp r r'] : Dp (parseModuleItem r) (parseModuleItem r') := by
  unfold parseModuleItem; dp

instance dp_parseScriptBody  [RecDp r r'] : Dp (parseScriptBody r) (parseScriptBody r') := by
  unfold parseScriptBody; dp

instance dp_parseModuleBody [RecDp r r'] : Dp (parseModuleBody r) (parseModuleBody r') := by
  unfold parseModuleBody; dp

/-- the recursive entry points -/
theorem recDp_run : ∀ {n n' : Nat}, n ≤ n' → RecDp (run n) (run n') := by
  intro n
  induction n with
  | zero => intro n' _; exact ⟨dp_fuel, dp_fuel, dp_fuel, dp_fuel, dp_fuel, dp_fuel, fun _ _ => dp_fuel, dp_fuel, dp_fuel⟩
  | succ n ih =>
    intro n' hn
    cases n' with
    | zero => cases hn
    | succ n' =>
      have := ih (Nat.le_of_succ_le_succ hn)
      exact ⟨dp_parseAssignmentExpr, dp_parseStmtListItem, dp_parseStatement, dp_parseUnaryExpr,
        dp_parseExponentiationExpr, dp_parseNewExpr, fun _ _ => dp_precedenceClimbing, dp_parseBindingIdOrPat,
        dp_parseLeftHandSideExpr⟩

end Parser
end Giron

import Verif.Proofs.Size.Basic
/-
The JSON of a tree has at most twelve values for every word of the tree.
-/
namespace Giron.Size
open Giron Spec Lang Spell
variable [Env]

/-- counts, and compares -/
macro "size" : tactic => `(tactic| (simp only [nodeJson, bindingJson, arrayExpressionElementJson, arrayPatternElementJson, arrayAssignmentPatternElementJson, propertyKeyJson, fnExprJson, propertyValueJson, objectPatternPropertyJson, bindingPatternJson, functionParameterJson, argumentListElementJson, objectExpressionPropertyJson, methodDefinitionJson, switchCaseJson, variableDeclaratorJson, catchClauseJson, holesArrayExpressionElementJson, holesArrayPatternElementJson, holesArrayAssignmentPatternElementJson, optNodeJson, listFunctionParameterJson, listArgumentListElementJson, listMethodDefinitionJson, listObjectExpressionPropertyJson, listObjectPatternPropertyJson, listNodeJson, listSwitchCaseJson, optCatchClauseJson, listVariableDeclaratorJson, optPropertyValueJson, optFnExprJson, optBindingJson, optArrayExpressionElementJson, optArrayPatternElementJson, optArrayAssignmentPatternElementJson, literalJson, identifierJson, regexJson, templateElementJson, exportSpecifierJson, importSpecifierJson, spanJson, markerJson, natJson, tagged, count, countItems, countMembers, countMember, List.map, List.length_cons, List.length_nil, Bool.false_eq_true, if_false, if_true, reduceIte] at *; omega))

/-- a child of a well-formed part -/
macro "kid" h:term:max it:term : term => `(Ok.kids $h $it (by simp_all [children, nodeParts, exprs, Spec.optNode, fnParts, classParts, arrPats, patProps, List.reduceOption]))

theorem value_le (v : Value) : count (valueJson v) ≤ 2 := by
  cases v with
  | punc p => cases p <;> exact Nat.le_refl _
  | _ => exact Nat.le_succ _

theorem flags_eq (l : Str) : countItems (l.map fun c => Json.str [c]) = l.length := by
  induction l with
  | nil => rfl
  | cons c l ih => simp only [List.map, countItems, count, ih, List.length_cons]; omega

/-! ### Imports and exports -/

theorem importNames_least : ∀ l : List ImportDeclarationSpecifier, Least (importNames l) (countItems (l.map importSpecifierJson)) 0
  | [] => Least.any.mono (by size)
  | .importSpecifier loc imported :: more => by
    rw [importNames]
    refine (Least.cat (n := 12) (d := 0) (.or (.left .word) (.ite (fun _ => .word) fun _ => .nothing)) (.right (importNames_least more))).mono (by size)
  | .importDefaultSpecifier _ :: _ => .nothing
  | .importNamespaceSpecifier _ :: _ => .nothing

theorem importList_least (l : List ImportDeclarationSpecifier) : Least (importList l) (countItems (l.map importSpecifierJson)) 0 := by
  unfold importList
  split
  · exact (Least.pun.left).mono (by size)
  · exact (Least.cat .pun (.cat (importNames_least l) .pun)).mono (by omega)

theorem importClause_least (l : List ImportDeclarationSpecifier) : Least (importClause l) (countItems (l.map importSpecifierJson)) 0 := by
  refine .or (importList_least l) ?_
  split
  · next loc imported more =>
    refine .ite (fun _ => ?_) fun _ => .nothing
    refine (Least.cat .word (.or (n := countItems (more.map importSpecifierJson)) (d := 0) (.right (importList_least more)) (.ite (fun h => ?_) fun _ => .nothing))).mono (by size)
    cases more with
    | nil => exact Least.any
    | cons => cases h
  · exact .nothing

theorem exportNames_least : ∀ l : List ExportSpecifier, Least (exportNames l) (countItems (l.map exportSpecifierJson)) 0
  | [] => Least.any.mono (by size)
  | ⟨exported, loc⟩ :: more => by
    rw [exportNames]
    refine (Least.cat (n := 12) (d := 0) (.or (.left .word) (.ite (fun _ => .word) fun _ => .nothing)) (.right (exportNames_least more))).mono (by size)

/-! ### Trees -/

theorem arrowParams_least {ps : List FunctionParameter} (h : Least (parameters ps) (countItems (listFunctionParameterJson ps)) 0) :
    Least (arrowParams ps (parameters ps)) (countItems (listFunctionParameterJson ps)) 0 := by
  refine .or (.right (.left h)) ?_
  split
  · exact Least.word.mono (by size)
  · exact .nothing

theorem slack_expr {n : Node} (h : Ok (.node .expr n)) : slack n = 2 := by rw [slack, h.expr]; rfl

theorem empty_least (l : List ArgumentListElement) (h : l.isEmpty = true) : Least eps (countItems (listArgumentListElementJson l)) 0 := by
  cases l with
  | nil => exact Least.any
  | cons => cases h

theorem arrowBody_least {e : Bool} {A : Lang} {n d : Nat} (h : Least A n d) : Least (arrowBody e A) n d :=
  .ite (fun _ => .notFirst h) fun _ => h

set_option maxHeartbeats 2000000

mutual

theorem node_least : ∀ (n : Node) {r : Role}, Ok (.node r n) → Least (node n) (count (nodeJson n) + slack n) 0
  | .arrayExpression es _ _, r, h => by
    rw [node]
    change Least _ (_ + 2) _
    exact Least.mono (.cat .pun (.cat (arrayElements_least es fun x hx => kid h (.arrElem x)) .pun)) (by size)
  | .arrayPattern es _ _, r, h => by
    rw [node]
    change Least _ (_ + 2) _
    exact Least.mono (.cat .pun (.cat (patternElements_least es fun x hx => kid h (.arrPat .declared x)) .pun)) (by size)
  | .arrayAssignmentPattern es _ _, r, h => by
    rw [node]
    change Least _ (_ + 2) _
    exact Least.mono (.cat .pun (.cat (targetElements_least es fun x hx => kid h (.arrAsg x)) .pun)) (by size)
  | .arrowFunctionExpression id ps body _ expression _ _ _, r, h => by
    rw [node]
    change Least _ (_ + 2) _
    cases id with
    | some _ => exact .nothing
    | none =>
      refine .only fun _ => ?_
      exact Least.mono (.cat (arrowParams_least (parameters_least ps fun x hx => kid h (.param .arrow x))) (.cat .pun (arrowBody_least (node_least body (kid h (.node (if expression then .expr else .fnBody) body)))))) (by size)
  | .assignmentExpression _ l r' _ _, r, h => by
    rw [node]
    change Least _ (_ + 2) _
    exact Least.mono (.cat (node_least l (kid h (.node .target l))) (.cat .sign (node_least r' (kid h (.node .expr r'))))) (by size)
  | .assignmentPattern l r' _, r, h => by
    rw [node]
    change Least _ (_ + 2) _
    exact Least.mono (.cat (binding_least l (kid h (.binding .assign l))) (.cat .pun (node_least r' (kid h (.node .expr r'))))) (by size)
  | .assignmentRestElement _ _, _, _ => by rw [node]; exact .nothing
  | .asyncArrowFunctionExpression id ps body _ expression _ _ _, r, h => by
    rw [node]
    change Least _ (_ + 2) _
    cases id with
    | some _ => exact .nothing
    | none =>
      refine .only fun _ => ?_
      exact Least.mono (.cat .word (.cat (.sameLine (arrowParams_least (parameters_least ps fun x hx => kid h (.param .arrow x)))) (.cat (.sameLine .pun) (arrowBody_least (node_least body (kid h (.node (if expression then .expr else .fnBody) body))))))) (by size)
  | .asyncFunctionExpression _ _ _ _ _ _ _ _, _, _ => by rw [node]; exact .nothing
  | .awaitExpression _ _, _, _ => by rw [node]; exact .nothing
  | .binaryExpression op l r' _ _, r, h => by
    rw [node]
    change Least _ (_ + 2) _
    exact Least.mono (.cat (node_least l (kid h (.node .expr l))) (.cat .operator (node_least r' (kid h (.node .expr r'))))) (by size)
  | .bindingIdentifier _ _, r, h => by
    rw [node]
    change Least _ (_ + 2) _
    exact Least.word.mono (by size)
  | .logicalExpression _ _ _ _, _, _ => by rw [node]; exact .nothing
  | .callExpression c args _ _, r, h => by
    rw [node]
    change Least _ (_ + 2) _
    exact Least.mono (.cat (node_least c (kid h (.node .callee c))) (.cat .pun (.cat (arguments_least args fun x hx => kid h (.arg x)) .pun))) (by size)
  | .classExpression _ _ _ _ _, _, _ => by rw [node]; exact .nothing
  | .computedMemberExpression _ o p _ _, r, h => by
    rw [node]
    change Least _ (_ + 2) _
    refine .only fun hb => ?_
    exact Least.mono (.cat (node_least o (kid h (.node .memberObj o))) (.cat .pun (.cat (node_least p (kid h (.node .expr p))) .pun))) (by size)
  | .conditionalExpression a b c _, r, h => by
    rw [node]
    change Least _ (_ + 2) _
    exact Least.mono (.cat (node_least a (kid h (.node .expr a))) (.cat .pun (.cat (node_least b (kid h (.node .expr b))) (.cat .pun (node_least c (kid h (.node .expr c))))))) (by size)
  | .identifier _ _ _, r, h => by
    rw [node]
    change Least _ (_ + 2) _
    exact Least.word.mono (by size)
  | .functionExpression id ps body _ _ _ _ _, r, h => by
    rw [node]
    change Least _ (_ + 2) _
    refine .only fun hb => ?_
    exact Least.mono (.cat .any (.cat .word (.cat .any (.cat (optNode_least id fun n e => kid h (.node .nameId n)) (.cat .pun (.cat (parameters_least ps fun x hx => kid h (.param .declared x)) (.cat .pun (node_least body (kid h (.node .fnBody body)))))))))) (by size)
  | .literal v _ _ _, r, h => by
    rw [node]
    change Least _ (_ + 2) _
    have := value_le v
    exact Least.literalWord.mono (by size)
  | .newExpression c args _ _, r, h => by
    rw [node]
    change Least _ (_ + 2) _
    exact Least.mono (.cat .word (.cat (node_least c (kid h (.node .expr c))) (.or (n := countItems (listArgumentListElementJson args)) (d := 0) (.right (.left (arguments_least args fun x hx => kid h (.arg x)))) (.ite (fun e => empty_least args e) fun _ => .nothing)))) (by size)
  | .objectExpression ps _ _, r, h => by
    rw [node]
    change Least _ (_ + 2) _
    exact Least.mono (.cat .pun (.cat (properties_least ps fun x hx => kid h (.prop x)) .pun)) (by size)
  | .objectPattern ps _ _, r, h => by
    rw [node]
    change Least _ (_ + 2) _
    exact Least.mono (.cat .pun (.cat (patternProperties_least ps fun x hx => kid h (.patProp r.mode x)) .pun)) (by size)
  | .regexLiteral _ _ regex _ _, r, h => by
    rw [node]
    change Least _ (_ + 2) _
    have := flags_eq regex.flags
    exact Least.regexp.mono (by size)
  | .sequenceExpression es _ _, r, h => by
    rw [node]
    change Least _ (_ + 2) _
    have := commaNodes_least es fun x hx => kid h (.node .expr x)
    exact .or (Least.mono (.cat .pun (.cat this .pun)) (by size)) (.ite (fun _ => .nothing) fun e => this.mono (by size))
  | .staticMemberExpression _ o p _ _, r, h => by
    rw [node]
    change Least _ (_ + 2) _
    refine .only fun hb => ?_
    exact Least.mono (.cat (node_least o (kid h (.node .memberObj o))) (.cat .pun (node_least p (kid h (.node .memberName p))))) (by size)
  | .taggedTemplateExpression t qs es _, r, h => by
    rw [node]
    change Least _ (_ + 2) _
    exact Least.mono (.cat (node_least t (kid h (.node .expr t))) (template_least true qs es fun x hx => kid h (.node .expr x))) (by size)
  | .thisExpression _ _, r, h => by
    rw [node]
    change Least _ (_ + 2) _
    exact Least.word.mono (by size)
  | .unaryExpression _ a _ _ _, r, h => by
    rw [node]
    change Least _ (_ + 2) _
    refine .only fun hb => ?_
    exact Least.mono (.cat .operator (node_least a (kid h (.node .expr a)))) (by size)
  | .updateExpression _ a _ _ _, r, h => by
    rw [node]
    change Least _ (_ + 2) _
    exact .ite (fun _ => Least.mono (.cat .sign (node_least a (kid h (.node .expr a)))) (by size)) fun _ => Least.mono (.cat (node_least a (kid h (.node .expr a))) (.sameLine .sign)) (by size)
  | .yieldExpression a _ _ _, r, h => by
    rw [node]
    change Least _ (_ + 2) _
    exact Least.mono (.cat .word (.cat .any (.cat .any (optNode_least a fun n e => kid h (.node .expr n))))) (by size)
  | .arrowParameterPlaceHolder _ _ _, _, _ => by rw [node]; exact .nothing
  | .restElement b _, r, h => by
    rw [node]
    change Least _ (_ + 2) _
    exact Least.mono (.cat .pun (binding_least b (kid h (.binding .declared b)))) (by size)
  | .spreadElement a _, r, h => by
    rw [node]
    change Least _ (_ + 2) _
    exact Least.mono (.cat .pun (node_least a (kid h (.node .expr a)))) (by size)
  | .super _ _, r, h => by
    rw [node]
    change Least _ (_ + 2) _
    exact Least.word.mono (by size)
  | .templateLiteral qs es _ _, r, h => by
    rw [node]
    change Least _ (_ + 2) _
    exact Least.mono (template_least true qs es fun x hx => kid h (.node .expr x)) (by size)
  | .metaProperty a b _ _, r, h => by
    rw [node]
    change Least _ (_ + 2) _
    exact Least.mono (.cat (node_least a (kid h (.node .metaName a))) (.cat .pun (node_least b (kid h (.node .metaName b))))) (by size)
  | .asyncFunctionDeclaration _ _ _ _ _ _ _, _, _ => by rw [node]; exact .nothing
  | .breakStatement l _, r, h => by
    rw [node]
    change Least _ (_ + 2) _
    exact Least.mono (.cat .word (.cat (.sameLineIf (optNode_least l fun n e => kid h (.node .nameId n))) .any)) (by size)
  | .continueStatement l _, r, h => by
    rw [node]
    change Least _ (_ + 2) _
    exact Least.mono (.cat .word (.cat (.sameLineIf (optNode_least l fun n e => kid h (.node .nameId n))) .any)) (by size)
  | .debuggerStatement _, r, h => by
    rw [node]
    change Least _ (_ + 2) _
    exact Least.mono (.cat .word .any) (by size)
  | .doWhileStatement body test _, r, h => by
    rw [node]
    change Least _ (_ + 2) _
    exact Least.mono (.cat .word (.cat (node_least body (kid h (.node .loopBody body))) (.cat .word (.cat .pun (.cat (node_least test (kid h (.node .expr test))) (.cat .pun .any)))))) (by size)
  | .emptyStatement _, r, h => by
    rw [node]
    change Least _ (_ + 2) _
    exact Least.pun.mono (by size)
  | .expressionStatement e _, r, h => by
    rw [node]
    change Least _ (_ + 0) _
    have := slack_expr (kid h (.node .expr e))
    exact Least.mono (.cat (.notFirst (node_least e (kid h (.node .expr e)))) .any) (by size)
  | .directive _ _ _, _, _ => by rw [node]; exact .nothing
  | .forStatement init test update body _, r, h => by
    rw [node]
    change Least _ (_ + 2) _
    exact Least.mono (.cat .word (.cat .pun (.cat (forInit_least init fun n e => kid h (.node .forInit n)) (.cat .pun (.cat (optNode_least test fun n e => kid h (.node .expr n)) (.cat .pun (.cat (optNode_least update fun n e => kid h (.node .expr n)) (.cat .pun (node_least body (kid h (.node .loopBody body))))))))))) (by size)
  | .forInStatement l r' body _ _, r, h => by
    rw [node]
    change Least _ (_ + 2) _
    refine .only fun hb => ?_
    exact Least.mono (.cat .word (.cat .pun (.cat .any (.cat (node_least l (kid h (.node .forLeft l))) (.cat .word (.cat (node_least r' (kid h (.node .expr r'))) (.cat .pun (node_least body (kid h (.node .loopBody body)))))))))) (by size)
  | .forOfStatement l r' body _, r, h => by
    rw [node]
    change Least _ (_ + 2) _
    exact Least.mono (.cat .word (.cat .pun (.cat .any (.cat (node_least l (kid h (.node .forLeft l))) (.cat .word (.cat (node_least r' (kid h (.node .expr r'))) (.cat .pun (node_least body (kid h (.node .loopBody body)))))))))) (by size)
  | .functionDeclaration id ps body _ _ _ _, r, h => by
    rw [node]
    change Least _ (_ + 2) _
    refine .only fun hb => ?_
    exact Least.mono (.cat .any (.cat .word (.cat .any (.cat (optNode_least id fun n e => kid h (.node .bindId n)) (.cat .pun (.cat (parameters_least ps fun x hx => kid h (.param .declared x)) (.cat .pun (node_least body (kid h (.node .fnBody body)))))))))) (by size)
  | .ifStatement a b c _, r, h => by
    rw [node]
    change Least _ (_ + 2) _
    exact Least.mono (.cat .word (.cat .pun (.cat (node_least a (kid h (.node .expr a))) (.cat .pun (.cat (node_least b (kid h (.node .sub b))) (.cat .any (optNode_least c fun n e => kid h (.node .sub n)))))))) (by size)
  | .returnStatement a _, r, h => by
    rw [node]
    change Least _ (_ + 2) _
    exact Least.mono (.cat .word (.cat (.sameLineIf (optNode_least a fun n e => kid h (.node .expr n))) .any)) (by size)
  | .switchStatement d cs _, r, h => by
    rw [node]
    change Least _ (_ + 2) _
    exact Least.mono (.cat .word (.cat .pun (.cat (node_least d (kid h (.node .expr d))) (.cat .pun (.cat .pun (.cat (cases_least cs fun x hx => kid h (.case x)) .pun)))))) (by size)
  | .throwStatement a _, r, h => by
    rw [node]
    change Least _ (_ + 2) _
    exact Least.mono (.cat .word (.cat (.sameLine (node_least a (kid h (.node .expr a)))) .any)) (by size)
  | .tryStatement b hd f _, r, h => by
    rw [node]
    change Least _ (_ + 2) _
    exact Least.mono (.cat .word (.cat (node_least b (kid h (.node .block b))) (.cat (optHandler_least hd fun x e => kid h (.catchClause x)) (.cat .any (optNode_least f fun n e => kid h (.node .block n)))))) (by size)
  | .variableDeclaration ds _ _, r, h => by
    rw [node]
    change Least _ (_ + 2) _
    exact Least.mono (.cat .word (.cat (declarators_least ds fun x hx => kid h (.declarator x)) .any)) (by size)
  | .whileStatement a b _, r, h => by
    rw [node]
    change Least _ (_ + 2) _
    exact Least.mono (.cat .word (.cat .pun (.cat (node_least a (kid h (.node .expr a))) (.cat .pun (node_least b (kid h (.node .loopBody b))))))) (by size)
  | .withStatement a b _, r, h => by
    rw [node]
    change Least _ (_ + 2) _
    exact Least.mono (.cat .word (.cat .pun (.cat (node_least a (kid h (.node .expr a))) (.cat .pun (node_least b (kid h (.node .sub b))))))) (by size)
  | .blockStatement l _, r, h => by
    rw [node]
    change Least _ (_ + 2) _
    exact Least.mono (.cat .pun (.cat (nodes_least l fun x hx => kid h (.node .stmt x)) .pun)) (by size)
  | .classDeclaration id sup body _, r, h => by
    rw [node]
    change Least _ (_ + 2) _
    exact Least.mono (.cat .word (.cat (optNode_least id fun n e => kid h (.node .bindId n)) (.cat .any (.cat (optNode_least sup fun n e => kid h (.node .expr n)) (.cat .pun (.cat (members_least body fun x hx => kid h (.method x)) .pun)))))) (by size)
  | .exportAllDeclaration source _, r, h => by
    rw [node]
    change Least _ (_ + 2) _
    have := value_le source.value
    exact Least.mono (.cat .word (.cat .pun (.cat .word (.cat .stringWord .any)))) (by size)
  | .exportDefaultDeclaration d _, r, h => by
    rw [node]
    change Least _ (_ + 2) _
    exact Least.mono (.cat .word (.cat .word (.cat (node_least d (kid h (.node .exportDefault d))) .any))) (by size)
  | .exportNamedDeclaration (some d) specifiers source _, r, h => by
    rw [node]
    change Least _ (_ + 2) _
    refine .only fun hb => ?_
    cases specifiers with
    | cons => cases hb
    | nil =>
      cases source with
      | some _ => cases hb
      | none => exact Least.mono (.cat .word (node_least d (kid h (.node .exportDecl d)))) (by size)
  | .exportNamedDeclaration none specifiers none _, r, h => by
    rw [node]
    change Least _ (_ + 2) _
    exact Least.mono (.cat .word (.cat .pun (.cat (exportNames_least specifiers) .pun))) (by size)
  | .exportNamedDeclaration none _ (some _) _, _, _ => by rw [node]; exact .nothing
  | .importDeclaration specifiers source _, r, h => by
    rw [node]
    change Least _ (_ + 2) _
    have := value_le source.value
    exact Least.mono (.cat .word (.cat (importClause_least specifiers) (.cat .word (.cat .stringWord .any)))) (by size)
  | .importDefaultSpecifier _ _, _, _ => by rw [node]; exact .nothing
  | .importNamespaceSpecifier _ _, _, _ => by rw [node]; exact .nothing
  | .importSpecifier _ _ _, _, _ => by rw [node]; exact .nothing
  | .labeledStatement label body _, r, h => by
    rw [node]
    change Least _ (_ + 2) _
    exact Least.mono (.cat .word (.cat .pun (node_least body (kid h (.node .labelBody body))))) (by size)
  | .moduleNode _ _ _, _, _ => by rw [node]; exact .nothing
  | .program _ _ _, _, _ => by rw [node]; exact .nothing
termination_by structural n => n

theorem forInit_least : ∀ (n : Option Node), (∀ x, n = some x → Ok (.node .forInit x)) → Least (forInit n) (count (optNodeJson n)) 4
  | none, _ => by rw [forInit]; exact Least.any.mono (by size)
  | some n, h => by rw [forInit]; exact (forHead_least n (h n rfl)).mono (by size)
termination_by structural n => n

theorem forHead_least : ∀ (n : Node), Ok (.node .forInit n) → Least (forHead n) (count (nodeJson n)) 4
  | .variableDeclaration ds _ _, h => by
    rw [forHead]
    exact Least.mono (.cat .word (declarators_least ds fun x hx => kid h (.declarator x))) (by size)
  | .sequenceExpression es _ _, h => by
    rw [forHead]
    exact (commaNodes_least es fun x hx => kid h (.node .expr x)).mono (by size)
  | .arrayExpression _ _ _, _ => .nothing
  | .arrayPattern _ _ _, _ => .nothing
  | .arrayAssignmentPattern _ _ _, _ => .nothing
  | .arrowFunctionExpression _ _ _ _ _ _ _ _, _ => .nothing
  | .assignmentExpression _ _ _ _ _, _ => .nothing
  | .assignmentPattern _ _ _, _ => .nothing
  | .assignmentRestElement _ _, _ => .nothing
  | .asyncArrowFunctionExpression _ _ _ _ _ _ _ _, _ => .nothing
  | .asyncFunctionExpression _ _ _ _ _ _ _ _, _ => .nothing
  | .awaitExpression _ _, _ => .nothing
  | .binaryExpression _ _ _ _ _, _ => .nothing
  | .bindingIdentifier _ _, _ => .nothing
  | .logicalExpression _ _ _ _, _ => .nothing
  | .callExpression _ _ _ _, _ => .nothing
  | .classExpression _ _ _ _ _, _ => .nothing
  | .computedMemberExpression _ _ _ _ _, _ => .nothing
  | .conditionalExpression _ _ _ _, _ => .nothing
  | .identifier _ _ _, _ => .nothing
  | .functionExpression _ _ _ _ _ _ _ _, _ => .nothing
  | .literal _ _ _ _, _ => .nothing
  | .newExpression _ _ _ _, _ => .nothing
  | .objectExpression _ _ _, _ => .nothing
  | .objectPattern _ _ _, _ => .nothing
  | .regexLiteral _ _ _ _ _, _ => .nothing
  | .staticMemberExpression _ _ _ _ _, _ => .nothing
  | .taggedTemplateExpression _ _ _ _, _ => .nothing
  | .thisExpression _ _, _ => .nothing
  | .unaryExpression _ _ _ _ _, _ => .nothing
  | .updateExpression _ _ _ _ _, _ => .nothing
  | .yieldExpression _ _ _ _, _ => .nothing
  | .arrowParameterPlaceHolder _ _ _, _ => .nothing
  | .restElement _ _, _ => .nothing
  | .spreadElement _ _, _ => .nothing
  | .super _ _, _ => .nothing
  | .templateLiteral _ _ _ _, _ => .nothing
  | .metaProperty _ _ _ _, _ => .nothing
  | .asyncFunctionDeclaration _ _ _ _ _ _ _, _ => .nothing
  | .breakStatement _ _, _ => .nothing
  | .continueStatement _ _, _ => .nothing
  | .debuggerStatement _, _ => .nothing
  | .doWhileStatement _ _ _, _ => .nothing
  | .emptyStatement _, _ => .nothing
  | .expressionStatement _ _, _ => .nothing
  | .directive _ _ _, _ => .nothing
  | .forStatement _ _ _ _ _, _ => .nothing
  | .forInStatement _ _ _ _ _, _ => .nothing
  | .forOfStatement _ _ _ _, _ => .nothing
  | .functionDeclaration _ _ _ _ _ _ _, _ => .nothing
  | .ifStatement _ _ _ _, _ => .nothing
  | .returnStatement _ _, _ => .nothing
  | .switchStatement _ _ _, _ => .nothing
  | .throwStatement _ _, _ => .nothing
  | .tryStatement _ _ _ _, _ => .nothing
  | .whileStatement _ _ _, _ => .nothing
  | .withStatement _ _ _, _ => .nothing
  | .blockStatement _ _, _ => .nothing
  | .classDeclaration _ _ _ _, _ => .nothing
  | .exportAllDeclaration _ _, _ => .nothing
  | .exportDefaultDeclaration _ _, _ => .nothing
  | .exportNamedDeclaration _ _ _ _, _ => .nothing
  | .importDeclaration _ _ _, _ => .nothing
  | .importDefaultSpecifier _ _, _ => .nothing
  | .importNamespaceSpecifier _ _, _ => .nothing
  | .importSpecifier _ _ _, _ => .nothing
  | .labeledStatement _ _ _, _ => .nothing
  | .moduleNode _ _ _, _ => .nothing
  | .program _ _ _, _ => .nothing
termination_by structural n => n

theorem optNode_least : ∀ (n : Option Node) {r : Role}, (∀ x, n = some x → Ok (.node r x)) → Least (Spell.optNode n) (count (optNodeJson n)) 1
  | none, _, _ => by rw [Spell.optNode]; exact Least.any.mono (by size)
  | some n, _, h => by rw [Spell.optNode]; exact (node_least n (h n rfl)).mono (by size)
termination_by structural n => n

theorem nodes_least : ∀ (l : List Node) {r : Role}, (∀ x ∈ l, Ok (.node r x)) → Least (nodes l) (countItems (listNodeJson l)) 0
  | [], _, _ => Least.any.mono (by size)
  | n :: more, _, h => by
    rw [nodes]
    exact Least.mono (.cat (node_least n (h n (.head _))) (nodes_least more fun x hx => h x (.tail _ hx))) (by size)
termination_by structural l => l

theorem commaNodes_least : ∀ (l : List Node) {r : Role}, (∀ x ∈ l, Ok (.node r x)) →
    Least (commaNodes l) (countItems (listNodeJson l) + 12 * (l.length - 1)) 0
  | [], _, _ => Least.any.mono (by size)
  | n :: more, _, h => by
    rw [commaNodes]
    have hn := node_least n (h n (.head _))
    have hm := commaNodes_least more fun x hx => h x (.tail _ hx)
    cases more with
    | nil => exact (hn.left).mono (by size)
    | cons m more => exact Least.mono (.cat hn (.cat .commaBetween hm)) (by size)
termination_by structural l => l

theorem template_least (first : Bool) (qs : List TemplateElement) : ∀ (es : List Node) {r : Role}, (∀ x ∈ es, Ok (.node r x)) →
    Least (template first qs es) (countItems (qs.map templateElementJson) + countItems (listNodeJson es) + 17) 0
  | [], _, _ => by
    match qs with
    | [] => exact .nothing
    | [q] => exact Least.mono (A := quasi first q) Least.quasi (by size)
    | _ :: _ :: _ => exact .nothing
  | e :: es, _, h => by
    match qs with
    | [] => exact .nothing
    | q :: qs =>
      exact Least.mono (A := quasi first q ⬝ node e ⬝ template false qs es)
        (.cat .quasi (.cat (node_least e (h e (.head _))) (template_least false qs es fun x hx => h x (.tail _ hx)))) (by size)
termination_by structural l => l

theorem binding_least : ∀ (b : Binding) {m : Mode}, Ok (.binding m b) → Least (binding b) (count (bindingJson b)) 0
  | .bindingIdentifier _ _, _, _ => by rw [binding]; exact Least.word.mono (by size)
  | .arrayPattern es _, m, h => by
    rw [binding]; exact Least.mono (.cat .pun (.cat (patternElements_least es fun x hx => kid h (.arrPat m.inner x)) .pun)) (by size)
  | .objectPattern ps _, m, h => by
    rw [binding]; exact Least.mono (.cat .pun (.cat (patternProperties_least ps fun x hx => kid h (.patProp m.inner x)) .pun)) (by size)
  | .expression n, _, h => by rw [binding]; exact (node_least n (kid h (.node .target n))).mono (by size)
termination_by structural b => b

theorem arrayElements_least : ∀ (l : List (Option ArrayExpressionElement)) , (∀ x, some x ∈ l → Ok (.arrElem x)) → Least (arrayElements l) (countItems (holesArrayExpressionElementJson l)) 0
  | [], _ => Least.any.mono (by size)
  | none :: more, h => by
    rw [arrayElements]
    exact Least.mono (.cat .pun (arrayElements_least more fun x hx => h x (.tail _ hx))) (by size)
  | some e :: more, h => by
    rw [arrayElements]
    exact Least.mono (.cat (arrayElement_least e (h e (.head _))) (.right (arrayElements_least more fun x hx => h x (.tail _ hx)))) (by size)
termination_by structural l => l

theorem patternElements_least : ∀ (l : List (Option ArrayPatternElement)) , (∀ x, some x ∈ l → Ok (.arrPat m x)) → Least (patternElements l) (countItems (holesArrayPatternElementJson l)) 0
  | [], _ => Least.any.mono (by size)
  | none :: more, h => by
    rw [patternElements]
    exact Least.mono (.cat .pun (patternElements_least more fun x hx => h x (.tail _ hx))) (by size)
  | some e :: more, h => by
    rw [patternElements]
    exact Least.mono (.cat (patternElement_least e (h e (.head _))) (.right (patternElements_least more fun x hx => h x (.tail _ hx)))) (by size)
termination_by structural l => l

theorem targetElements_least : ∀ (l : List (Option ArrayAssignmentPatternElement)) , (∀ x, some x ∈ l → Ok (.arrAsg x)) → Least (targetElements l) (countItems (holesArrayAssignmentPatternElementJson l)) 0
  | [], _ => Least.any.mono (by size)
  | none :: more, h => by
    rw [targetElements]
    exact Least.mono (.cat .pun (targetElements_least more fun x hx => h x (.tail _ hx))) (by size)
  | some e :: more, h => by
    rw [targetElements]
    exact Least.mono (.cat (targetElement_least e (h e (.head _))) (.right (targetElements_least more fun x hx => h x (.tail _ hx)))) (by size)
termination_by structural l => l

theorem arrayElement_least : ∀ (e : ArrayExpressionElement), Ok (.arrElem e) → Least (arrayElement e) (count (arrayExpressionElementJson e)) 0
  | .expression n, h => by rw [arrayElement]; exact (node_least n (kid h (.node .expr n))).mono (by size)
  | .spreadElement n _, h => by rw [arrayElement]; exact Least.mono (.cat .pun (node_least n (kid h (.node .expr n)))) (by size)
termination_by structural e => e

theorem argument_least : ∀ (e : ArgumentListElement), Ok (.arg e) → Least (argument e) (count (argumentListElementJson e)) 0
  | .expression n, h => by rw [argument]; exact (node_least n (kid h (.node .expr n))).mono (by size)
  | .spreadElement n _, h => by rw [argument]; exact Least.mono (.cat .pun (node_least n (kid h (.node .expr n)))) (by size)
termination_by structural e => e

theorem targetElement_least : ∀ (e : ArrayAssignmentPatternElement), Ok (.arrAsg e) → Least (targetElement e) (count (arrayAssignmentPatternElementJson e)) 0
  | .expression n, h => by rw [targetElement]; exact (node_least n (kid h (.node .asgElem n))).mono (by size)
  | .restElement b, h => by rw [targetElement]; exact Least.mono (.cat .pun (binding_least b (kid h (.binding .assign b)))) (by size)
termination_by structural e => e

theorem patternElement_least : ∀ (e : ArrayPatternElement) {m : Mode}, Ok (.arrPat m e) → Least (patternElement e) (count (arrayPatternElementJson e)) 0
  | .assignmentPattern l r, m, h => by
    rw [patternElement]; exact Least.mono (.cat (binding_least l (kid h (.binding m.left l))) (.cat .pun (node_least r (kid h (.node .expr r))))) (by size)
  | .bindingIdentifier _, _, _ => by rw [patternElement]; exact Least.word.mono (by size)
  | .arrayPattern es, m, h => by
    rw [patternElement]; exact Least.mono (.cat .pun (.cat (patternElements_least es fun x hx => kid h (.arrPat m x)) .pun)) (by size)
  | .objectPattern ps, m, h => by
    rw [patternElement]; exact Least.mono (.cat .pun (.cat (patternProperties_least ps fun x hx => kid h (.patProp m x)) .pun)) (by size)
  | .restElement b, m, h => by rw [patternElement]; exact Least.mono (.cat .pun (binding_least b (kid h (.binding m b)))) (by size)
termination_by structural e => e

theorem parameter_least : ∀ (e : FunctionParameter) {m : Mode}, Ok (.param m e) → Least (parameter e) (count (functionParameterJson e)) 0
  | .assignmentPattern l r, m, h => by
    rw [parameter]; exact Least.mono (.cat (binding_least l (kid h (.binding m.left l))) (.cat .pun (node_least r (kid h (.node .expr r))))) (by size)
  | .bindingIdentifier _, _, _ => by rw [parameter]; exact Least.word.mono (by size)
  | .arrayPattern es, m, h => by
    rw [parameter]; exact Least.mono (.cat .pun (.cat (patternElements_least es fun x hx => kid h (.arrPat m x)) .pun)) (by size)
  | .objectPattern ps, m, h => by
    rw [parameter]; exact Least.mono (.cat .pun (.cat (patternProperties_least ps fun x hx => kid h (.patProp m x)) .pun)) (by size)
  | .restElement b, m, h => by rw [parameter]; exact Least.mono (.cat .pun (binding_least b (kid h (.binding .declared b)))) (by size)
termination_by structural e => e

theorem parameters_least : ∀ (l : List FunctionParameter) {m : Mode}, (∀ x ∈ l, Ok (.param m x)) → Least (parameters l) (countItems (listFunctionParameterJson l)) 0
  | [], _, _ => Least.any.mono (by size)
  | e :: more, _, h => by
    rw [parameters]
    exact Least.mono (.cat (parameter_least e (h e (.head _))) (.right (parameters_least more fun x hx => h x (.tail _ hx)))) (by size)
termination_by structural l => l

theorem arguments_least : ∀ (l : List ArgumentListElement) , (∀ x ∈ l, Ok (.arg x)) → Least (arguments l) (countItems (listArgumentListElementJson l)) 0
  | [], _ => Least.any.mono (by size)
  | e :: more, h => by
    rw [arguments]
    exact Least.mono (.cat (argument_least e (h e (.head _))) (.right (arguments_least more fun x hx => h x (.tail _ hx)))) (by size)
termination_by structural l => l

theorem patternProperties_least : ∀ (l : List ObjectPatternProperty) , (∀ x ∈ l, Ok (.patProp m x)) → Least (patternProperties l) (countItems (listObjectPatternPropertyJson l)) 0
  | [], _ => Least.any.mono (by size)
  | e :: more, h => by
    rw [patternProperties]
    exact Least.mono (.cat (patternProperty_least e (h e (.head _))) (.right (patternProperties_least more fun x hx => h x (.tail _ hx)))) (by size)
termination_by structural l => l

theorem cases_least : ∀ (l : List SwitchCase) , (∀ x ∈ l, Ok (.case x)) → Least (cases l) (countItems (listSwitchCaseJson l)) 0
  | [], _ => Least.any.mono (by size)
  | e :: more, h => by
    rw [cases]
    exact Least.mono (.cat (switchCase_least e (h e (.head _))) (cases_least more fun x hx => h x (.tail _ hx))) (by size)
termination_by structural l => l

theorem members_least : ∀ (l : List MethodDefinition) , (∀ x ∈ l, Ok (.method x)) → Least (members l) (countItems (listMethodDefinitionJson l)) 0
  | [], _ => Least.any.mono (by size)
  | e :: more, h => by
    rw [members]
    exact Least.mono (.right (.cat (member_least e (h e (.head _))) (members_least more fun x hx => h x (.tail _ hx)))) (by size)
termination_by structural l => l

theorem declarators_least : ∀ (l : List VariableDeclarator), (∀ x ∈ l, Ok (.declarator x)) → Least (declarators l) (countItems (listVariableDeclaratorJson l)) 3
  | [], _ => Least.any.mono (by size)
  | e :: more, h => by
    rw [declarators]
    have he := declarator_least e (h e (.head _))
    have hm := declarators_least more fun x hx => h x (.tail _ hx)
    cases more with
    | nil => exact he.left.mono (by size)
    | cons m more => exact Least.mono (.cat he (.cat .commaBetween hm)) (by size)
termination_by structural l => l

theorem declarator_least : ∀ (d : VariableDeclarator), Ok (.declarator d) → Least (declarator d) (count (variableDeclaratorJson d)) 3
  | .mk b init, h => by
    rw [declarator]
    exact Least.mono (.cat (binding_least b (kid h (.binding .declared b))) (.right (optNode_least init fun n e => kid h (.node .expr n)))) (by size)
termination_by structural d => d

theorem switchCase_least : ∀ (c : SwitchCase), Ok (.case c) → Least (switchCase c) (count (switchCaseJson c)) 0
  | .mk test body, h => by
    rw [switchCase]
    exact Least.mono (.right (.cat (optNode_least test fun n e => kid h (.node .expr n)) (.cat .pun (nodes_least body fun x hx => kid h (.node .stmt x))))) (by size)
termination_by structural d => d

theorem optHandler_least : ∀ (c : Option CatchClause), (∀ x, c = some x → Ok (.catchClause x)) → Least (optHandler c) (count (optCatchClauseJson c)) 1
  | none, _ => by rw [optHandler]; exact Least.any.mono (by size)
  | some c, h => by rw [optHandler]; exact (handler_least c (h c rfl)).mono (by size)
termination_by structural d => d

theorem handler_least : ∀ (c : CatchClause), Ok (.catchClause c) → Least (handler c) (count (catchClauseJson c)) 0
  | .mk p body, h => by
    rw [handler]
    exact Least.mono (.cat .word (.cat (catchParam_least p fun b e => kid h (.binding .declared b)) (node_least body (kid h (.node .block body))))) (by size)
termination_by structural d => d

theorem catchParam_least : ∀ (b : Option Binding), (∀ x, b = some x → Ok (.binding .declared x)) → Least (catchParam b) (count (optBindingJson b)) 1
  | none, _ => by rw [catchParam]; exact Least.any.mono (by size)
  | some b, h => by rw [catchParam]; exact Least.mono (.cat .pun (.cat (binding_least b (h b rfl)) .pun)) (by size)
termination_by structural d => d

theorem key_least {computed : Bool} : ∀ (k : PropertyKey), Ok (.key k) → Least (key computed k) (count (propertyKeyJson k) + 7) 0
  | .identifier id, _ => by rw [key]; exact (Least.plain .word).mono (by size)
  | .literal l, _ => by
    rw [key]
    have := value_le l.value
    refine (Least.plain (.one ?_)).mono (by size)
    rintro _ (⟨v, o, rfl, _⟩ | ⟨n, rfl, _⟩) <;> exact Nat.le_refl _
  | .expression n, h => by rw [key]; exact (Least.bracketed (node_least n (kid h (.node .expr n)))).mono (by size)
termination_by structural k => k

theorem patternKey_least {computed : Bool} : ∀ (k : PropertyKey), Ok (.key k) → Least (patternKey computed k) (count (propertyKeyJson k) + 7) 0
  | .identifier id, _ => by rw [patternKey]; exact (Least.plain .patternName).mono (by size)
  | .literal l, _ => by
    rw [patternKey]
    have := value_le l.value
    exact (Least.plain (.one fun c hc => value_weight hc)).mono (by size)
  | .expression n, h => by rw [patternKey]; exact (Least.bracketed (node_least n (kid h (.node .expr n)))).mono (by size)
termination_by structural k => k

theorem method_least {tag : Str} : ∀ (f : FnExpr), Ok (.fn f) → Least (method f) (count (fnExprJson tag f) + 16) 0
  | .mk id ps body _ _ _, h => by
    rw [method]
    cases id with
    | some _ => exact .nothing
    | none =>
      refine .only fun _ => ?_
      exact Least.mono (.cat .pun (.cat (parameters_least ps fun x hx => kid h (.param .declared x)) (.cat .pun (node_least body (kid h (.node .fnBody body)))))) (by size)
termination_by structural f => f

theorem optMethod_least : ∀ (f : Option FnExpr), (∀ x, f = some x → Ok (.fn x)) → Least (optMethod f) (count (optFnExprJson f) + 16) 0
  | none, _ => by rw [optMethod]; exact .nothing
  | some f, h => by rw [optMethod]; exact (method_least (tag := cs!"FunctionExpression") f (h f rfl)).mono (by size)
termination_by structural f => f

theorem member_least : ∀ (m : MethodDefinition), Ok (.method m) → Least (member m) (count (methodDefinitionJson m)) 0
  | .mk k _ f _ _, h => by
    rw [member]
    exact Least.mono (.right (.right (.right (.cat (node_least k (kid h (.node .methodKey k))) (.right (optMethod_least f fun x e => kid h (.fn x))))))) (by size)
termination_by structural m => m

theorem propertyValue_least : ∀ (v : PropertyValue), Ok (.propVal v) ∨ (∃ m, Ok (.patVal m v)) →
    Least (propertyValue v) (count (propertyValueJson v)) 0
  | .assignmentPattern l r, h => by
    have : (∃ m, Ok (.binding m l)) ∧ Ok (.node .expr r) := by
      rcases h with h | ⟨m, h⟩
      · exact ⟨⟨_, kid h (.binding .declared l)⟩, kid h (.node .expr r)⟩
      · exact ⟨⟨_, kid h (.binding m.left l)⟩, kid h (.node .expr r)⟩
    obtain ⟨⟨m, hl⟩, hr⟩ := this
    rw [propertyValue]; exact Least.mono (.cat (binding_least l hl) (.cat .pun (node_least r hr))) (by size)
  | .asyncFunctionExpression f, h => by
    have : Ok (.fn f) := by
      rcases h with h | ⟨m, h⟩
      · exact kid h (.fn f)
      · exact kid h (.fn f)
    rw [propertyValue]; exact (method_least (tag := cs!"AsyncFunctionExpression") f this).mono (by size)
  | .bindingIdentifier _ _, _ => by rw [propertyValue]; exact Least.word.mono (by size)
  | .bindingPattern p, h => by
    have : ∃ m, Ok (.patVal m (.bindingPattern p)) := by
      rcases h with h | h
      · exact ⟨_, kid h (.patVal .declared (.bindingPattern p))⟩
      · exact h
    rw [propertyValue]; exact (bindingPattern_least p this).mono (by size)
  | .functionExpression f, h => by
    have : Ok (.fn f) := by
      rcases h with h | ⟨m, h⟩
      · exact kid h (.fn f)
      · exact kid h (.fn f)
    rw [propertyValue]; exact (method_least (tag := cs!"FunctionExpression") f this).mono (by size)
  | .expression n, h => by
    have : ∃ r, Ok (.node r n) := by
      rcases h with h | ⟨m, h⟩
      · exact ⟨_, kid h (.node .expr n)⟩
      · exact ⟨_, kid h (.node .asgElem n)⟩
    obtain ⟨r, hn⟩ := this
    rw [propertyValue]; exact (node_least n hn).mono (by size)
termination_by structural v => v

theorem bindingPattern_least : ∀ (p : BindingPattern), (∃ m, Ok (.patVal m (.bindingPattern p))) → Least (bindingPattern p) (count (bindingPatternJson p)) 0
  | .arrayPattern es, h => by
    obtain ⟨m, h⟩ := h
    rw [bindingPattern]; exact Least.mono (.cat .pun (.cat (patternElements_least es fun x hx => kid h (.arrPat m.inner x)) .pun)) (by size)
  | .objectPattern ps, h => by
    obtain ⟨m, h⟩ := h
    rw [bindingPattern]; exact Least.mono (.cat .pun (.cat (patternProperties_least ps fun x hx => kid h (.patProp m.inner x)) .pun)) (by size)
termination_by structural p => p

theorem optValue_least : ∀ (v : Option PropertyValue), (∀ x, v = some x → Ok (.propVal x) ∨ ∃ m, Ok (.patVal m x)) →
    Least (optValue v) (count (optPropertyValueJson v)) 1
  | none, _ => by rw [optValue]; exact Least.any.mono (by size)
  | some v, h => by rw [optValue]; exact (propertyValue_least v (h v rfl)).mono (by size)
termination_by structural v => v

theorem shorthandDefault_least {k : PropertyKey} : ∀ (v : Option PropertyValue), (∀ x, v = some x → ∃ m, Ok (.patVal m x)) →
    Least (shorthandDefault k v) (count (optPropertyValueJson v)) 5
  | none, _ => .nothing
  | some (.assignmentPattern (.bindingIdentifier v _) right), h => by
    obtain ⟨m, h⟩ := h _ rfl
    have hn := node_least right (kid h (.node .expr right))
    cases k with
    | identifier id => exact Least.ite (A := node right) (B := Lang.nothing) (fun _ => hn.mono (by size)) fun _ => .nothing
    | literal _ => exact .nothing
    | expression _ => exact .nothing
  | some (.assignmentPattern (.arrayPattern _ _) _), _ => .nothing
  | some (.assignmentPattern (.objectPattern _ _) _), _ => .nothing
  | some (.assignmentPattern (.expression _) _), _ => .nothing
  | some (.asyncFunctionExpression _), _ => .nothing
  | some (.bindingIdentifier _ _), _ => .nothing
  | some (.bindingPattern _), _ => .nothing
  | some (.functionExpression _), _ => .nothing
  | some (.expression _), _ => .nothing
termination_by structural v => v

theorem patternProperty_least : ∀ (p : ObjectPatternProperty) {m : Mode}, Ok (.patProp m p) → Least (patternProperty p) (count (objectPatternPropertyJson p)) 0
  | .property k computed v kind isMethod shorthand, m, h => by
    rw [patternProperty]
    have hk := patternKey_least (computed := computed) k (kid h (.key k))
    have hv := optValue_least v fun x e => .inr ⟨m, kid h (.patVal m x)⟩
    have hd := shorthandDefault_least (k := k) v fun x e => ⟨m, kid h (.patVal m x)⟩
    exact .or (Least.mono (.right (.cat hk (.right hv))) (by size)) (.ite (fun _ => Least.mono (.cat hk (.cat .pun hd)) (by size)) fun _ => .nothing)
  | .restElement b, m, h => by rw [patternProperty]; exact Least.mono (.cat .pun (binding_least b (kid h (.binding m b)))) (by size)
termination_by structural p => p

theorem property_least : ∀ (p : ObjectExpressionProperty), Ok (.prop p) →
    Least (property p) (count (objectExpressionPropertyJson p)) (if isGenerator p then 0 else 12)
  | .property k computed v kind isMethod shorthand sp, h => by
    rw [property]
    have hk := key_least (computed := computed) k (kid h (.key k))
    match v with
    | none => exact Least.mono (.right hk.left) (by simp only [isGenerator]; size)
    | some v =>
      have hv := propertyValue_least v (.inl (kid h (.propVal v)))
      refine Least.mono (n := count (objectExpressionPropertyJson (.property k computed (some v) kind isMethod shorthand sp))) (d := 0) ?_ (by omega)
      cases v with
      | functionExpression f =>
        have hf := method_least (tag := cs!"FunctionExpression") f (kid (kid h (.propVal (.functionExpression f))) (.fn f))
        exact Least.mono (.right (.cat hk (.right hf))) (by size)
      | asyncFunctionExpression f =>
        have hf := method_least (tag := cs!"AsyncFunctionExpression") f (kid (kid h (.propVal (.asyncFunctionExpression f))) (.fn f))
        exact Least.mono (.right (.cat hk (.right hf))) (by size)
      | _ => exact Least.mono (.right (.cat hk (.cat (.ite (fun _ => .nothing) fun _ => .ite (fun _ => .pun) fun _ => .pun) hv))) (by size)
  | .spreadElement n _, h => by
    rw [property]; exact Least.mono (.cat .pun (node_least n (kid h (.node .expr n)))) (by simp only [isGenerator]; size)
termination_by structural p => p

theorem properties_least : ∀ (l : List ObjectExpressionProperty), (∀ x ∈ l, Ok (.prop x)) →
    Least (properties l) (countItems (listObjectExpressionPropertyJson l)) 12
  | [], _ => Least.any.mono (by size)
  | e :: more, h => by
    rw [properties]
    have he := property_least e (h e (.head _))
    have hm := properties_least more fun x hx => h x (.tail _ hx)
    cases hg : isGenerator e
    · rw [hg] at he
      cases more with
      | nil => exact he.left.mono (by size)
      | cons m more => exact Least.mono (.cat he (.cat (Least.commaAfter (x := m) (l := more)) hm)) (by size)
    · rw [hg] at he
      exact Least.mono (.cat he (.right hm)) (by size)
termination_by structural l => l

end

end Giron.Size

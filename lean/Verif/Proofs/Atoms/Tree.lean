import Verif.Proofs.Atoms.Words
/-
The literals, names, regular expressions and template parts of a tree are those of its words.
-/
namespace Giron.Atoms
open Giron Spec Lang Spell
variable [Env] {P : Probe}

/-- No sequence: the part after `=` is missing. -/
theorem Fits.stop {A B : Lang} {l h : Nat} : Fits P (A ⬝ B ⬝ Lang.nothing) l h := by
  rintro _ ⟨_, _, _, _, _, _, _, _, h⟩; exact h.elim

theorem Fits.asyncJoined {b : Bool} {v : Str} : Fits P (Lang.pre b (Lang.word v ⬝ Lang.mark .joined)) 0 0 := .pre (.zero2 .keyword (.mark (m := .joined) nofun))
theorem Fits.asyncBroken {b : Bool} {v : Str} : Fits P (Lang.pre b (Lang.word v ⬝ Lang.mark .broken)) 0 0 := .pre (.zero2 .keyword (.mark (m := .broken) nofun))

set_option hygiene false in
/-- walks through the words -/
macro "walk" : tactic => `(tactic| repeat' (with_reducible first | apply Fits.cat | exact Fits.pun | exact Fits.keyword | exact Fits.semi | exact Fits.commaAfter | exact Fits.commaBetween | exact Fits.semicolons | exact Fits.literalWord | exact Fits.stringWord | exact Fits.regexp | exact Fits.sign | exact Fits.operator | exact Fits.loopWord | exact Fits.methodPrefix | exact Fits.pre .keyword | exact Fits.pre .pun | exact Fits.asyncJoined | exact Fits.asyncBroken | apply Fits.sameLineIf | apply Fits.sameLine | apply Fits.notFirst | apply Fits.arrowBody | exact importClause_fits _ | exact exportNames_fits _ | exact arrowParams_fits (parameters_fits _) | exact template_fits _ _ _ | exact node_fits _ | exact forInit_fits _ | exact forHead_fits _ | exact optNode_fits _ | exact nodes_fits _ | exact commaNodes_fits _ | exact binding_fits _ | exact arrayElements_fits _ | exact patternElements_fits _ | exact targetElements_fits _ | exact arrayElement_fits _ | exact argument_fits _ | exact targetElement_fits _ | exact patternElement_fits _ | exact parameter_fits _ | exact parameters_fits _ | exact arguments_fits _ | exact patternProperties_fits _ | exact cases_fits _ | exact members_fits _ | exact declarators_fits _ | exact declarator_fits _ | exact switchCase_fits _ | exact optHandler_fits _ | exact handler_fits _ | exact catchParam_fits _ | exact optMethod_fits _ | exact member_fits _ | exact propertyValue_fits _ | exact bindingPattern_fits _ | exact optValue_fits _ | exact patternProperty_fits _ | exact property_fits _ | exact properties_fits _))

/-- walks through the words, and compares the weights -/
macro "fit" : tactic => `(tactic| (apply Fits.mono; (focus walk); all_goals size))

/-- there are no words -/
macro "fit0" : tactic => `(tactic| exact Fits.stop)

set_option maxHeartbeats 4000000

mutual

theorem node_fits : ∀ (n : Node), Fits P (node n) (tally P.lo (nodeJson n)) (tally P.hi (nodeJson n))
  | .arrayExpression es _ _ => by rw [node]; fit
  | .arrayPattern es _ _ => by rw [node]; fit
  | .arrayAssignmentPattern es _ _ => by rw [node]; fit
  | .assignmentExpression _ l r' _ _ => by rw [node]; fit
  | .assignmentPattern l r' _ => by rw [node]; fit
  | .binaryExpression op l r' _ _ => by rw [node]; fit
  | .callExpression c args _ _ => by rw [node]; fit
  | .conditionalExpression a b c _ => by rw [node]; fit
  | .literal v raw _ _ => by rw [node]; fit
  | .objectExpression ps _ _ => by rw [node]; fit
  | .objectPattern ps _ _ => by rw [node]; fit
  | .regexLiteral _ _ regex _ _ => by rw [node]; fit
  | .taggedTemplateExpression t qs es _ => by rw [node]; fit
  | .thisExpression _ _ => by rw [node]; fit
  | .restElement b _ => by rw [node]; fit
  | .spreadElement a _ => by rw [node]; fit
  | .super _ _ => by rw [node]; fit
  | .templateLiteral qs es _ _ => by rw [node]; fit
  | .metaProperty a b _ _ => by rw [node]; fit
  | .breakStatement l _ => by rw [node]; fit
  | .continueStatement l _ => by rw [node]; fit
  | .debuggerStatement _ => by rw [node]; fit
  | .doWhileStatement body test _ => by rw [node]; fit
  | .emptyStatement _ => by rw [node]; fit
  | .expressionStatement e _ => by rw [node]; fit
  | .forStatement init test update body _ => by rw [node]; fit
  | .forOfStatement l r' body _ => by rw [node]; fit
  | .returnStatement a _ => by rw [node]; fit
  | .switchStatement d cs _ => by rw [node]; fit
  | .throwStatement a _ => by rw [node]; fit
  | .tryStatement b hd f _ => by rw [node]; fit
  | .variableDeclaration ds _ _ => by rw [node]; fit
  | .whileStatement a b _ => by rw [node]; fit
  | .withStatement a b _ => by rw [node]; fit
  | .blockStatement l _ => by rw [node]; fit
  | .classDeclaration id sup body _ => by rw [node]; fit
  | .exportAllDeclaration source _ => by rw [node]; fit
  | .exportNamedDeclaration none specifiers none _ => by rw [node]; fit
  | .importDeclaration specifiers source _ => by rw [node]; fit
  | .assignmentRestElement _ _ => by rw [node]; exact .nothing
  | .asyncFunctionExpression _ _ _ _ _ _ _ _ => by rw [node]; exact .nothing
  | .awaitExpression _ _ => by rw [node]; exact .nothing
  | .logicalExpression _ _ _ _ => by rw [node]; exact .nothing
  | .classExpression _ _ _ _ _ => by rw [node]; exact .nothing
  | .arrowParameterPlaceHolder _ _ _ => by rw [node]; exact .nothing
  | .asyncFunctionDeclaration _ _ _ _ _ _ _ => by rw [node]; exact .nothing
  | .directive _ _ _ => by rw [node]; exact .nothing
  | .exportNamedDeclaration none _ (some _) _ => by rw [node]; exact .nothing
  | .importDefaultSpecifier _ _ => by rw [node]; exact .nothing
  | .importNamespaceSpecifier _ _ => by rw [node]; exact .nothing
  | .importSpecifier _ _ _ => by rw [node]; exact .nothing
  | .moduleNode _ _ _ => by rw [node]; exact .nothing
  | .program _ _ _ => by rw [node]; exact .nothing
  | .computedMemberExpression _ o p _ _ => by rw [node]; refine .only fun _ => ?_; fit
  | .functionExpression id ps body _ _ _ _ _ => by rw [node]; refine .only fun _ => ?_; fit
  | .staticMemberExpression _ o p _ _ => by rw [node]; refine .only fun _ => ?_; fit
  | .unaryExpression _ a _ _ _ => by rw [node]; refine .only fun _ => ?_; fit
  | .forInStatement l r' body _ _ => by rw [node]; refine .only fun _ => ?_; fit
  | .functionDeclaration id ps body _ _ _ _ => by rw [node]; refine .only fun _ => ?_; fit
  | .arrowFunctionExpression id ps body _ _ _ _ _ => by
    rw [node]
    cases id with
    | some _ => exact .nothing
    | none => refine .only fun _ => ?_; fit
  | .asyncArrowFunctionExpression id ps body _ _ _ _ _ => by
    rw [node]
    cases id with
    | some _ => exact .nothing
    | none => refine .only fun _ => ?_; fit
  | .bindingIdentifier _ _ => by rw [node]; exact Fits.ident.mono (by size) (by size)
  | .identifier _ _ _ => by rw [node]; exact Fits.ident.mono (by size) (by size)
  | .newExpression c args _ _ => by
    rw [node]
    exact Fits.mono (.cat .keyword (.cat (node_fits c) (.or (l := tallyItems P.lo (listArgumentListElementJson args)) (h := tallyItems P.hi (listArgumentListElementJson args))
      ((Fits.cat .pun (.cat (arguments_fits args) .pun)).mono (by omega) (by omega)) (.ite (fun e => empty_fits args e) fun _ => .nothing)))) (by size) (by size)
  | .sequenceExpression es _ _ => by
    rw [node]
    exact .or (by fit) (.ite (fun _ => .nothing) fun _ => by fit)
  | .updateExpression _ a _ _ _ => by
    rw [node]
    exact .ite (fun _ => by fit) fun _ => by fit
  | .yieldExpression a _ _ _ => by
    rw [node]
    exact Fits.mono (.cat .keyword (.cat (.mark (by intro c; split <;> exact nofun)) (.cat (.pre .pun) (optNode_fits a)))) (by size) (by size)
  | .ifStatement a b c _ => by
    rw [node]
    exact Fits.mono (.cat .keyword (.cat .pun (.cat (node_fits a) (.cat .pun (.cat (node_fits b) (.cat (l := 0) (h := 0) (.ite (fun _ => .keyword) fun _ => .mark nofun) (optNode_fits c))))))) (by size) (by size)
  | .exportDefaultDeclaration d _ => by
    rw [node]
    exact Fits.mono (.cat .keyword (.cat .keyword (.cat (node_fits d) (.or .semi (.ite (fun _ => .eps) fun _ => .nothing))))) (by size) (by size)
  | .exportNamedDeclaration (some d) specifiers source _ => by
    rw [node]
    refine .only fun hb => ?_
    cases specifiers with
    | cons => cases hb
    | nil =>
      cases source with
      | some _ => cases hb
      | none => fit
  | .labeledStatement label body _ => by
    rw [node]
    exact Fits.mono (.cat .ident (.cat .pun (node_fits body))) (by size) (by size)
termination_by structural n => n

theorem forInit_fits : ∀ (x : Option Node), Fits P (forInit x) (tally P.lo (optNodeJson x)) (tally P.hi (optNodeJson x))
  | none => by rw [forInit]; exact Fits.eps.mono (by size) (by size)
  | some n => by rw [forInit]; fit
termination_by structural x => x

theorem forHead_fits : ∀ (n : Node), Fits P (forHead n) (tally P.lo (nodeJson n)) (tally P.hi (nodeJson n))
  | .variableDeclaration ds _ _ => by rw [forHead]; fit
  | .sequenceExpression es _ _ => by rw [forHead]; fit
  | .arrayExpression _ _ _ => .nothing
  | .arrayPattern _ _ _ => .nothing
  | .arrayAssignmentPattern _ _ _ => .nothing
  | .arrowFunctionExpression _ _ _ _ _ _ _ _ => .nothing
  | .assignmentExpression _ _ _ _ _ => .nothing
  | .assignmentPattern _ _ _ => .nothing
  | .assignmentRestElement _ _ => .nothing
  | .asyncArrowFunctionExpression _ _ _ _ _ _ _ _ => .nothing
  | .asyncFunctionExpression _ _ _ _ _ _ _ _ => .nothing
  | .awaitExpression _ _ => .nothing
  | .binaryExpression _ _ _ _ _ => .nothing
  | .bindingIdentifier _ _ => .nothing
  | .logicalExpression _ _ _ _ => .nothing
  | .callExpression _ _ _ _ => .nothing
  | .classExpression _ _ _ _ _ => .nothing
  | .computedMemberExpression _ _ _ _ _ => .nothing
  | .conditionalExpression _ _ _ _ => .nothing
  | .identifier _ _ _ => .nothing
  | .functionExpression _ _ _ _ _ _ _ _ => .nothing
  | .literal _ _ _ _ => .nothing
  | .newExpression _ _ _ _ => .nothing
  | .objectExpression _ _ _ => .nothing
  | .objectPattern _ _ _ => .nothing
  | .regexLiteral _ _ _ _ _ => .nothing
  | .staticMemberExpression _ _ _ _ _ => .nothing
  | .taggedTemplateExpression _ _ _ _ => .nothing
  | .thisExpression _ _ => .nothing
  | .unaryExpression _ _ _ _ _ => .nothing
  | .updateExpression _ _ _ _ _ => .nothing
  | .yieldExpression _ _ _ _ => .nothing
  | .arrowParameterPlaceHolder _ _ _ => .nothing
  | .restElement _ _ => .nothing
  | .spreadElement _ _ => .nothing
  | .super _ _ => .nothing
  | .templateLiteral _ _ _ _ => .nothing
  | .metaProperty _ _ _ _ => .nothing
  | .asyncFunctionDeclaration _ _ _ _ _ _ _ => .nothing
  | .breakStatement _ _ => .nothing
  | .continueStatement _ _ => .nothing
  | .debuggerStatement _ => .nothing
  | .doWhileStatement _ _ _ => .nothing
  | .emptyStatement _ => .nothing
  | .expressionStatement _ _ => .nothing
  | .directive _ _ _ => .nothing
  | .forStatement _ _ _ _ _ => .nothing
  | .forInStatement _ _ _ _ _ => .nothing
  | .forOfStatement _ _ _ _ => .nothing
  | .functionDeclaration _ _ _ _ _ _ _ => .nothing
  | .ifStatement _ _ _ _ => .nothing
  | .returnStatement _ _ => .nothing
  | .switchStatement _ _ _ => .nothing
  | .throwStatement _ _ => .nothing
  | .tryStatement _ _ _ _ => .nothing
  | .whileStatement _ _ _ => .nothing
  | .withStatement _ _ _ => .nothing
  | .blockStatement _ _ => .nothing
  | .classDeclaration _ _ _ _ => .nothing
  | .exportAllDeclaration _ _ => .nothing
  | .exportDefaultDeclaration _ _ => .nothing
  | .exportNamedDeclaration _ _ _ _ => .nothing
  | .importDeclaration _ _ _ => .nothing
  | .importDefaultSpecifier _ _ => .nothing
  | .importNamespaceSpecifier _ _ => .nothing
  | .importSpecifier _ _ _ => .nothing
  | .labeledStatement _ _ _ => .nothing
  | .moduleNode _ _ _ => .nothing
  | .program _ _ _ => .nothing
termination_by structural n => n

theorem optNode_fits : ∀ (x : Option Node), Fits P (Spell.optNode x) (tally P.lo (optNodeJson x)) (tally P.hi (optNodeJson x))
  | none => by rw [Spell.optNode]; exact Fits.eps.mono (by size) (by size)
  | some n => by rw [Spell.optNode]; fit
termination_by structural x => x

theorem nodes_fits : ∀ (x : List Node), Fits P (nodes x) (tallyItems P.lo (listNodeJson x)) (tallyItems P.hi (listNodeJson x))
  | [] => by rw [nodes]; exact Fits.eps.mono (by size) (by size)
  | n :: more => by rw [nodes]; fit
termination_by structural x => x

theorem commaNodes_fits : ∀ (x : List Node), Fits P (commaNodes x) (tallyItems P.lo (listNodeJson x)) (tallyItems P.hi (listNodeJson x))
  | [] => by rw [commaNodes]; exact Fits.eps.mono (by size) (by size)
  | n :: more => by rw [commaNodes]; fit
termination_by structural x => x

theorem template_fits (first : Bool) (qs : List TemplateElement) : ∀ (es : List Node), Fits P (template first qs es)
    (tallyItems P.lo (qs.map templateElementJson) + tallyItems P.lo (listNodeJson es)) (tallyItems P.hi (qs.map templateElementJson) + tallyItems P.hi (listNodeJson es))
  | [] => by
    match qs with
    | [] => exact .nothing
    | [q] => exact Fits.mono (A := quasi first q) .quasi (by simp only [List.map, tallyItems, listNodeJson]; omega) (by simp only [List.map, tallyItems, listNodeJson]; omega)
    | _ :: _ :: _ => exact .nothing
  | e :: es => by
    match qs with
    | [] => exact .nothing
    | q :: qs =>
      exact Fits.mono (A := quasi first q ⬝ node e ⬝ template false qs es)
        (.cat .quasi (.cat (node_fits e) (template_fits false qs es))) (by simp only [List.map, tallyItems, listNodeJson]; omega) (by simp only [List.map, tallyItems, listNodeJson]; omega)
termination_by structural l => l

theorem binding_fits : ∀ (x : Binding), Fits P (binding x) (tally P.lo (bindingJson x)) (tally P.hi (bindingJson x))
  | .bindingIdentifier _ _ => by rw [binding]; exact Fits.ident.mono (by size) (by size)
  | .arrayPattern es _ => by rw [binding]; fit
  | .objectPattern ps _ => by rw [binding]; fit
  | .expression n => by rw [binding]; fit
termination_by structural x => x

theorem arrayElements_fits : ∀ (x : List (Option ArrayExpressionElement)), Fits P (arrayElements x) (tallyItems P.lo (holesArrayExpressionElementJson x)) (tallyItems P.hi (holesArrayExpressionElementJson x))
  | [] => by rw [arrayElements]; exact Fits.eps.mono (by size) (by size)
  | none :: more => by rw [arrayElements]; fit
  | some e :: more => by rw [arrayElements]; fit
termination_by structural x => x

theorem patternElements_fits : ∀ (x : List (Option ArrayPatternElement)), Fits P (patternElements x) (tallyItems P.lo (holesArrayPatternElementJson x)) (tallyItems P.hi (holesArrayPatternElementJson x))
  | [] => by rw [patternElements]; exact Fits.eps.mono (by size) (by size)
  | none :: more => by rw [patternElements]; fit
  | some e :: more => by rw [patternElements]; fit
termination_by structural x => x

theorem targetElements_fits : ∀ (x : List (Option ArrayAssignmentPatternElement)), Fits P (targetElements x) (tallyItems P.lo (holesArrayAssignmentPatternElementJson x)) (tallyItems P.hi (holesArrayAssignmentPatternElementJson x))
  | [] => by rw [targetElements]; exact Fits.eps.mono (by size) (by size)
  | none :: more => by rw [targetElements]; fit
  | some e :: more => by rw [targetElements]; fit
termination_by structural x => x

theorem arrayElement_fits : ∀ (x : ArrayExpressionElement), Fits P (arrayElement x) (tally P.lo (arrayExpressionElementJson x)) (tally P.hi (arrayExpressionElementJson x))
  | .expression n => by rw [arrayElement]; fit
  | .spreadElement n _ => by rw [arrayElement]; fit
termination_by structural x => x

theorem argument_fits : ∀ (x : ArgumentListElement), Fits P (argument x) (tally P.lo (argumentListElementJson x)) (tally P.hi (argumentListElementJson x))
  | .expression n => by rw [argument]; fit
  | .spreadElement n _ => by rw [argument]; fit
termination_by structural x => x

theorem targetElement_fits : ∀ (x : ArrayAssignmentPatternElement), Fits P (targetElement x) (tally P.lo (arrayAssignmentPatternElementJson x)) (tally P.hi (arrayAssignmentPatternElementJson x))
  | .expression n => by rw [targetElement]; fit
  | .restElement b => by rw [targetElement]; fit
termination_by structural x => x

theorem patternElement_fits : ∀ (x : ArrayPatternElement), Fits P (patternElement x) (tally P.lo (arrayPatternElementJson x)) (tally P.hi (arrayPatternElementJson x))
  | .assignmentPattern l r => by rw [patternElement]; fit
  | .bindingIdentifier _ => by rw [patternElement]; exact Fits.binder.mono (by size) (by size)
  | .arrayPattern es => by rw [patternElement]; fit
  | .objectPattern ps => by rw [patternElement]; fit
  | .restElement b => by rw [patternElement]; fit
termination_by structural x => x

theorem parameter_fits : ∀ (x : FunctionParameter), Fits P (parameter x) (tally P.lo (functionParameterJson x)) (tally P.hi (functionParameterJson x))
  | .assignmentPattern l r => by rw [parameter]; fit
  | .bindingIdentifier _ => by rw [parameter]; exact Fits.binder.mono (by size) (by size)
  | .arrayPattern es => by rw [parameter]; fit
  | .objectPattern ps => by rw [parameter]; fit
  | .restElement b => by rw [parameter]; fit
termination_by structural x => x

theorem parameters_fits : ∀ (x : List FunctionParameter), Fits P (parameters x) (tallyItems P.lo (listFunctionParameterJson x)) (tallyItems P.hi (listFunctionParameterJson x))
  | [] => by rw [parameters]; exact Fits.eps.mono (by size) (by size)
  | e :: more => by rw [parameters]; fit
termination_by structural x => x

theorem arguments_fits : ∀ (x : List ArgumentListElement), Fits P (arguments x) (tallyItems P.lo (listArgumentListElementJson x)) (tallyItems P.hi (listArgumentListElementJson x))
  | [] => by rw [arguments]; exact Fits.eps.mono (by size) (by size)
  | e :: more => by rw [arguments]; fit
termination_by structural x => x

theorem patternProperties_fits : ∀ (x : List ObjectPatternProperty), Fits P (patternProperties x) (tallyItems P.lo (listObjectPatternPropertyJson x)) (tallyItems P.hi (listObjectPatternPropertyJson x))
  | [] => by rw [patternProperties]; exact Fits.eps.mono (by size) (by size)
  | e :: more => by rw [patternProperties]; fit
termination_by structural x => x

theorem cases_fits : ∀ (x : List SwitchCase), Fits P (cases x) (tallyItems P.lo (listSwitchCaseJson x)) (tallyItems P.hi (listSwitchCaseJson x))
  | [] => by rw [cases]; exact Fits.eps.mono (by size) (by size)
  | e :: more => by rw [cases]; fit
termination_by structural x => x

theorem members_fits : ∀ (x : List MethodDefinition), Fits P (members x) (tallyItems P.lo (listMethodDefinitionJson x)) (tallyItems P.hi (listMethodDefinitionJson x))
  | [] => by rw [members]; exact Fits.semicolons.mono (by size) (by size)
  | e :: more => by rw [members]; fit
termination_by structural x => x

theorem declarators_fits : ∀ (x : List VariableDeclarator), Fits P (declarators x) (tallyItems P.lo (listVariableDeclaratorJson x)) (tallyItems P.hi (listVariableDeclaratorJson x))
  | [] => by rw [declarators]; exact Fits.eps.mono (by size) (by size)
  | e :: more => by rw [declarators]; fit
termination_by structural x => x

theorem declarator_fits : ∀ (x : VariableDeclarator), Fits P (declarator x) (tally P.lo (variableDeclaratorJson x)) (tally P.hi (variableDeclaratorJson x))
  | .mk b init => by rw [declarator]; fit
termination_by structural x => x

theorem switchCase_fits : ∀ (x : SwitchCase), Fits P (switchCase x) (tally P.lo (switchCaseJson x)) (tally P.hi (switchCaseJson x))
  | .mk test body => by rw [switchCase]; exact Fits.mono (.cat (l := 0) (h := 0) (.ite (fun _ => .keyword) fun _ => .keyword) (.cat (optNode_fits test) (.cat .pun (nodes_fits body)))) (by size) (by size)
termination_by structural x => x

theorem optHandler_fits : ∀ (x : Option CatchClause), Fits P (optHandler x) (tally P.lo (optCatchClauseJson x)) (tally P.hi (optCatchClauseJson x))
  | none => by rw [optHandler]; exact Fits.eps.mono (by size) (by size)
  | some c => by rw [optHandler]; fit
termination_by structural x => x

theorem handler_fits : ∀ (x : CatchClause), Fits P (handler x) (tally P.lo (catchClauseJson x)) (tally P.hi (catchClauseJson x))
  | .mk p body => by rw [handler]; fit
termination_by structural x => x

theorem catchParam_fits : ∀ (x : Option Binding), Fits P (catchParam x) (tally P.lo (optBindingJson x)) (tally P.hi (optBindingJson x))
  | none => by rw [catchParam]; exact Fits.eps.mono (by size) (by size)
  | some b => by rw [catchParam]; fit
termination_by structural x => x

theorem key_fits {computed : Bool} : ∀ (k : PropertyKey), Fits P (key computed k) (tally P.lo (propertyKeyJson k)) (tally P.hi (propertyKeyJson k))
  | .identifier id => by rw [key]; exact (Fits.plain .ident).mono (by size) (by size)
  | .literal l => by rw [key]; exact (Fits.plain .keyWord).mono (by size) (by size)
  | .expression n => by rw [key]; exact (Fits.bracketed (node_fits n)).mono (by size) (by size)
termination_by structural k => k

theorem patternKey_fits {computed : Bool} : ∀ (k : PropertyKey), Fits P (patternKey computed k) (tally P.lo (propertyKeyJson k)) (tally P.hi (propertyKeyJson k))
  | .identifier id => by rw [patternKey]; exact (Fits.plain .patternName).mono (by size) (by size)
  | .literal l => by rw [patternKey]; exact (Fits.plain .patternWord).mono (by size) (by size)
  | .expression n => by rw [patternKey]; exact (Fits.bracketed (node_fits n)).mono (by size) (by size)
termination_by structural k => k

theorem method_fits : ∀ (f : FnExpr), Fits P (method f) (tally P.lo (fnExprJson cs!"FunctionExpression" f)) (tally P.hi (fnExprJson cs!"FunctionExpression" f))
  | .mk id ps body _ _ _ => by
    rw [method]
    cases id with
    | some _ => exact .nothing
    | none => refine .only fun _ => ?_; fit
termination_by structural f => f

theorem asyncMethod_fits : ∀ (f : FnExpr), Fits P (method f) (tally P.lo (fnExprJson cs!"AsyncFunctionExpression" f)) (tally P.hi (fnExprJson cs!"AsyncFunctionExpression" f))
  | .mk id ps body _ _ _ => by
    rw [method]
    cases id with
    | some _ => exact .nothing
    | none => refine .only fun _ => ?_; fit
termination_by structural f => f

theorem optMethod_fits : ∀ (x : Option FnExpr), Fits P (optMethod x) (tally P.lo (optFnExprJson x)) (tally P.hi (optFnExprJson x))
  | none => by rw [optMethod]; exact .nothing
  | some f => by rw [optMethod]; exact (method_fits f).mono (by size) (by size)
termination_by structural x => x

theorem member_fits : ∀ (x : MethodDefinition), Fits P (member x) (tally P.lo (methodDefinitionJson x)) (tally P.hi (methodDefinitionJson x))
  | .mk k _ f _ _ => by rw [member]; fit
termination_by structural x => x

theorem propertyValue_fits : ∀ (x : PropertyValue), Fits P (propertyValue x) (tally P.lo (propertyValueJson x)) (tally P.hi (propertyValueJson x))
  | .assignmentPattern l r => by rw [propertyValue]; fit
  | .asyncFunctionExpression f => by rw [propertyValue]; exact (asyncMethod_fits f).mono (Nat.le_of_eq (by rw [propertyValueJson])) (Nat.le_of_eq (by rw [propertyValueJson]))
  | .bindingIdentifier _ _ => by rw [propertyValue]; exact Fits.ident.mono (by size) (by size)
  | .bindingPattern p => by rw [propertyValue]; fit
  | .functionExpression f => by rw [propertyValue]; exact (method_fits f).mono (Nat.le_of_eq (by rw [propertyValueJson])) (Nat.le_of_eq (by rw [propertyValueJson]))
  | .expression n => by rw [propertyValue]; fit
termination_by structural x => x

theorem bindingPattern_fits : ∀ (x : BindingPattern), Fits P (bindingPattern x) (tally P.lo (bindingPatternJson x)) (tally P.hi (bindingPatternJson x))
  | .arrayPattern es => by rw [bindingPattern]; fit
  | .objectPattern ps => by rw [bindingPattern]; fit
termination_by structural x => x

theorem optValue_fits : ∀ (x : Option PropertyValue), Fits P (optValue x) (tally P.lo (optPropertyValueJson x)) (tally P.hi (optPropertyValueJson x))
  | none => by rw [optValue]; exact Fits.eps.mono (by size) (by size)
  | some v => by rw [optValue]; fit
termination_by structural x => x

theorem shorthand_fits {computed : Bool} {k : PropertyKey} : ∀ (v : Option PropertyValue),
    Fits P (patternKey computed k ⬝ pun .assign ⬝ shorthandDefault k v)
      (tally P.lo (propertyKeyJson k) + tally P.lo (optPropertyValueJson v)) (tally P.hi (propertyKeyJson k) + tally P.hi (optPropertyValueJson v))
  | some (.assignmentPattern (.bindingIdentifier v _) right) => by
    cases k with
    | identifier id =>
      refine Fits.mono (.cat (B := pun .assign ⬝ (if v = id.name then node right else Lang.nothing)) (l := P.lo (ident id.name) + P.lo (ident id.name)) (h := P.hi (ident id.name))
        (by rw [patternKey]; exact .plain .patternName)
        (.cat .pun (.ite (l := tally P.lo (nodeJson right) + P.lo (ident v) - P.lo (ident id.name)) (h := tally P.hi (nodeJson right)) (fun e => ?_) fun _ => .nothing))) ?_ (by size)
      · subst e; exact (node_fits right).mono (by omega) (Nat.le_refl _)
      · size
    | literal _ => fit0
    | expression _ => fit0
  | none => by fit0
  | some (.assignmentPattern (.arrayPattern _ _) _) => by fit0
  | some (.assignmentPattern (.objectPattern _ _) _) => by fit0
  | some (.assignmentPattern (.expression _) _) => by fit0
  | some (.asyncFunctionExpression _) => by fit0
  | some (.bindingIdentifier _ _) => by fit0
  | some (.bindingPattern _) => by fit0
  | some (.functionExpression _) => by fit0
  | some (.expression _) => by fit0
termination_by structural v => v

theorem patternProperty_fits : ∀ (p : ObjectPatternProperty), Fits P (patternProperty p) (tally P.lo (objectPatternPropertyJson p)) (tally P.hi (objectPatternPropertyJson p))
  | .property k computed v kind isMethod shorthand => by
    rw [patternProperty]
    exact .or (Fits.mono (.cat .propertyPrefix (.cat (patternKey_fits k) (.cat .propertyMark (optValue_fits v)))) (by size) (by size))
      (.ite (fun _ => (shorthand_fits v).mono (by size) (by size)) fun _ => .nothing)
  | .restElement b => by rw [patternProperty]; fit
termination_by structural p => p

theorem property_fits : ∀ (p : ObjectExpressionProperty), Fits P (property p) (tally P.lo (objectExpressionPropertyJson p)) (tally P.hi (objectExpressionPropertyJson p))
  | .property k computed v kind isMethod shorthand sp => by
    rw [property]
    exact Fits.mono (.cat .propertyPrefix (.cat (key_fits k) (.cat .propertyMark (optValue_fits v)))) (by size) (by size)
  | .spreadElement n _ => by rw [property]; fit
termination_by structural p => p

theorem properties_fits : ∀ (l : List ObjectExpressionProperty), Fits P (properties l) (tallyItems P.lo (listObjectExpressionPropertyJson l)) (tallyItems P.hi (listObjectExpressionPropertyJson l))
  | [] => by rw [properties]; exact Fits.eps.mono (by size) (by size)
  | e :: more => by
    rw [properties]
    exact Fits.mono (.cat (property_fits e) (.cat (l := 0) (h := 0) (.ite (fun _ => .eps) fun _ => .commaAfter) (properties_fits more))) (by size) (by size)
termination_by structural l => l

end

end Giron.Atoms

import Verif.Spec.Prints
/-
The JSON of a tree has all the words of the tree.
-/
namespace Giron
open Spec Lang

/-- the members of an object -/
macro "has" : tactic => `(tactic| (refine ⟨rfl, ?_⟩; repeat (first | exact trivial | refine ⟨rfl, ?_⟩)))

theorem nodeJson_obj (n : Node) : isNull (nodeJson n) = false := by cases n <;> rfl

theorem bindingJson_obj (b : Binding) : isNull (bindingJson b) = false := by
  cases b with
  | expression n => rw [bindingJson]; exact nodeJson_obj n
  | _ => rfl

theorem isNull_opt (n : Option Node) : isNull (optNodeJson n) = n.isNone := by
  cases n with
  | none => rfl
  | some n => rw [optNodeJson]; exact nodeJson_obj n

theorem isDeclaration_json (n : Node) : isDeclaration (nodeJson n) = Spell.isDeclaration n := by cases n <;> rfl

theorem plainKind_json {computed : Bool} (n : Node) : plainKind computed (nodeJson n) = Spell.plainKind computed n := by
  cases n <;> rfl

theorem not_isNull_opt (n : Option Node) : (!isNull (optNodeJson n)) = n.isSome := by
  rw [isNull_opt]; cases n <;> rfl

theorem Named.mk {i : Identifier} : Named (identifierJson i) i.name := by unfold Named identifierJson; has

namespace Prints
variable [Env]

theorem commas_eq {α β : Type} {l : List α} {l' : List β} (h : l'.isEmpty = l.isEmpty) : Spell.commaAfter l = Spell.commaAfter l' := by
  unfold Spell.commaAfter; rw [h]

theorem comma_eq {α β : Type} {l : List α} {l' : List β} (h : l'.isEmpty = l.isEmpty) : Spell.commaBetween l = Spell.commaBetween l' := by
  unfold Spell.commaBetween; rw [h]

theorem importNames_prints : ∀ (l : List ImportDeclarationSpecifier) (ws : List Mark), Spell.importNames l ws →
    importNames (l.map importSpecifierJson) ws
  | [], _, h => h
  | .importDefaultSpecifier _ :: _, _, h => h.elim
  | .importNamespaceSpecifier _ :: _, _, h => h.elim
  | .importSpecifier loc imported :: more, ws, h => by
    rw [Spell.importNames] at h
    obtain ⟨a, b, rfl, h1, c, d, rfl, h2, h3⟩ := h
    rw [List.map_cons, importNames]
    refine ⟨a, _, rfl, ⟨_, _, loc.name, imported.name, by rw [importSpecifierJson]; has, Named.mk, Named.mk, ?_⟩, c, d, rfl, ?_, importNames_prints more d h3⟩
    · rcases h1 with h1 | h1
      · exact .inl h1
      · split at h1
        · next e => exact .inr ⟨by rw [e], h1⟩
        · exact h1.elim
    · rw [← commas_eq (l := more) (by cases more <;> rfl)]; exact h2

theorem importList_prints (l : List ImportDeclarationSpecifier) (ws : List Mark) (h : Spell.importList l ws) :
    importList (l.map importSpecifierJson) ws := by
  unfold Spell.importList at h
  split at h
  · next loc => exact .inr ⟨_, _, loc.name, rfl, by rw [importSpecifierJson]; has, Named.mk, h⟩
  · obtain ⟨a, b, rfl, h1, c, d, rfl, h2, h3⟩ := h
    exact .inl ⟨a, _, rfl, h1, c, d, rfl, importNames_prints _ _ h2, h3⟩

theorem importClause_prints (l : List ImportDeclarationSpecifier) (ws : List Mark) (h : Spell.importClause l ws) :
    importClause (l.map importSpecifierJson) ws := by
  rcases h with h | h
  · exact .inl (importList_prints _ _ h)
  · split at h
    · next loc imported more =>
      split at h
      · next e =>
        subst e
        obtain ⟨a, b, rfl, h1, h2⟩ := h
        refine .inr ⟨_, _, _, loc.name, rfl, by rw [importSpecifierJson]; has, Named.mk, a, b, rfl, h1, ?_⟩
        rcases h2 with ⟨c, d, rfl, h3, h4⟩ | h2
        · exact .inl ⟨c, d, rfl, h3, importList_prints _ _ h4⟩
        · refine .inr ?_
          cases more with
          | nil => exact h2
          | cons => exact h2.elim
      · exact h.elim
    · exact h.elim

theorem exportNames_prints : ∀ (l : List ExportSpecifier) (ws : List Mark), Spell.exportNames l ws →
    exportNames (l.map exportSpecifierJson) ws
  | [], _, h => h
  | ⟨exported, loc⟩ :: more, ws, h => by
    rw [Spell.exportNames] at h
    obtain ⟨a, b, rfl, h1, c, d, rfl, h2, h3⟩ := h
    rw [List.map_cons, exportNames]
    refine ⟨a, _, rfl, ⟨_, _, exported.name, loc.name, by rw [exportSpecifierJson]; has, Named.mk, Named.mk, ?_⟩, c, d, rfl, ?_, exportNames_prints more d h3⟩
    · rcases h1 with h1 | h1
      · exact .inl h1
      · split at h1
        · next e => exact .inr ⟨by rw [e], h1⟩
        · exact h1.elim
    · rw [← commas_eq (l := more) (by cases more <;> rfl)]; exact h2

theorem string_prints (l : Literal) (ws : List Mark) (h : Spell.stringWord l ws) : stringLiteral (literalJson l) ws := by
  obtain ⟨c, rfl, v, o, rfl, h1, h2⟩ := h
  refine ⟨_, rfl, v, o, rfl, ?_⟩
  unfold literalJson
  rw [h1, h2]
  has

theorem value_json {c : Content} {v : Value} (h : c.value? = some v) : wordJson c = some (valueJson v) := by
  cases c with
  | name s =>
    cases h
    show (if s = cs!"null" then some Json.null else some (.str s)) = some (valueJson (nameToken s).2)
    unfold nameToken
    by_cases h1 : s = cs!"null"
    · rw [if_pos h1, if_pos h1]; rfl
    · rw [if_neg h1, if_neg h1]
      split
      · rfl
      · split <;> rfl
  | number n => cases h; rfl
  | string s o => cases h; rfl
  | _ => cases h

theorem value_shown {c : Content} {v : Value} (h : c.value? = some v) : v.toString = shown c := by
  cases c with
  | name s =>
    cases h
    unfold nameToken
    by_cases h1 : s = cs!"null"
    · rw [if_pos h1, h1]; rfl
    · rw [if_neg h1]
      split
      · rfl
      · split <;> rfl
  | number n => cases h; rfl
  | string s o => cases h; rfl
  | _ => cases h

theorem quasi_eq (first : Bool) (q : TemplateElement) : templateElement first (templateElementJson q) = Spell.quasi first q := by
  funext ws
  refine propext ⟨?_, ?_⟩
  · rintro ⟨c, rfl, v, raw, cooked, tail, head, h1, h2, h3, h4⟩
    obtain ⟨-, hv, ht, -⟩ := h1
    cases hv; cases ht
    obtain ⟨hc, hr, -⟩ := h2
    cases hc; cases hr
    exact ⟨_, rfl, head, h3, h4⟩
  · rintro ⟨c, rfl, head, h3, h4⟩
    refine ⟨_, rfl, tagged cs!"TemplateElementValue" [(cs!"cooked", .str q.cooked), (cs!"raw", .str q.raw)], q.raw, q.cooked, q.tail, head, ?_, ?_, h3, h4⟩
    · unfold templateElementJson; has
    · has

theorem isEmpty_args (l : List ArgumentListElement) : (listArgumentListElementJson l).isEmpty = l.isEmpty := by
  cases l <;> rfl
theorem isEmpty_params (l : List FunctionParameter) : (listFunctionParameterJson l).isEmpty = l.isEmpty := by cases l <;> rfl
theorem isEmpty_nodes (l : List Node) : (listNodeJson l).isEmpty = l.isEmpty := by cases l <;> rfl
theorem length_nodes (l : List Node) : (listNodeJson l).length = l.length := by
  induction l with
  | nil => rfl
  | cons n l ih => rw [listNodeJson, List.length_cons, List.length_cons, ih]
theorem isEmpty_declarators (l : List VariableDeclarator) : (listVariableDeclaratorJson l).isEmpty = l.isEmpty := by
  cases l <;> rfl
theorem isEmpty_properties (l : List ObjectExpressionProperty) : (listObjectExpressionPropertyJson l).isEmpty = l.isEmpty := by
  cases l <;> rfl
theorem isEmpty_patternProperties (l : List ObjectPatternProperty) : (listObjectPatternPropertyJson l).isEmpty = l.isEmpty := by
  cases l <;> rfl
theorem isEmpty_array (l : List (Option ArrayExpressionElement)) : (holesArrayExpressionElementJson l).isEmpty = l.isEmpty := by
  cases l <;> rfl
theorem isEmpty_pattern (l : List (Option ArrayPatternElement)) : (holesArrayPatternElementJson l).isEmpty = l.isEmpty := by
  cases l <;> rfl
theorem isEmpty_target (l : List (Option ArrayAssignmentPatternElement)) :
    (holesArrayAssignmentPatternElementJson l).isEmpty = l.isEmpty := by cases l <;> rfl

/-- parameters of an arrow function -/
theorem arrow_le {ps : List FunctionParameter} {P : Lang} (ws : List Mark) (h : Spell.arrowParams ps P ws) :
    arrowParams (listFunctionParameterJson ps) P ws := by
  rcases h with h | h
  · exact .inl h
  · split at h
    · exact .inr ⟨_, _, rfl, by has, h⟩
    · exact h.elim

theorem cat_le {A A' B : Lang} (h : ∀ ws, A ws → A' ws) (ws : List Mark) : (A ⬝ B) ws → (A' ⬝ B) ws := by
  rintro ⟨a, b, e, ha, hb⟩; exact ⟨a, b, e, h a ha, hb⟩

theorem cat_le' {A B B' : Lang} (h : ∀ ws, B ws → B' ws) (ws : List Mark) : (A ⬝ B) ws → (A ⬝ B') ws := by
  rintro ⟨a, b, e, ha, hb⟩; exact ⟨a, b, e, ha, h b hb⟩

theorem no_cat {A : Lang} (ws : List Mark) : ¬ (A ⬝ Lang.nothing) ws := by rintro ⟨a, b, e, ha, hb⟩; exact hb

theorem no_cat' {A B : Lang} (h : ∀ ws, ¬ B ws) (ws : List Mark) : ¬ (A ⬝ B) ws := by
  rintro ⟨a, b, e, ha, hb⟩; exact h b hb

theorem no_cat1 {B : Lang} (ws : List Mark) : ¬ (Lang.nothing ⬝ B) ws := by rintro ⟨a, b, e, ha, hb⟩; exact ha

theorem eps_cat {A : Lang} (ws : List Mark) : (eps ⬝ A) ws → A ws := by
  rintro ⟨a, b, rfl, rfl, hb⟩; exact hb

theorem never {s : Slot} {j : Json} {A : Lang} (h : ∀ ws, ¬ A ws) : Prints s j A :=
  .less .nothing fun ws hw => (h ws hw).elim

/-- the parts of a method -/
def FnParts (f : FnExpr) : Prop := (∃ ps b gen async P B,
  (∀ tag, Has (fnExprJson tag f) tag [(cs!"id", .null), (cs!"params", .arr ps), (cs!"body", b), (cs!"generator", .bool gen),
      (cs!"expression", .bool false), (cs!"async", .bool async)]) ∧
    PrintsAll .node .commas ps P ∧ Prints .node b B ∧ Spell.modifiers f = Lang.pre async (word cs!"async") ⬝ Lang.pre gen (pun .star) ∧
    Spell.method f = pun .lParen ⬝ P ⬝ pun .rParen ⬝ B) ∨ Spell.method f = Lang.nothing

/-- a value of a property -/
def ValueParts (v : PropertyValue) : Prop :=
  (∃ f, (v = .functionExpression f ∨ v = .asyncFunctionExpression f) ∧ FnParts f) ∨
    (∀ f, v ≠ .functionExpression f ∧ v ≠ .asyncFunctionExpression f) ∧ Prints .node (propertyValueJson v) (Spell.propertyValue v)

theorem noValue_prints {pattern computed isMethod shorthand : Bool} {kind : Str} {j k : Json} {K : Lang}
    (hk : Prints (.key pattern computed) k K)
    (hj : Has j cs!"Property" [(cs!"key", k), (cs!"computed", .bool computed), (cs!"value", .null), (cs!"kind", .str kind),
      (cs!"method", .bool isMethod), (cs!"shorthand", .bool shorthand)]) :
    Prints (.property pattern) j (Spell.propertyPrefix kind none ⬝ K ⬝ Spell.propertyMark none isMethod shorthand ⬝ eps) := by
  unfold Spell.propertyMark
  cases shorthand
  · exact never (no_cat' (no_cat' no_cat1))
  cases isMethod
  · refine .less (.nameProperty hj hk) ?_
    rintro _ ⟨a, _, rfl, ha, b, _, rfl, hb, c, d, rfl, rfl, rfl⟩
    refine ⟨a, _, rfl, ?_, by simpa using hb⟩
    unfold Spell.propertyPrefix at ha
    cases h : Spell.accessor kind with
    | none => rw [h] at ha; exact ha
    | some w => rw [h] at ha; exact ha
  · exact never (no_cat' (no_cat' no_cat1))

theorem someValue_prints {pattern computed isMethod shorthand : Bool} {kind : Str} {j k : Json} {K : Lang} {v : PropertyValue}
    (hk : Prints (.key pattern computed) k K)
    (hj : Has j cs!"Property" [(cs!"key", k), (cs!"computed", .bool computed), (cs!"value", propertyValueJson v), (cs!"kind", .str kind),
      (cs!"method", .bool isMethod), (cs!"shorthand", .bool shorthand)]) (hv : ValueParts v) :
    Prints (.property pattern) j
      (Spell.propertyPrefix kind (some v) ⬝ K ⬝ Spell.propertyMark (some v) isMethod shorthand ⬝ Spell.propertyValue v) := by
  rcases hv with ⟨f, hf, ⟨ps, b, gen, async, P, B, h1, h2, h3, h4, h5⟩ | h5⟩ | ⟨hn, hv⟩
  · have hm : Spell.propertyMark (some v) isMethod shorthand = if isMethod && !shorthand then eps else nothing := by
      rcases hf with rfl | rfl <;> rfl
    have hp : Spell.propertyPrefix kind (some v) =
        (Spell.accessor kind).getD (only (kind == cs!"init") <| Lang.pre async (word cs!"async") ⬝ Lang.pre gen (pun .star)) := by
      rw [← h4]
      unfold Spell.propertyPrefix
      rcases hf with rfl | rfl <;> cases Spell.accessor kind <;> rfl
    have he : Spell.propertyValue v = pun .lParen ⬝ P ⬝ pun .rParen ⬝ B := by
      rw [← h5]; rcases hf with rfl | rfl <;> rw [Spell.propertyValue]
    rw [hm, hp, he]
    cases isMethod
    · exact never (no_cat' (no_cat' no_cat1))
    cases shorthand
    · have ht : ∃ type, type ∈ [cs!"FunctionExpression", cs!"AsyncFunctionExpression"] ∧
          Has (propertyValueJson v) type [(cs!"id", .null), (cs!"params", .arr ps), (cs!"body", b), (cs!"generator", .bool gen),
            (cs!"expression", .bool false), (cs!"async", .bool async)] := by
        rcases hf with rfl | rfl
        · exact ⟨_, List.mem_cons_self, by rw [propertyValueJson]; exact h1 _⟩
        · exact ⟨_, List.mem_cons_of_mem _ List.mem_cons_self, by rw [propertyValueJson]; exact h1 _⟩
      obtain ⟨type, ht, hh⟩ := ht
      exact .less (.methodProperty hj ht hh hk h2 h3) (cat_le' (cat_le' eps_cat))
    · exact never (no_cat' (no_cat' no_cat1))
  · have he : Spell.propertyValue v = Lang.nothing := by
      rw [← h5]; rcases hf with rfl | rfl <;> rw [Spell.propertyValue]
    rw [he]
    exact never (no_cat' (no_cat' no_cat))
  · have hm : Spell.propertyMark (some v) isMethod shorthand =
        if isMethod then nothing else pun (if shorthand then .assign else .colon) := by
      cases v with
      | functionExpression f => exact absurd rfl (hn f).1
      | asyncFunctionExpression f => exact absurd rfl (hn f).2
      | _ => cases isMethod <;> cases shorthand <;> rfl
    have hp : Spell.propertyPrefix kind (some v) = (Spell.accessor kind).getD (only (kind == cs!"init") <| opt (word cs!"async")) := by
      unfold Spell.propertyPrefix
      cases v with
      | functionExpression f => exact absurd rfl (hn f).1
      | asyncFunctionExpression f => exact absurd rfl (hn f).2
      | _ => cases Spell.accessor kind <;> rfl
    rw [hm, hp]
    cases isMethod
    · exact .valueProperty hj hk hv
    · exact never (no_cat' (no_cat' no_cat1))

/-- whether a comma follows -/
theorem generator_eq : ∀ p : ObjectExpressionProperty,
    isGenerator (objectExpressionPropertyJson p) = Spell.isGenerator p ∨ ∀ ws, ¬ Spell.property p ws
  | .spreadElement argument _ => .inl rfl
  | .property k computed none kind isMethod shorthand _ => .inl (by cases isMethod <;> rfl)
  | .property k computed (some v) kind isMethod shorthand _ => by
    cases isMethod with
    | false =>
      cases v with
      | functionExpression f =>
        refine .inr ?_
        rw [Spell.property]
        exact no_cat' (no_cat' no_cat1)
      | _ => exact .inl rfl
    | true =>
      cases v with
      | functionExpression f => cases f with | mk id params body generator expression async => exact .inl (by cases generator <;> rfl)
      | asyncFunctionExpression f => cases f with | mk id params body generator expression async => exact .inl rfl
      | _ =>
        refine .inr ?_
        rw [Spell.property]
        exact no_cat' (no_cat' no_cat1)

mutual

theorem node_prints : ∀ n : Node, Prints .node (nodeJson n) (Spell.node n)
  | .arrayExpression elements _ _ => by rw [nodeJson, Spell.node]; exact .array (by has) (array_prints elements)
  | .arrayPattern elements _ _ => by rw [nodeJson, Spell.node]; exact .arrayPattern (by has) (pattern_prints elements)
  | .arrayAssignmentPattern elements _ _ => by rw [nodeJson, Spell.node]; exact .arrayPattern (by has) (target_prints elements)
  | .arrowFunctionExpression id params body generator _ async _ _ => by
    rw [nodeJson, Spell.node]
    cases id with | some _ => exact .nothing | none =>
    rw [optNodeJson]
    cases generator <;> cases async <;> first | exact .nothing | skip
    exact .less (.arrow (by has) (params_prints params) (node_prints body)) (cat_le arrow_le)
  | .assignmentExpression op left right _ _ => by
    rw [nodeJson, Spell.node]; exact .assignment (by has) (node_prints left) (node_prints right)
  | .assignmentPattern left right _ => by
    rw [nodeJson, Spell.node]; exact .assignmentPattern (by has) (binding_prints left) (node_prints right)
  | .assignmentRestElement _ _ => by rw [Spell.node]; exact .nothing
  | .asyncArrowFunctionExpression id params body generator _ async _ _ => by
    rw [nodeJson, Spell.node]
    cases id with | some _ => exact .nothing | none =>
    rw [optNodeJson]
    cases generator <;> cases async <;> first | exact .nothing | skip
    exact .less (.asyncArrow (by has) (params_prints params) (node_prints body)) (cat_le' (cat_le (cat_le' arrow_le)))
  | .asyncFunctionExpression _ _ _ _ _ _ _ _ => by rw [Spell.node]; exact .nothing
  | .awaitExpression _ _ => by rw [Spell.node]; exact .nothing
  | .binaryExpression op left right _ _ => by
    rw [nodeJson, Spell.node]; exact .binary (by has) (node_prints left) (node_prints right)
  | .bindingIdentifier name _ => by rw [nodeJson, Spell.node]; exact .identifier (by unfold Named; has)
  | .logicalExpression _ _ _ _ => by rw [Spell.node]; exact .nothing
  | .callExpression callee args _ _ => by
    rw [nodeJson, Spell.node]; exact .call (by has) (node_prints callee) (args_prints args)
  | .classExpression _ _ _ _ _ => by rw [Spell.node]; exact .nothing
  | .computedMemberExpression computed object property _ _ => by
    rw [nodeJson, Spell.node]; cases computed; exact .nothing; exact .index (by has) (node_prints object) (node_prints property)
  | .conditionalExpression test consequent alternate _ => by
    rw [nodeJson, Spell.node]; exact .conditional (by has) (node_prints test) (node_prints consequent) (node_prints alternate)
  | .identifier name _ _ => by rw [nodeJson, Spell.node]; exact .identifier (by unfold Named; has)
  | .functionExpression id params body generator expression async _ _ => by
    rw [nodeJson, Spell.node]; cases expression; rotate_left; exact .nothing; exact .function (by has) (opt_prints id) (params_prints params) (node_prints body)
  | .literal value raw _ _ => by
    rw [nodeJson, Spell.node]
    refine .less (.literal (by has)) ?_
    rintro _ ⟨c, rfl, h1, h2, h3⟩
    exact ⟨c, rfl, value_json h1, h2.trans (value_shown h1), h3⟩
  | .newExpression callee args _ _ => by
    rw [nodeJson, Spell.node, ← isEmpty_args]; exact .new (by has) (node_prints callee) (args_prints args)
  | .objectExpression ps _ _ => by rw [nodeJson, Spell.node]; exact .object (by has) (properties_prints ps)
  | .objectPattern ps _ _ => by rw [nodeJson, Spell.node]; exact .objectPattern (by has) (patternProperties_prints ps)
  | .regexLiteral _ _ regex _ _ => by
    rw [nodeJson, Spell.node]
    exact .regex (x := regexJson regex) (by has) (by unfold regexJson; exact ⟨rfl, rfl, trivial⟩)
  | .sequenceExpression es _ _ => by
    rw [nodeJson, Spell.node, ← length_nodes]; exact .sequence (by has) (commaNodes_prints es)
  | .staticMemberExpression computed object property _ _ => by
    rw [nodeJson, Spell.node]; cases computed; rotate_left; exact .nothing; exact .dot (by has) (node_prints object) (node_prints property)
  | .taggedTemplateExpression tag qs es _ => by
    rw [nodeJson, Spell.node]
    exact .taggedTemplate (by has) (by has) (node_prints tag) (template_prints true qs es)
  | .thisExpression _ _ => by rw [nodeJson, Spell.node]; exact .this (by has)
  | .unaryExpression op argument isPrefix _ _ => by rw [nodeJson, Spell.node]; cases isPrefix; exact .nothing; exact .unary (by has) (node_prints argument)
  | .updateExpression op argument isPrefix _ _ => by
    rw [nodeJson, Spell.node]; exact .update (by has) (node_prints argument)
  | .yieldExpression argument delegate _ _ => by
    have e : (if argument.isSome then Mark.joined else .broken) = (if isNull (optNodeJson argument) then .broken else .joined) := by
      rw [isNull_opt]; cases argument <;> rfl
    rw [nodeJson, Spell.node, e]; exact .yield (by has) (opt_prints argument)
  | .arrowParameterPlaceHolder _ _ _ => by rw [Spell.node]; exact .nothing
  | .restElement argument _ => by rw [nodeJson, Spell.node]; exact .rest (by has) (binding_prints argument)
  | .spreadElement argument _ => by rw [nodeJson, Spell.node]; exact .spread (by has) (node_prints argument)
  | .super _ _ => by rw [nodeJson, Spell.node]; exact .super (by has)
  | .templateLiteral qs es _ _ => by rw [nodeJson, Spell.node]; exact .template (by has) (template_prints true qs es)
  | .metaProperty metaId property _ _ => by
    rw [nodeJson, Spell.node]; exact .metaProperty (by has) (node_prints metaId) (node_prints property)
  | .asyncFunctionDeclaration _ _ _ _ _ _ _ => by rw [Spell.node]; exact .nothing
  | .breakStatement label _ => by rw [nodeJson, Spell.node, ← not_isNull_opt]; exact .break (by has) (opt_prints label)
  | .continueStatement label _ => by rw [nodeJson, Spell.node, ← not_isNull_opt]; exact .continue (by has) (opt_prints label)
  | .debuggerStatement _ => by rw [nodeJson, Spell.node]; exact .debugger (by has)
  | .doWhileStatement body test _ => by
    rw [nodeJson, Spell.node]; exact .doWhile (by has) (node_prints body) (node_prints test)
  | .emptyStatement _ => by rw [nodeJson, Spell.node]; exact .empty (by has)
  | .expressionStatement expression _ => by rw [nodeJson, Spell.node]; exact .expression (by has) (node_prints expression)
  | .directive _ _ _ => by rw [Spell.node]; exact .nothing
  | .forStatement init test update body _ => by
    rw [nodeJson, Spell.node]
    exact .for (by has) (forInit_prints init) (opt_prints test) (opt_prints update) (node_prints body)
  | .forInStatement left right body each _ => by
    rw [nodeJson, Spell.node]; cases each; rotate_left; exact .nothing; exact .forIn (by has) (node_prints left) (node_prints right) (node_prints body)
  | .forOfStatement left right body _ => by
    rw [nodeJson, Spell.node]; exact .forOf (by has) (node_prints left) (node_prints right) (node_prints body)
  | .functionDeclaration id params body generator expression async _ => by
    rw [nodeJson, Spell.node]; cases expression; rotate_left; exact .nothing; exact .functionDeclaration (by has) (opt_prints id) (params_prints params) (node_prints body)
  | .ifStatement test consequent alternate _ => by
    have e : (if alternate.isSome then word cs!"else" else mark .noElse) =
        (if isNull (optNodeJson alternate) then mark .noElse else word cs!"else") := by rw [isNull_opt]; cases alternate <;> rfl
    rw [nodeJson, Spell.node, e]
    exact .if (by has) (node_prints test) (node_prints consequent) (opt_prints alternate)
  | .returnStatement argument _ => by rw [nodeJson, Spell.node, ← not_isNull_opt]; exact .return (by has) (opt_prints argument)
  | .switchStatement discriminant cs _ => by
    rw [nodeJson, Spell.node]; exact .switch (by has) (node_prints discriminant) (cases_prints cs)
  | .throwStatement argument _ => by rw [nodeJson, Spell.node]; exact .throw (by has) (node_prints argument)
  | .tryStatement block handler finalizer _ => by
    rw [nodeJson, Spell.node, ← not_isNull_opt]
    exact .try (by has) (node_prints block) (optHandler_prints handler) (opt_prints finalizer)
  | .variableDeclaration ds kind _ => by rw [nodeJson, Spell.node]; exact .variables (by has) (declarators_prints ds)
  | .whileStatement test body _ => by rw [nodeJson, Spell.node]; exact .while (by has) (node_prints test) (node_prints body)
  | .withStatement object body _ => by rw [nodeJson, Spell.node]; exact .with (by has) (node_prints object) (node_prints body)
  | .blockStatement body _ => by rw [nodeJson, Spell.node]; exact .block (by has) (nodes_prints body)
  | .classDeclaration id superClass body _ => by
    rw [nodeJson, Spell.node, ← not_isNull_opt]
    exact .class (by has) (by has) (opt_prints id) (opt_prints superClass) (members_prints body)
  | .exportAllDeclaration source _ => by
    rw [nodeJson, Spell.node]
    exact .less (.exportAll (by has)) (cat_le' (cat_le' (cat_le' (cat_le (string_prints source)))))
  | .exportDefaultDeclaration declaration _ => by
    rw [nodeJson, Spell.node, ← isDeclaration_json]; exact .exportDefault (by has) (node_prints declaration)
  | .exportNamedDeclaration (some declaration) specifiers source _ => by
    unfold nodeJson
    rw [Spell.node, optNodeJson]
    cases specifiers with | cons _ _ => exact .nothing | nil =>
    cases source with | some _ => exact .nothing | none =>
    exact .exportNamed (by has) (node_prints declaration)
  | .exportNamedDeclaration none specifiers none _ => by
    rw [nodeJson, Spell.node, optNodeJson]
    exact .less (.exportNames (by has)) (cat_le' (cat_le' (cat_le (exportNames_prints specifiers))))
  | .exportNamedDeclaration none _ (some _) _ => by rw [Spell.node]; exact .nothing
  | .importDeclaration specifiers source _ => by
    rw [nodeJson, Spell.node]
    exact .less (.importDeclaration (by has)) fun ws h =>
      cat_le' (cat_le (importClause_prints specifiers)) ws (cat_le' (cat_le' (cat_le' (cat_le (string_prints source)))) ws h)
  | .importDefaultSpecifier _ _ => by rw [Spell.node]; exact .nothing
  | .importNamespaceSpecifier _ _ => by rw [Spell.node]; exact .nothing
  | .importSpecifier _ _ _ => by rw [Spell.node]; exact .nothing
  | .labeledStatement label body _ => by
    rw [nodeJson, Spell.node]; exact .labelled (by has) Named.mk (node_prints body)
  | .moduleNode _ _ _ => by rw [Spell.node]; exact .nothing
  | .program _ _ _ => by rw [Spell.node]; exact .nothing
termination_by structural n => n

theorem forHead_prints (n : Node) : Prints .forHead (nodeJson n) (Spell.forHead n) := by
  cases n with
  | variableDeclaration ds kind _ => rw [nodeJson, Spell.forHead]; exact .forVar (by has) (declarators_prints ds)
  | sequenceExpression es _ _ => rw [nodeJson, Spell.forHead]; exact .forSequence (by has) (commaNodes_prints es)
  | _ => exact .nothing
termination_by structural n

theorem forInit_prints : ∀ n : Option Node, Prints .forHead (optNodeJson n) (Spell.forInit n)
  | none => by rw [optNodeJson, Spell.forInit]; exact .forNone
  | some n => by rw [optNodeJson, Spell.forInit]; exact forHead_prints n
termination_by structural n => n

theorem opt_prints : ∀ n : Option Node, PrintsOpt (optNodeJson n) (Spell.optNode n)
  | none => by rw [optNodeJson, Spell.optNode]; exact .absent
  | some n => by rw [optNodeJson, Spell.optNode]; exact .present (node_prints n)
termination_by structural n => n

theorem nodes_prints : ∀ l : List Node, PrintsAll .node .none (listNodeJson l) (Spell.nodes l)
  | [] => by rw [listNodeJson, Spell.nodes]; exact .nil nofun
  | n :: more => by rw [listNodeJson, Spell.nodes]; exact .cons (node_prints n) (nodes_prints more)
termination_by structural l => l

theorem commaNodes_prints : ∀ l : List Node, PrintsAll .node .comma (listNodeJson l) (Spell.commaNodes l)
  | [] => by rw [listNodeJson, Spell.commaNodes]; exact .nil nofun
  | n :: more => by
    rw [listNodeJson, Spell.commaNodes, comma_eq (isEmpty_nodes more)]
    exact .consComma (node_prints n) (commaNodes_prints more)
termination_by structural l => l

theorem template_prints (first : Bool) (qs : List TemplateElement) (es : List Node) :
    PrintsTemplate first (qs.map templateElementJson) (listNodeJson es) (Spell.template first qs es) := by
  cases es with
  | nil =>
    cases qs with
    | nil => exact .none
    | cons q qs =>
      cases qs with
      | nil => rw [listNodeJson, Spell.template, ← quasi_eq]; exact .last
      | cons _ _ => exact .none
  | cons e es =>
    cases qs with
    | nil => exact .none
    | cons q qs =>
      rw [listNodeJson, Spell.template, ← quasi_eq, List.map_cons]; exact .more (node_prints e) (template_prints false qs es)
termination_by structural es

theorem binding_prints : ∀ b : Binding, Prints .node (bindingJson b) (Spell.binding b)
  | .bindingIdentifier name _ => by rw [bindingJson, Spell.binding]; exact .identifier (by unfold Named; has)
  | .arrayPattern elements _ => by rw [bindingJson, Spell.binding]; exact .arrayPattern (by has) (pattern_prints elements)
  | .objectPattern ps _ => by rw [bindingJson, Spell.binding]; exact .objectPattern (by has) (patternProperties_prints ps)
  | .expression n => by rw [bindingJson, Spell.binding]; exact node_prints n
termination_by structural b => b

theorem array_prints : ∀ l : List (Option ArrayExpressionElement),
    PrintsAll .node .holes (holesArrayExpressionElementJson l) (Spell.arrayElements l)
  | [] => by rw [holesArrayExpressionElementJson, Spell.arrayElements]; exact .nil nofun
  | none :: more => by
    rw [holesArrayExpressionElementJson, Spell.arrayElements, optArrayExpressionElementJson]; exact .hole (array_prints more)
  | some e :: more => by
    rw [holesArrayExpressionElementJson, Spell.arrayElements, optArrayExpressionElementJson, commas_eq (isEmpty_array more)]
    exact .consHoles (arrayElement_prints e) (array_prints more)
termination_by structural l => l

theorem arrayElement_prints : ∀ e : ArrayExpressionElement, Prints .node (arrayExpressionElementJson e) (Spell.arrayElement e)
  | .expression n => by rw [arrayExpressionElementJson, Spell.arrayElement]; exact node_prints n
  | .spreadElement argument _ => by
    rw [arrayExpressionElementJson, Spell.arrayElement]; exact .spread (by has) (node_prints argument)
termination_by structural e => e

theorem pattern_prints : ∀ l : List (Option ArrayPatternElement),
    PrintsAll .node .holes (holesArrayPatternElementJson l) (Spell.patternElements l)
  | [] => by rw [holesArrayPatternElementJson, Spell.patternElements]; exact .nil nofun
  | none :: more => by
    rw [holesArrayPatternElementJson, Spell.patternElements, optArrayPatternElementJson]; exact .hole (pattern_prints more)
  | some e :: more => by
    rw [holesArrayPatternElementJson, Spell.patternElements, optArrayPatternElementJson, commas_eq (isEmpty_pattern more)]
    exact .consHoles (patternElement_prints e) (pattern_prints more)
termination_by structural l => l

theorem patternElement_prints : ∀ e : ArrayPatternElement, Prints .node (arrayPatternElementJson e) (Spell.patternElement e)
  | .assignmentPattern left right => by
    rw [arrayPatternElementJson, Spell.patternElement]; exact .assignmentPattern (by has) (binding_prints left) (node_prints right)
  | .bindingIdentifier name => by rw [arrayPatternElementJson, Spell.patternElement]; exact .bindingIdentifier (by has)
  | .arrayPattern elements => by
    rw [arrayPatternElementJson, Spell.patternElement]; exact .arrayPattern (by has) (pattern_prints elements)
  | .objectPattern ps => by
    rw [arrayPatternElementJson, Spell.patternElement]; exact .objectPattern (by has) (patternProperties_prints ps)
  | .restElement argument => by
    rw [arrayPatternElementJson, Spell.patternElement]; exact .rest (by has) (binding_prints argument)
termination_by structural e => e

theorem target_prints : ∀ l : List (Option ArrayAssignmentPatternElement),
    PrintsAll .node .holes (holesArrayAssignmentPatternElementJson l) (Spell.targetElements l)
  | [] => by rw [holesArrayAssignmentPatternElementJson, Spell.targetElements]; exact .nil nofun
  | none :: more => by
    rw [holesArrayAssignmentPatternElementJson, Spell.targetElements, optArrayAssignmentPatternElementJson]
    exact .hole (target_prints more)
  | some e :: more => by
    rw [holesArrayAssignmentPatternElementJson, Spell.targetElements, optArrayAssignmentPatternElementJson,
      commas_eq (isEmpty_target more)]
    exact .consHoles (targetElement_prints e) (target_prints more)
termination_by structural l => l

theorem targetElement_prints : ∀ e : ArrayAssignmentPatternElement,
    Prints .node (arrayAssignmentPatternElementJson e) (Spell.targetElement e)
  | .expression n => by rw [arrayAssignmentPatternElementJson, Spell.targetElement]; exact node_prints n
  | .restElement argument => by
    rw [arrayAssignmentPatternElementJson, Spell.targetElement]; exact .rest (by has) (binding_prints argument)
termination_by structural e => e

theorem key_prints (computed : Bool) : ∀ k : PropertyKey, Prints (.key false computed) (propertyKeyJson k) (Spell.key computed k)
  | .identifier id => by
    rw [propertyKeyJson, Spell.key]
    cases computed
    · exact .nameKey Named.mk
    · exact .nothing
  | .literal l => by
    rw [propertyKeyJson, Spell.key]
    cases computed
    · refine .less (.literalKey (v := valueJson l.value) (by unfold literalJson; has)) ?_
      rintro _ ⟨c, rfl, ⟨v, o, rfl, h⟩ | ⟨n, rfl, h⟩⟩
      · exact ⟨_, rfl, by rw [h]; rfl, by rintro _ ⟨⟩⟩
      · exact ⟨_, rfl, by rw [h]; rfl, by rintro _ ⟨⟩⟩
    · exact .nothing
  | .expression n => by
    rw [propertyKeyJson, Spell.key]
    cases computed
    · exact .nothing
    · exact .computedKey (node_prints n)
termination_by structural k => k

theorem patternKey_prints (computed : Bool) : ∀ k : PropertyKey,
    Prints (.key true computed) (propertyKeyJson k) (Spell.patternKey computed k)
  | .identifier id => by
    rw [propertyKeyJson, Spell.patternKey]
    cases computed
    · exact .patternNameKey Named.mk
    · exact .nothing
  | .literal l => by
    rw [propertyKeyJson, Spell.patternKey]
    cases computed
    · refine .less (.patternLiteralKey (v := valueJson l.value) (by unfold literalJson; has)) ?_
      rintro _ ⟨c, rfl, h⟩
      exact ⟨_, rfl, value_json h⟩
    · exact .nothing
  | .expression n => by
    rw [propertyKeyJson, Spell.patternKey]
    cases computed
    · exact .nothing
    · exact .computedKey (node_prints n)
termination_by structural k => k

theorem fn_prints : ∀ f : FnExpr, FnParts f
  | .mk (some _) params body generator expression async => .inr (by rw [Spell.method]; rfl)
  | .mk none params body generator true async => .inr (by rw [Spell.method]; rfl)
  | .mk none params body generator false async => .inl
    ⟨_, _, generator, async, _, _, fun tag => by rw [fnExprJson, optNodeJson]; has, params_prints params, node_prints body, rfl, by rw [Spell.method]; rfl⟩
termination_by structural f => f

theorem value_prints : ∀ v : PropertyValue, ValueParts v
  | .assignmentPattern left right => .inr ⟨fun _ => ⟨nofun, nofun⟩, by
      rw [propertyValueJson, Spell.propertyValue]; exact .assignmentPattern (by has) (binding_prints left) (node_prints right)⟩
  | .asyncFunctionExpression f => .inl ⟨f, .inr rfl, fn_prints f⟩
  | .bindingIdentifier name _ => .inr ⟨fun _ => ⟨nofun, nofun⟩, by
      rw [propertyValueJson, Spell.propertyValue]; exact .identifier (by unfold Named; has)⟩
  | .bindingPattern p => .inr ⟨fun _ => ⟨nofun, nofun⟩, by
      rw [propertyValueJson, Spell.propertyValue]; exact bindingPattern_prints p⟩
  | .functionExpression f => .inl ⟨f, .inl rfl, fn_prints f⟩
  | .expression n => .inr ⟨fun _ => ⟨nofun, nofun⟩, by rw [propertyValueJson, Spell.propertyValue]; exact node_prints n⟩
termination_by structural v => v

theorem bindingPattern_prints : ∀ p : BindingPattern, Prints .node (bindingPatternJson p) (Spell.bindingPattern p)
  | .arrayPattern elements => by
    rw [bindingPatternJson, Spell.bindingPattern]; exact .arrayPattern (by has) (pattern_prints elements)
  | .objectPattern ps => by
    rw [bindingPatternJson, Spell.bindingPattern]; exact .objectPattern (by has) (patternProperties_prints ps)
termination_by structural p => p

theorem optValue_prints : ∀ v : Option PropertyValue, ∀ x, v = some x → ValueParts x
  | none => nofun
  | some v => by rintro _ ⟨⟩; exact value_prints v
termination_by structural v => v

theorem default_prints : ∀ (v : Option PropertyValue) (k : PropertyKey), (∀ ws, ¬ Spell.shorthandDefault k v ws) ∨
    ∃ l r R name, Has (optPropertyValueJson v) cs!"AssignmentPattern" [(cs!"left", l), (cs!"right", r)] ∧
      Named (propertyKeyJson k) name ∧ Named l name ∧ Prints .node r R ∧ Spell.shorthandDefault k v = R
  | some (.assignmentPattern (.bindingIdentifier name sp) right), k => by
    have hr := node_prints right
    cases k with
    | identifier id =>
      by_cases h : name = id.name
      · refine .inr ⟨_, nodeJson right, _, name, by rw [optPropertyValueJson, propertyValueJson]; has, ?_, ?_, hr, ?_⟩
        · rw [h, propertyKeyJson]; exact Named.mk
        · rw [bindingJson]; unfold Named; has
        · rw [Spell.shorthandDefault, if_pos h]
      · refine .inl fun ws => ?_
        rw [Spell.shorthandDefault, if_neg h]
        exact fun h => h
    | _ => exact .inl fun ws h => h
  | some (.assignmentPattern (.arrayPattern _ _) _), _ => .inl fun _ h => h
  | some (.assignmentPattern (.objectPattern _ _) _), _ => .inl fun _ h => h
  | some (.assignmentPattern (.expression _) _), _ => .inl fun _ h => h
  | none, _ => .inl fun _ h => h
  | some (.asyncFunctionExpression _), _ => .inl fun _ h => h
  | some (.bindingIdentifier _ _), _ => .inl fun _ h => h
  | some (.bindingPattern _), _ => .inl fun _ h => h
  | some (.functionExpression _), _ => .inl fun _ h => h
  | some (.expression _), _ => .inl fun _ h => h
termination_by structural v => v

theorem property_prints : ∀ p : ObjectExpressionProperty, Prints (.property false) (objectExpressionPropertyJson p) (Spell.property p)
  | .spreadElement argument _ => by
    rw [objectExpressionPropertyJson, Spell.property]; exact .spreadProperty (by has) (node_prints argument)
  | .property k computed value kind isMethod shorthand _ => by
    have hk := key_prints computed k
    have hv := optValue_prints value
    rw [objectExpressionPropertyJson, Spell.property]
    cases value with
    | none =>
      rw [optPropertyValueJson, Spell.optValue]
      exact noValue_prints hk (by has)
    | some v =>
      rw [optPropertyValueJson, Spell.optValue]
      exact someValue_prints hk (by has) (hv v rfl)
termination_by structural p => p

theorem properties_prints : ∀ l : List ObjectExpressionProperty,
    PrintsAll (.property false) .properties (listObjectExpressionPropertyJson l) (Spell.properties l)
  | [] => by rw [listObjectExpressionPropertyJson, Spell.properties]; exact .nil nofun
  | p :: more => by
    have hp := property_prints p
    have hm := properties_prints more
    rw [listObjectExpressionPropertyJson, Spell.properties, commas_eq (isEmpty_properties more)]
    rcases generator_eq p with h | h
    · rw [← h]; exact .consProperty hp hm
    · have e : ∀ X : Lang, (Spell.property p ⬝ X) = nothing ⬝ nothing ⬝ Spell.properties more := fun X => by
        funext ws
        refine propext ⟨?_, fun hw => (no_cat1 ws hw).elim⟩
        rintro ⟨a, b, e, ha, hb⟩
        exact (h a ha).elim
      rw [e, ← e ((if isGenerator (objectExpressionPropertyJson p) then eps else
        Spell.commaAfter (listObjectExpressionPropertyJson more)) ⬝ Spell.properties more)]
      exact .consProperty hp hm
termination_by structural l => l

theorem patternProperty_prints : ∀ p : ObjectPatternProperty,
    Prints (.property true) (objectPatternPropertyJson p) (Spell.patternProperty p)
  | .restElement argument => by
    rw [objectPatternPropertyJson, Spell.patternProperty]; exact .restProperty (by has) (binding_prints argument)
  | .property k computed value kind isMethod shorthand => by
    have hk := patternKey_prints computed k
    have hv := optValue_prints value
    have hd := default_prints value k
    rw [objectPatternPropertyJson, Spell.patternProperty]
    refine .both ?_ ?_
    · cases value with
      | none =>
        rw [optPropertyValueJson, Spell.optValue]
        exact noValue_prints hk (by has)
      | some v =>
        rw [optPropertyValueJson, Spell.optValue]
        exact someValue_prints hk (by has) (hv v rfl)
    · cases shorthand
      · exact .nothing
      cases isMethod
      · change Prints _ _ (if (kind == cs!"init") = true then _ else _)
        by_cases hk' : kind = cs!"init"
        · subst hk'
          rw [if_pos (beq_self_eq_true _)]
          rcases hd with hd | ⟨l, r, R, name, h1, h2, h3, h4, h5⟩
          · exact never (no_cat' (no_cat' hd))
          · rw [h5]; exact .defaultProperty (by has) h1 h2 h3 hk h4
        · rw [if_neg (by simpa using hk')]
          exact .nothing
      · exact .nothing
termination_by structural p => p

theorem patternProperties_prints : ∀ l : List ObjectPatternProperty,
    PrintsAll (.property true) .commas (listObjectPatternPropertyJson l) (Spell.patternProperties l)
  | [] => by rw [listObjectPatternPropertyJson, Spell.patternProperties]; exact .nil nofun
  | p :: more => by
    rw [listObjectPatternPropertyJson, Spell.patternProperties, commas_eq (isEmpty_patternProperties more)]
    exact .consCommas (patternProperty_prints p) (patternProperties_prints more)
termination_by structural l => l

theorem params_prints : ∀ l : List FunctionParameter,
    PrintsAll .node .commas (listFunctionParameterJson l) (Spell.parameters l)
  | [] => by rw [listFunctionParameterJson, Spell.parameters]; exact .nil nofun
  | p :: more => by
    rw [listFunctionParameterJson, Spell.parameters, commas_eq (isEmpty_params more)]
    exact .consCommas (param_prints p) (params_prints more)
termination_by structural l => l

theorem param_prints : ∀ p : FunctionParameter, Prints .node (functionParameterJson p) (Spell.parameter p)
  | .assignmentPattern left right => by
    rw [functionParameterJson, Spell.parameter]; exact .assignmentPattern (by has) (binding_prints left) (node_prints right)
  | .bindingIdentifier name => by rw [functionParameterJson, Spell.parameter]; exact .bindingIdentifier (by has)
  | .arrayPattern elements => by
    rw [functionParameterJson, Spell.parameter]; exact .arrayPattern (by has) (pattern_prints elements)
  | .objectPattern ps => by
    rw [functionParameterJson, Spell.parameter]; exact .objectPattern (by has) (patternProperties_prints ps)
  | .restElement argument => by
    rw [functionParameterJson, Spell.parameter]; exact .rest (by has) (binding_prints argument)
termination_by structural p => p

theorem args_prints : ∀ l : List ArgumentListElement,
    PrintsAll .node .commas (listArgumentListElementJson l) (Spell.arguments l)
  | [] => by rw [listArgumentListElementJson, Spell.arguments]; exact .nil nofun
  | p :: more => by
    rw [listArgumentListElementJson, Spell.arguments, commas_eq (isEmpty_args more)]
    exact .consCommas (arg_prints p) (args_prints more)
termination_by structural l => l

theorem arg_prints : ∀ a : ArgumentListElement, Prints .node (argumentListElementJson a) (Spell.argument a)
  | .expression n => by rw [argumentListElementJson, Spell.argument]; exact node_prints n
  | .spreadElement argument _ => by
    rw [argumentListElementJson, Spell.argument]; exact .spread (by has) (node_prints argument)
termination_by structural a => a

theorem members_prints : ∀ l : List MethodDefinition,
    PrintsAll .method .semicolons (listMethodDefinitionJson l) (Spell.members l)
  | [] => by rw [listMethodDefinitionJson, Spell.members]; exact .semicolons
  | m :: more => by
    rw [listMethodDefinitionJson, Spell.members]
    exact .consMethod (member_prints m) (members_prints more)
termination_by structural l => l

theorem optFn_prints : ∀ f : Option FnExpr, ∀ g, f = some g → FnParts g
  | none => nofun
  | some f => by rintro _ ⟨⟩; exact fn_prints f
termination_by structural f => f

theorem member_prints : ∀ m : MethodDefinition, Prints .method (methodDefinitionJson m) (Spell.member m)
  | .mk k computed value kind isStatic => by
    have hk := node_prints k
    have hv := optFn_prints value
    rw [methodDefinitionJson, Spell.member]
    cases value with
    | none => rw [Spell.optMethod]; exact never (no_cat' (no_cat' (no_cat' (no_cat' no_cat))))
    | some f =>
      rcases hv f rfl with ⟨ps, b, gen, async, P, B, h1, h2, h3, h4, h5⟩ | h5
      case inr => rw [Spell.optMethod, h5]; exact never (no_cat' (no_cat' (no_cat' (no_cat' no_cat))))
      have hp : Spell.methodPrefix computed k kind (some f) =
          (Spell.accessor kind).getD (only (kind == if gen || async then cs!"method" else plainKind computed (nodeJson k)) <|
            Lang.pre async (word cs!"async" ⬝ Lang.mark (if gen then .joined else .broken)) ⬝
            Lang.pre gen (pun .star)) := by
        obtain ⟨id, params, body, generator, expression, async'⟩ := f
        have e := (h1 cs!"FunctionExpression").2.2.2.2
        rw [fnExprJson] at e
        obtain ⟨e1, -, e2, -⟩ := e
        obtain rfl : generator = gen := by injection e1 with e1; injection e1
        obtain rfl : async' = async := by injection e2 with e2; injection e2
        rw [plainKind_json]
        unfold Spell.methodPrefix; cases Spell.accessor kind <;> rfl
      rw [Spell.optMethod, h5, hp, optFnExprJson]
      exact .method (by has) (h1 _) hk h2 h3
termination_by structural m => m

theorem cases_prints : ∀ l : List SwitchCase, PrintsAll .case .none (listSwitchCaseJson l) (Spell.cases l)
  | [] => by rw [listSwitchCaseJson, Spell.cases]; exact .nil nofun
  | c :: more => by rw [listSwitchCaseJson, Spell.cases]; exact .cons (case_prints c) (cases_prints more)
termination_by structural l => l

theorem case_prints : ∀ c : SwitchCase, Prints .case (switchCaseJson c) (Spell.switchCase c)
  | .mk test consequent => by
    rw [switchCaseJson, Spell.switchCase]
    have e : (if test.isSome then word cs!"case" else word cs!"default") =
        (if isNull (optNodeJson test) then word cs!"default" else word cs!"case") := by
      rw [isNull_opt]; cases test <;> rfl
    rw [e]
    exact .case (by has) (opt_prints test) (nodes_prints consequent)
termination_by structural c => c

theorem declarators_prints : ∀ l : List VariableDeclarator,
    PrintsAll .declarator .comma (listVariableDeclaratorJson l) (Spell.declarators l)
  | [] => by rw [listVariableDeclaratorJson, Spell.declarators]; exact .nil nofun
  | d :: more => by
    rw [listVariableDeclaratorJson, Spell.declarators, comma_eq (isEmpty_declarators more)]
    exact .consComma (declarator_prints d) (declarators_prints more)
termination_by structural l => l

theorem declarator_prints : ∀ d : VariableDeclarator, Prints .declarator (variableDeclaratorJson d) (Spell.declarator d)
  | .mk id init => by
    rw [variableDeclaratorJson, Spell.declarator, ← not_isNull_opt]
    exact .declarator (by has) (binding_prints id) (opt_prints init)
termination_by structural d => d

theorem optHandler_prints : ∀ h : Option CatchClause, Prints .handler (optCatchClauseJson h) (Spell.optHandler h)
  | none => by rw [optCatchClauseJson, Spell.optHandler]; exact .noCatch
  | some h => by rw [optCatchClauseJson, Spell.optHandler]; exact handler_prints h
termination_by structural h => h

theorem handler_prints : ∀ h : CatchClause, Prints .handler (catchClauseJson h) (Spell.handler h)
  | .mk param body => by
    rw [catchClauseJson, Spell.handler]
    obtain ⟨P, h1, h2⟩ := catchParam_prints param
    rw [h2]
    exact .catch (by has) h1 (node_prints body)
termination_by structural h => h

theorem catchParam_prints : ∀ b : Option Binding, ∃ P, PrintsOpt (optBindingJson b) P ∧
    Spell.catchParam b = if isNull (optBindingJson b) then eps else pun .lParen ⬝ P ⬝ pun .rParen
  | none => ⟨_, by rw [optBindingJson]; exact .absent, by rw [Spell.catchParam]; rfl⟩
  | some b => ⟨_, by rw [optBindingJson]; exact .present (binding_prints b), by
      rw [Spell.catchParam, optBindingJson, bindingJson_obj]; rfl⟩
termination_by structural b => b

end

theorem whole_prints (n : Node) : Prints .whole (nodeJson n) (Spell.whole n) := by
  cases n with
  | program body _ _ => rw [nodeJson, Spell.whole]; exact .program (by has) (nodes_prints body)
  | _ => exact .nothing

end Prints
end Giron

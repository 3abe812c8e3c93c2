import Verif.Spec.Json
import Verif.Proofs.Parse.Module
/-
The JSON of a well formed tree follows the schema.
-/
namespace Giron.Spec

/-- Every object in the value follows the schema. -/
def Conf (j : Json) : Prop := ∀ ms, Within (.obj ms) j → ObjectOk ms

/-- The value is as described, and every object in it follows the schema. -/
def KC (k : Kind) (j : Json) : Prop := k.Ok j ∧ Conf j

theorem Conf.null : Conf .null := fun _ h => by cases h
theorem Conf.bool {b : Bool} : Conf (.bool b) := fun _ h => by cases h
theorem Conf.nat {n : Nat} : Conf (.nat n) := fun _ h => by cases h
theorem Conf.num {x : Num} : Conf (.num x) := fun _ h => by cases h
theorem Conf.str {s : Str} : Conf (.str s) := fun _ h => by cases h
theorem Conf.arr {l : List Json} (h : ∀ j ∈ l, Conf j) : Conf (.arr l) := fun ms hw => by
  cases hw with
  | arr h1 hk => exact h _ hk _ h1

theorem KC.str {s : Str} : KC .str (.str s) := ⟨⟨s, rfl⟩, .str⟩
theorem KC.word {l : List Str} {s : Str} (h : s ∈ l) : KC (.word l) (.str s) := ⟨⟨s, h, rfl⟩, .str⟩
theorem KC.bool {b : Bool} : KC .bool (.bool b) := ⟨⟨b, rfl⟩, .bool⟩
theorem KC.flag {b c : Bool} (h : c = b) : KC (.flag b) (.bool c) := ⟨by rw [h]; rfl, .bool⟩
theorem KC.num {n : Nat} : KC .num (.nat n) := ⟨⟨n, rfl⟩, .nat⟩
theorem KC.null {ts : List Str} : KC (.opt ts) .null := ⟨Or.inr rfl, .null⟩
theorem KC.some {ts : List Str} {j : Json} (h : KC (.one ts) j) : KC (.opt ts) j := ⟨Or.inl h.1, h.2⟩
theorem KC.mono {ts us : List Str} {j : Json} (h : KC (.one ts) j) (hs : ts ⊆ us) : KC (.one us) j := by
  obtain ⟨⟨name, rest, hn, rfl⟩, h2⟩ := h
  exact ⟨⟨name, rest, hs hn, rfl⟩, h2⟩
theorem KC.many {ts : List Str} {l : List Json} (h : ∀ x ∈ l, KC (.one ts) x) : KC (.many ts) (.arr l) :=
  ⟨⟨l, rfl, fun x hx => (h x hx).1⟩, .arr fun x hx => (h x hx).2⟩
theorem KC.holes {ts : List Str} {l : List Json} (h : ∀ x ∈ l, KC (.opt ts) x) : KC (.holes ts) (.arr l) :=
  ⟨⟨l, rfl, fun x hx => (h x hx).1⟩, .arr fun x hx => (h x hx).2⟩
theorem KC.manyMap {α : Type} {ts : List Str} {f : α → Json} {l : List α} (h : ∀ x ∈ l, KC (.one ts) (f x)) :
    KC (.many ts) (.arr (l.map f)) := by
  refine KC.many fun x hx => ?_
  obtain ⟨a, ha, rfl⟩ := List.mem_map.1 hx
  exact h a ha

/-- members against a row -/
def MC : List (Str × Kind) → List (Str × Json) → Prop
  | [], [] => True
  | (key, kind) :: row, (key', j) :: rest => key = key' ∧ KC kind j ∧ MC row rest
  | _, _ => False

theorem MC.split : ∀ {row : List (Str × Kind)} {ms : List (Str × Json)}, MC row ms →
    MembersOk row ms ∧ ∀ p ∈ ms, Conf p.2
  | [], [], _ => ⟨trivial, by simp⟩
  | (k, κ) :: row, (k', j) :: ms, ⟨h1, h2, h3⟩ => by
    obtain ⟨h4, h5⟩ := MC.split h3
    refine ⟨⟨h1, h2.1, h4⟩, ?_⟩
    intro p hp
    rcases List.mem_cons.1 hp with rfl | hp
    · exact h2.2
    · exact h5 p hp
  | [], _ :: _, h => h.elim
  | _ :: _, [], h => by simp [MC] at h

theorem KC.tag {name : Str} {row : List (Str × Kind)} {ms : List (Str × Json)} {ts : List Str} (hn : name ∈ ts)
    (hr : (name, row) ∈ schema) (h : MC row ms) : KC (.one ts) (tagged name ms) := by
  obtain ⟨h1, h2⟩ := h.split
  refine ⟨⟨name, ms, hn, rfl⟩, ?_⟩
  intro ms' hw
  unfold tagged at hw
  cases hw with
  | refl => exact ⟨name, row, ms, hr, rfl, h1⟩
  | obj h3 hk =>
    rcases List.mem_cons.1 hk with hk | hk
    · cases hk; cases h3
    · exact h2 _ hk _ h3

theorem listNodeJson_eq : ∀ l, listNodeJson l = l.map nodeJson
  | [] => by simp [listNodeJson]
  | x :: xs => by simp [listNodeJson, listNodeJson_eq xs]
theorem listFunctionParameterJson_eq : ∀ l, listFunctionParameterJson l = l.map functionParameterJson
  | [] => by simp [listFunctionParameterJson]
  | x :: xs => by simp [listFunctionParameterJson, listFunctionParameterJson_eq xs]
theorem listArgumentListElementJson_eq : ∀ l, listArgumentListElementJson l = l.map argumentListElementJson
  | [] => by simp [listArgumentListElementJson]
  | x :: xs => by simp [listArgumentListElementJson, listArgumentListElementJson_eq xs]
theorem listMethodDefinitionJson_eq : ∀ l, listMethodDefinitionJson l = l.map methodDefinitionJson
  | [] => by simp [listMethodDefinitionJson]
  | x :: xs => by simp [listMethodDefinitionJson, listMethodDefinitionJson_eq xs]
theorem listObjectExpressionPropertyJson_eq :
    ∀ l, listObjectExpressionPropertyJson l = l.map objectExpressionPropertyJson
  | [] => by simp [listObjectExpressionPropertyJson]
  | x :: xs => by simp [listObjectExpressionPropertyJson, listObjectExpressionPropertyJson_eq xs]
theorem listObjectPatternPropertyJson_eq : ∀ l, listObjectPatternPropertyJson l = l.map objectPatternPropertyJson
  | [] => by simp [listObjectPatternPropertyJson]
  | x :: xs => by simp [listObjectPatternPropertyJson, listObjectPatternPropertyJson_eq xs]
theorem listSwitchCaseJson_eq : ∀ l, listSwitchCaseJson l = l.map switchCaseJson
  | [] => by simp [listSwitchCaseJson]
  | x :: xs => by simp [listSwitchCaseJson, listSwitchCaseJson_eq xs]
theorem listVariableDeclaratorJson_eq : ∀ l, listVariableDeclaratorJson l = l.map variableDeclaratorJson
  | [] => by simp [listVariableDeclaratorJson]
  | x :: xs => by simp [listVariableDeclaratorJson, listVariableDeclaratorJson_eq xs]
theorem holesArrayExpressionElementJson_eq :
    ∀ l, holesArrayExpressionElementJson l = l.map optArrayExpressionElementJson
  | [] => by simp [holesArrayExpressionElementJson]
  | x :: xs => by simp [holesArrayExpressionElementJson, holesArrayExpressionElementJson_eq xs]
theorem holesArrayPatternElementJson_eq : ∀ l, holesArrayPatternElementJson l = l.map optArrayPatternElementJson
  | [] => by simp [holesArrayPatternElementJson]
  | x :: xs => by simp [holesArrayPatternElementJson, holesArrayPatternElementJson_eq xs]
theorem holesArrayAssignmentPatternElementJson_eq :
    ∀ l, holesArrayAssignmentPatternElementJson l = l.map optArrayAssignmentPatternElementJson
  | [] => by simp [holesArrayAssignmentPatternElementJson]
  | x :: xs => by simp [holesArrayAssignmentPatternElementJson, holesArrayAssignmentPatternElementJson_eq xs]

/-! ### Leaves -/

/-- decidable side conditions of `KC.tag` -/
macro "row" : tactic => `(tactic| first | exact List.mem_of_elem_eq_true rfl | decide | simp [schema])

theorem identifierKC {i : Identifier} {ts : List Str} (h : cs!"Identifier" ∈ ts) : KC (.one ts) (identifierJson i) :=
  KC.tag (row := [(cs!"name", .str)]) h (by simp [schema]) ⟨rfl, KC.str, trivial⟩

theorem valueKC {v : Value} (h : LiteralOk v) : KC .scalar (valueJson v) := by
  cases v with
  | str s => exact ⟨Or.inl ⟨s, rfl⟩, .str⟩
  | num x => exact ⟨Or.inr (Or.inl ⟨x, rfl⟩), .num⟩
  | punc p => exact absurd rfl (h p)
  | null => exact ⟨Or.inr (Or.inr rfl), .null⟩

theorem literalKC {l : Literal} {ts : List Str} (h : cs!"Literal" ∈ ts) (hl : LiteralOk l.value) :
    KC (.one ts) (literalJson l) :=
  KC.tag (row := [(cs!"value", .scalar), (cs!"raw", .str)]) h (by simp [schema]) ⟨rfl, valueKC hl, rfl, KC.str, trivial⟩

theorem markerKC {m : Marker} : KC (.one [cs!"Marker"]) (markerJson m) :=
  KC.tag (row := [(cs!"line", .num), (cs!"col", .num), (cs!"idx", .num)]) (by simp) (by simp [schema])
    ⟨rfl, KC.num, rfl, KC.num, rfl, KC.num, trivial⟩

theorem spanKC {s : Span} : KC (.one [cs!"Span"]) (spanJson s) :=
  KC.tag (row := [(cs!"start", .one [cs!"Marker"]), (cs!"end", .one [cs!"Marker"])]) (by simp) (by simp [schema])
    ⟨rfl, markerKC, rfl, markerKC, trivial⟩

theorem regexKC {r : Regex} : KC (.one [cs!"Regex"]) (regexJson r) := by
  refine KC.tag (row := [(cs!"pattern", .str), (cs!"flags", .strs)]) (by simp) (by simp [schema])
    ⟨rfl, KC.str, rfl, ⟨⟨_, rfl, ?_⟩, .arr ?_⟩, trivial⟩ <;>
  · intro x hx
    obtain ⟨c, -, rfl⟩ := List.mem_map.1 hx
    first | exact ⟨_, rfl⟩ | exact .str

theorem templateElementKC {t : TemplateElement} : KC (.one [cs!"TemplateElement"]) (templateElementJson t) :=
  KC.tag (row := [(cs!"value", .one [cs!"TemplateElementValue"]), (cs!"tail", .bool)]) (by simp) (by simp [schema])
    ⟨rfl, KC.tag (row := [(cs!"cooked", .str), (cs!"raw", .str)]) (by simp) (by simp [schema])
      ⟨rfl, KC.str, rfl, KC.str, trivial⟩, rfl, KC.bool, trivial⟩

theorem exportSpecifierKC {e : ExportSpecifier} : KC (.one [cs!"ExportSpecifier"]) (exportSpecifierJson e) :=
  KC.tag (row := [(cs!"exported", .one [cs!"Identifier"]), (cs!"local", .one [cs!"Identifier"])]) (by simp)
    (by simp [schema]) ⟨rfl, identifierKC (by simp), rfl, identifierKC (by simp), trivial⟩

theorem importSpecifierKC {e : ImportDeclarationSpecifier} :
    KC (.one [cs!"ImportDefaultSpecifier", cs!"ImportNamespaceSpecifier", cs!"ImportSpecifier"])
      (importSpecifierJson e) := by
  cases e with
  | importDefaultSpecifier l =>
    exact KC.tag (row := [(cs!"local", .one [cs!"Identifier"])]) (by simp) (by simp [schema])
      ⟨rfl, identifierKC (by simp), trivial⟩
  | importNamespaceSpecifier l =>
    exact KC.tag (row := [(cs!"local", .one [cs!"Identifier"])]) (by simp) (by simp [schema])
      ⟨rfl, identifierKC (by simp), trivial⟩
  | importSpecifier l i =>
    exact KC.tag (row := [(cs!"local", .one [cs!"Identifier"]), (cs!"imported", .one [cs!"Identifier"])]) (by simp)
      (by simp [schema]) ⟨rfl, identifierKC (by simp), rfl, identifierKC (by simp), trivial⟩

/-! ### Which types stand where -/

/-- types of the nodes in a slot -/
def roleTypes : Role → List Str
  | .expr => exprTypes
  | .stmt => stmtTypes
  | .sub => subTypes
  | .labelBody => subTypes ++ [cs!"FunctionDeclaration"]
  | .loopBody => subTypes
  | .fnBody => [cs!"BlockStatement"]
  | .block => [cs!"BlockStatement"]
  | .target => targetTypes
  | .asgElem => elemTypes
  | .forLeft => targetTypes
  | .forInit => exprTypes ++ declTypes
  | .bindId => [cs!"Identifier"]
  | .nameId => [cs!"Identifier"]
  | .memberObj => superTypes
  | .callee => superTypes
  | .memberName => [cs!"Identifier"]
  | .metaName => [cs!"Identifier"]
  | .methodKey => exprTypes
  | .exportDecl => declTypes
  | .exportDefault => exprTypes ++ declTypes
  | .moduleItem => stmtTypes ++ portTypes
  | .program => [cs!"Program"]

/-- The value has some type. -/
def NodeKC (ts : List Str) (n : Node) : Prop := KC (.one ts) (nodeJson n)

/-- What the induction shows of a part. -/
def Good : Item → Prop
  | .node r n => KC (.one (roleTypes r)) (nodeJson n)
  | .binding _ b => KC (.one targetTypes) (bindingJson b)
  | .arrElem e => KC (.one (cs!"SpreadElement" :: exprTypes)) (arrayExpressionElementJson e)
  | .arrPat _ e => KC (.one paramTypes) (arrayPatternElementJson e)
  | .arrAsg e => KC (.one (cs!"RestElement" :: elemTypes)) (arrayAssignmentPatternElementJson e)
  | .key k => KC (.one exprTypes) (propertyKeyJson k)
  | .fn f => ∀ tag ∈ [cs!"FunctionExpression", cs!"AsyncFunctionExpression"], KC (.one [tag]) (fnExprJson tag f)
  | .propVal v => KC (.one (cs!"AsyncFunctionExpression" :: exprTypes)) (propertyValueJson v)
  | .patVal _ v => KC (.one elemTypes) (propertyValueJson v)
  | .patProp _ p => KC (.one [cs!"Property", cs!"RestElement"]) (objectPatternPropertyJson p)
  | .param _ p => KC (.one paramTypes) (functionParameterJson p)
  | .arg a => KC (.one (cs!"SpreadElement" :: exprTypes)) (argumentListElementJson a)
  | .prop p => KC (.one [cs!"Property", cs!"SpreadElement"]) (objectExpressionPropertyJson p)
  | .method m => KC (.one [cs!"MethodDefinition"]) (methodDefinitionJson m)
  | .case c => KC (.one [cs!"SwitchCase"]) (switchCaseJson c)
  | .declarator d => KC (.one [cs!"VariableDeclarator"]) (variableDeclaratorJson d)
  | .catchClause c => KC (.one [cs!"CatchClause"]) (catchClauseJson c)


/-- the type of an object -/
def jsonType : Json → Str
  | .obj ((_, .str name) :: _) => name
  | _ => []

theorem type_tagged {name : Str} {ms : List (Str × Json)} : jsonType (tagged name ms) = name := rfl

theorem type_expr {n : Node} (h : isExpr n = true) : jsonType (nodeJson n) ∈ exprTypes := by
  cases n <;> first | (simp only [isExpr, Bool.false_eq_true] at h; done) | (simp only [nodeJson, type_tagged]; decide)
theorem type_sub {n : Node} (h : isSub n = true) : jsonType (nodeJson n) ∈ subTypes := by
  cases n <;> first | (simp only [isSub, Bool.false_eq_true] at h; done) | (simp only [nodeJson, type_tagged]; decide)
theorem type_decl {n : Node} (h : isDecl n = true) : jsonType (nodeJson n) ∈ declTypes := by
  cases n <;> first | (simp only [isDecl, Bool.false_eq_true] at h; done) | (simp only [nodeJson, type_tagged]; decide)
theorem type_port {n : Node} (h : isImportExport n = true) : jsonType (nodeJson n) ∈ portTypes := by
  cases n <;> first | (simp only [isImportExport, Bool.false_eq_true] at h; done) | (simp only [nodeJson, type_tagged]; decide)
theorem type_block {n : Node} (h : isBlock n = true) : jsonType (nodeJson n) ∈ [cs!"BlockStatement"] := by
  cases n <;> first | (simp only [isBlock, Bool.false_eq_true] at h; done) | (simp only [nodeJson, type_tagged]; decide)
theorem type_fd {n : Node} (h : isFunctionDecl n = true) : jsonType (nodeJson n) ∈ [cs!"FunctionDeclaration"] := by
  cases n <;> first | (simp only [isFunctionDecl, Bool.false_eq_true] at h; done) | (simp only [nodeJson, type_tagged]; decide)
theorem type_ident {n : Node} (h : isIdent n = true) : jsonType (nodeJson n) ∈ [cs!"Identifier"] := by
  cases n <;> first | (simp only [isIdent, Bool.false_eq_true] at h; done) | (simp only [nodeJson, type_tagged]; decide)
theorem type_bindId {n : Node} (h : isBindId n = true) : jsonType (nodeJson n) ∈ [cs!"Identifier"] := by
  cases n <;> first | (simp only [isBindId, Bool.false_eq_true] at h; done) | (simp only [nodeJson, type_tagged]; decide)
theorem type_super {n : Node} (h : isSuper n = true) : jsonType (nodeJson n) ∈ [cs!"Super"] := by
  cases n <;> first | (simp only [isSuper, Bool.false_eq_true] at h; done) | (simp only [nodeJson, type_tagged]; decide)
theorem type_asg {n : Node} (h : isAsgPattern n = true) : jsonType (nodeJson n) ∈ targetTypes := by
  cases n <;> first | (simp only [isAsgPattern, Bool.false_eq_true] at h; done) | (simp only [nodeJson, type_tagged]; decide)
theorem type_default {n : Node} (h : isAsgDefault n = true) : jsonType (nodeJson n) ∈ elemTypes := by
  cases n <;> first | (simp only [isAsgDefault, Bool.false_eq_true] at h; done) | (simp only [nodeJson, type_tagged]; decide)
theorem type_dp {n : Node} (h : isDeclaredPattern n = true) : jsonType (nodeJson n) ∈ targetTypes := by
  cases n <;> first | (simp only [isDeclaredPattern, Bool.false_eq_true] at h; done) | (simp only [nodeJson, type_tagged]; decide)
theorem type_program {n : Node} (h : isProgram n = true) : jsonType (nodeJson n) ∈ [cs!"Program"] := by
  cases n <;> first | (simp only [isProgram, Bool.false_eq_true] at h; done) | (simp only [nodeJson, type_tagged]; decide)
theorem type_target {s : Bool} {n : Node} (h : SimpleTarget s n) : jsonType (nodeJson n) ∈ targetTypes := by
  cases h <;> (simp only [nodeJson, type_tagged]; decide)

theorem targets_elems : targetTypes ⊆ elemTypes := by decide

theorem type_fits {s : Bool} {r : Role} {n : Node} (h : Fits s r n) : jsonType (nodeJson n) ∈ roleTypes r := by
  cases r <;> simp only [Fits, roleTypes] at h ⊢
  case expr => exact type_expr h
  case stmt =>
    simp only [isStmt, Bool.or_eq_true] at h
    rcases h with h | h
    · exact List.mem_append_left _ (type_sub h)
    · exact List.mem_append_right _ (type_decl h)
  case sub => exact type_sub h
  case labelBody =>
    rcases h with h | h
    · exact List.mem_append_left _ (type_sub h)
    · exact List.mem_append_right _ (type_fd h)
  case loopBody => exact type_sub h
  case fnBody => exact type_block h
  case block => exact type_block h
  case target => exact h.elim type_target type_asg
  case asgElem => exact h.elim (fun h => targets_elems (type_target h)) (fun h => h.elim (fun h => targets_elems (type_asg h)) type_default)
  case forLeft => exact h.elim type_target (fun h => h.elim type_asg type_dp)
  case forInit =>
    rcases h with h | h
    · exact List.mem_append_left _ (type_expr h)
    · exact List.mem_append_right _ (type_decl h)
  case bindId => exact type_bindId h
  case nameId => exact type_ident h
  case memberObj =>
    rcases h with h | h
    · exact List.mem_cons_of_mem _ (type_expr h)
    · exact List.mem_append_left exprTypes (type_super h)
  case callee =>
    rcases h with h | h
    · exact List.mem_cons_of_mem _ (type_expr h)
    · exact List.mem_append_left exprTypes (type_super h)
  case memberName => exact type_ident h
  case metaName => exact type_ident h
  case methodKey => exact type_expr h
  case exportDecl => exact type_decl h
  case exportDefault =>
    rcases h with h | h
    · exact List.mem_append_left _ (type_expr h)
    · exact List.mem_append_right _ (type_decl h)
  case moduleItem =>
    rcases h with h | h
    · refine List.mem_append_left _ ?_
      simp only [isStmt, Bool.or_eq_true] at h
      rcases h with h | h
      · exact List.mem_append_left _ (type_sub h)
      · exact List.mem_append_right _ (type_decl h)
    · exact List.mem_append_right _ (type_port h)
  case program => exact type_program h

/-! ### Lists and options of parts -/

theorem optNodeKC {ts : List Str} {o : Option Node} (h : ∀ n, o = some n → KC (.one ts) (nodeJson n)) :
    KC (.opt ts) (optNodeJson o) := by
  cases o with
  | none => simp only [optNodeJson]; exact KC.null
  | some n => simp only [optNodeJson]; exact (h n rfl).some

theorem optKid {r : Role} {ts : List Str} {o : Option Node} (h : ∀ k ∈ optNode r o, Good k) (hs : roleTypes r ⊆ ts) :
    KC (.opt ts) (optNodeJson o) :=
  optNodeKC fun n hn => KC.mono (h (.node r n) (by simp [optNode, hn])) hs

theorem nodesKid {r : Role} {ts : List Str} {l : List Node} (h : ∀ k ∈ l.map (Item.node r), Good k)
    (hs : roleTypes r ⊆ ts) : KC (.many ts) (.arr (listNodeJson l)) := by
  rw [listNodeJson_eq]
  exact KC.manyMap fun n hn => KC.mono (h _ (List.mem_map_of_mem hn)) hs

theorem exprsKid {l : List Node} (h : ∀ k ∈ exprs l, Good k) : KC (.many exprTypes) (.arr (listNodeJson l)) :=
  nodesKid (r := .expr) h (fun _ h => h)

theorem paramsKid {m : Mode} {l : List FunctionParameter} (h : ∀ k ∈ l.map (Item.param m), Good k) :
    KC (.many paramTypes) (.arr (listFunctionParameterJson l)) := by
  rw [listFunctionParameterJson_eq]
  exact KC.manyMap fun n hn => h _ (List.mem_map_of_mem hn)

theorem argsKid {l : List ArgumentListElement} (h : ∀ k ∈ l.map Item.arg, Good k) :
    KC (.many (cs!"SpreadElement" :: exprTypes)) (.arr (listArgumentListElementJson l)) := by
  rw [listArgumentListElementJson_eq]
  exact KC.manyMap fun n hn => h _ (List.mem_map_of_mem hn)

theorem methodsKid {l : List MethodDefinition} (h : ∀ k ∈ l.map Item.method, Good k) :
    KC (.many [cs!"MethodDefinition"]) (.arr (listMethodDefinitionJson l)) := by
  rw [listMethodDefinitionJson_eq]
  exact KC.manyMap fun n hn => h _ (List.mem_map_of_mem hn)

theorem propsKid {l : List ObjectExpressionProperty} (h : ∀ k ∈ l.map Item.prop, Good k) :
    KC (.many [cs!"Property", cs!"SpreadElement"]) (.arr (listObjectExpressionPropertyJson l)) := by
  rw [listObjectExpressionPropertyJson_eq]
  exact KC.manyMap fun n hn => h _ (List.mem_map_of_mem hn)

theorem patPropsKid {m : Mode} {l : List ObjectPatternProperty} (h : ∀ k ∈ patProps m l, Good k) :
    KC (.many [cs!"Property", cs!"RestElement"]) (.arr (listObjectPatternPropertyJson l)) := by
  rw [listObjectPatternPropertyJson_eq]
  exact KC.manyMap fun n hn => h (.patProp m n) (List.mem_map_of_mem hn)

theorem casesKid {l : List SwitchCase} (h : ∀ k ∈ l.map Item.case, Good k) :
    KC (.many [cs!"SwitchCase"]) (.arr (listSwitchCaseJson l)) := by
  rw [listSwitchCaseJson_eq]
  exact KC.manyMap fun n hn => h _ (List.mem_map_of_mem hn)

theorem declaratorsKid {l : List VariableDeclarator} (h : ∀ k ∈ l.map Item.declarator, Good k) :
    KC (.many [cs!"VariableDeclarator"]) (.arr (listVariableDeclaratorJson l)) := by
  rw [listVariableDeclaratorJson_eq]
  exact KC.manyMap fun n hn => h _ (List.mem_map_of_mem hn)

theorem elemsKid {l : List (Option ArrayExpressionElement)} (h : ∀ k ∈ l.reduceOption.map Item.arrElem, Good k) :
    KC (.holes (cs!"SpreadElement" :: exprTypes)) (.arr (holesArrayExpressionElementJson l)) := by
  rw [holesArrayExpressionElementJson_eq]
  refine KC.holes fun x hx => ?_
  obtain ⟨o, ho, rfl⟩ := List.mem_map.1 hx
  cases o with
  | none => simp only [optArrayExpressionElementJson]; exact KC.null
  | some e =>
    simp only [optArrayExpressionElementJson]
    exact KC.some (h _ (List.mem_map_of_mem (by simpa [List.reduceOption] using ho)))

theorem arrPatsKid {m : Mode} {l : List (Option ArrayPatternElement)} (h : ∀ k ∈ arrPats m l, Good k) :
    KC (.holes patternTypes) (.arr (holesArrayPatternElementJson l)) := by
  rw [holesArrayPatternElementJson_eq]
  refine KC.holes fun x hx => ?_
  obtain ⟨o, ho, rfl⟩ := List.mem_map.1 hx
  cases o with
  | none => simp only [optArrayPatternElementJson]; exact KC.null
  | some e =>
    simp only [optArrayPatternElementJson]
    exact KC.some (KC.mono (h (.arrPat m e) (List.mem_map_of_mem (by simpa [List.reduceOption] using ho))) (by decide))

theorem arrAsgsKid {l : List (Option ArrayAssignmentPatternElement)} (h : ∀ k ∈ l.reduceOption.map Item.arrAsg, Good k) :
    KC (.holes patternTypes) (.arr (holesArrayAssignmentPatternElementJson l)) := by
  rw [holesArrayAssignmentPatternElementJson_eq]
  refine KC.holes fun x hx => ?_
  obtain ⟨o, ho, rfl⟩ := List.mem_map.1 hx
  cases o with
  | none => simp only [optArrayAssignmentPatternElementJson]; exact KC.null
  | some e =>
    simp only [optArrayAssignmentPatternElementJson]
    exact KC.some (KC.mono (h (.arrAsg e) (List.mem_map_of_mem (by simpa [List.reduceOption] using ho))) (by decide))


/-! ### The parts, one by one -/

/-- find the row of a type in the schema -/
macro "find_row" : tactic => `(tactic|
  (unfold schema; repeat (first | exact List.mem_cons_self | apply List.mem_cons_of_mem)))

/-- an object from its members -/
macro "obj" : tactic => `(tactic| (refine KC.tag (by first | exact List.mem_singleton.2 rfl | decide) (by find_row) ?_))

theorem fnKC {name : Str} {idk genk exk ask : Kind} {bt : List Str} {ir br : Role} {m : Mode} {id : Option Node} {ps : List FunctionParameter} {body : Node}
    {gen ex async : Bool} (hr : (name, fnMembers idk bt genk exk ask) ∈ schema)
    (hid : KC idk (optNodeJson id)) (hg : KC genk (.bool gen)) (he : KC exk (.bool ex)) (ha : KC ask (.bool async))
    (hk : ∀ k ∈ fnParts ir m id ps br body, Good k) (hb : roleTypes br ⊆ bt) :
    KC (.one [name]) (tagged name [(cs!"id", optNodeJson id), (cs!"params", .arr (listFunctionParameterJson ps)),
      (cs!"body", nodeJson body), (cs!"generator", .bool gen), (cs!"expression", .bool ex), (cs!"async", .bool async)]) := by
  refine KC.tag (List.mem_singleton.2 rfl) hr ⟨rfl, hid, rfl, ?_, rfl, ?_, rfl, hg, rfl, he, rfl, ha, trivial⟩
  · exact paramsKid fun k h => hk k (by simp only [fnParts, List.mem_append]; exact .inl (.inr h))
  · exact KC.mono (hk (.node br body) (by simp [fnParts])) hb

theorem classKC {id sup : Option Node} {body : List MethodDefinition} (hk : ∀ k ∈ classParts id sup body, Good k) :
    KC (.one [cs!"ClassDeclaration"]) (tagged cs!"ClassDeclaration" [(cs!"id", optNodeJson id), (cs!"superClass", optNodeJson sup),
      (cs!"body", tagged cs!"ClassBody" [(cs!"body", .arr (listMethodDefinitionJson body))])]) := by
  simp only [classParts, List.mem_append] at hk
  obj
  refine ⟨rfl, optKid (r := .bindId) (fun k h => hk k (.inl (.inl h))) (by decide), rfl,
    optKid (r := .expr) (fun k h => hk k (.inl (.inr h))) (fun _ h => h), rfl, ?_, trivial⟩
  obj
  exact ⟨rfl, methodsKid fun k h => hk k (.inr h), trivial⟩

theorem binPrec_mem {op : Str} (h : 1 ≤ binPrec op) : op ∈ binOps.map Prod.fst := by
  unfold binPrec at h
  cases hl : binOps.lookup op with
  | none => simp [hl] at h
  | some v =>
    have := List.lookup_eq_some_iff.1 hl
    obtain ⟨l1, l2, h1, -⟩ := this
    rw [h1]; simp


/-- a part, by membership in the list of parts -/
macro "mem" : tactic => `(tactic| simp [children, nodeParts, exprs, optNode])

theorem nodeKC {c : Ctx} {r : Role} {n : Node} (ht : jsonType (nodeJson n) ∈ roleTypes r) (ho : NodeOk c n)
    (hk : ∀ k ∈ nodeParts r n, Good k) : KC (.one [jsonType (nodeJson n)]) (nodeJson n) := by
  cases n with
  | arrayExpression es _ _ =>
    simp only [nodeJson, type_tagged]; obj
    exact ⟨rfl, elemsKid hk, trivial⟩
  | arrayPattern es _ _ =>
    simp only [nodeJson, type_tagged]; obj
    exact ⟨rfl, arrPatsKid hk, trivial⟩
  | arrayAssignmentPattern es _ _ =>
    simp only [nodeJson, type_tagged]; obj
    exact ⟨rfl, arrAsgsKid hk, trivial⟩
  | arrowFunctionExpression id ps body gen ex async _ _ =>
    obtain ⟨-, rfl, rfl, rfl⟩ := ho
    simp only [nodeJson, type_tagged]
    refine fnKC (by find_row) (by simp only [optNodeJson]; exact KC.null) (.flag rfl) .bool (.flag rfl) hk ?_
    cases ex <;> decide
  | assignmentExpression op l r' _ _ =>
    simp only [nodeJson, type_tagged]; obj
    exact ⟨rfl, .word ho.1, rfl, hk (.node .target l) (by mem), rfl, hk (.node .expr r') (by mem), trivial⟩
  | assignmentPattern l r' _ =>
    simp only [nodeJson, type_tagged]; obj
    exact ⟨rfl, hk (.binding .assign l) (by mem), rfl, hk (.node .expr r') (by mem), trivial⟩
  | assignmentRestElement _ _ => exact absurd ht (by simp only [nodeJson, type_tagged]; cases r <;> decide)
  | asyncArrowFunctionExpression id ps body gen ex async _ _ =>
    obtain ⟨-, rfl, rfl, rfl⟩ := ho
    simp only [nodeJson, type_tagged]
    refine fnKC (by find_row) (by simp only [optNodeJson]; exact KC.null) (.flag rfl) .bool (.flag rfl) hk ?_
    cases ex <;> decide
  | asyncFunctionExpression _ _ _ _ _ _ _ _ => exact absurd ht (by simp only [nodeJson, type_tagged]; cases r <;> decide)
  | awaitExpression _ _ => exact absurd ht (by simp only [nodeJson, type_tagged]; cases r <;> decide)
  | binaryExpression op l r' _ _ =>
    simp only [nodeJson, type_tagged]; obj
    exact ⟨rfl, .word (binPrec_mem ho.1), rfl, hk (.node .expr l) (by mem), rfl, hk (.node .expr r') (by mem), trivial⟩
  | bindingIdentifier name _ =>
    simp only [nodeJson, type_tagged]; obj
    exact ⟨rfl, .str, trivial⟩
  | logicalExpression _ _ _ _ => exact absurd ht (by simp only [nodeJson, type_tagged]; cases r <;> decide)
  | callExpression callee args _ _ =>
    simp only [nodeJson, type_tagged]; obj
    exact ⟨rfl, hk (.node .callee callee) (by mem), rfl, argsKid fun k h => hk k (List.mem_cons_of_mem _ h), trivial⟩
  | classExpression _ _ _ _ _ => exact absurd ht (by simp only [nodeJson, type_tagged]; cases r <;> decide)
  | computedMemberExpression comp o p _ _ =>
    simp only [nodeJson, type_tagged]; obj
    exact ⟨rfl, .flag ho.2, rfl, hk (.node .memberObj o) (by mem), rfl, hk (.node .expr p) (by mem), trivial⟩
  | conditionalExpression a b d _ =>
    simp only [nodeJson, type_tagged]; obj
    exact ⟨rfl, hk (.node .expr a) (by mem), rfl, hk (.node .expr b) (by mem), rfl, hk (.node .expr d) (by mem), trivial⟩
  | identifier name _ _ =>
    simp only [nodeJson, type_tagged]; obj
    exact ⟨rfl, .str, trivial⟩
  | functionExpression id ps body gen ex async _ _ =>
    simp only [nodeJson, type_tagged]
    exact fnKC (by find_row) (optKid (r := .nameId) (fun k h => hk k (List.mem_append_left _ (List.mem_append_left _ h))) (by decide))
      .bool (.flag ho.2.2) .bool hk (by decide)
  | literal v raw _ _ =>
    simp only [nodeJson, type_tagged]; obj
    exact ⟨rfl, valueKC ho, rfl, .str, trivial⟩
  | newExpression callee args _ _ =>
    simp only [nodeJson, type_tagged]; obj
    exact ⟨rfl, hk (.node .expr callee) (by mem), rfl, argsKid fun k h => hk k (List.mem_cons_of_mem _ h), trivial⟩
  | objectExpression ps _ _ =>
    simp only [nodeJson, type_tagged]; obj
    exact ⟨rfl, propsKid hk, trivial⟩
  | objectPattern ps _ _ =>
    simp only [nodeJson, type_tagged]; obj
    exact ⟨rfl, patPropsKid hk, trivial⟩
  | regexLiteral v raw re _ _ =>
    simp only [nodeJson, type_tagged]; obj
    exact ⟨rfl, .str, rfl, .str, rfl, regexKC, trivial⟩
  | sequenceExpression es _ _ =>
    simp only [nodeJson, type_tagged]; obj
    exact ⟨rfl, exprsKid hk, trivial⟩
  | staticMemberExpression comp o p _ _ =>
    simp only [nodeJson, type_tagged]; obj
    exact ⟨rfl, .flag ho.2, rfl, hk (.node .memberObj o) (by mem), rfl, hk (.node .memberName p) (by mem), trivial⟩
  | taggedTemplateExpression tag qs es _ =>
    simp only [nodeJson, type_tagged]; obj
    refine ⟨rfl, hk (.node .expr tag) (by mem), rfl, ?_, trivial⟩
    obj
    exact ⟨rfl, KC.manyMap fun _ _ => templateElementKC, rfl, exprsKid fun k h => hk k (List.mem_cons_of_mem _ h), trivial⟩
  | thisExpression _ _ => simp only [nodeJson, type_tagged]; obj; trivial
  | unaryExpression op a pre _ _ =>
    simp only [nodeJson, type_tagged]; obj
    exact ⟨rfl, .word ho.1.1, rfl, hk (.node .expr a) (by mem), rfl, .flag ho.2, trivial⟩
  | updateExpression op a pre _ _ =>
    simp only [nodeJson, type_tagged]; obj
    exact ⟨rfl, .word ho.1, rfl, hk (.node .expr a) (by mem), rfl, .bool, trivial⟩
  | yieldExpression a d _ _ =>
    simp only [nodeJson, type_tagged]; obj
    exact ⟨rfl, optKid (r := .expr) hk (fun _ h => h), rfl, .bool, trivial⟩
  | arrowParameterPlaceHolder _ _ _ => exact absurd ht (by simp only [nodeJson, type_tagged]; cases r <;> decide)
  | restElement _ _ => exact absurd ht (by simp only [nodeJson, type_tagged]; cases r <;> decide)
  | spreadElement _ _ => exact absurd ht (by simp only [nodeJson, type_tagged]; cases r <;> decide)
  | super _ _ => simp only [nodeJson, type_tagged]; obj; trivial
  | templateLiteral qs es _ _ =>
    simp only [nodeJson, type_tagged]; obj
    exact ⟨rfl, KC.manyMap fun _ _ => templateElementKC, rfl, exprsKid hk, trivial⟩
  | metaProperty a b _ _ =>
    simp only [nodeJson, type_tagged]; obj
    exact ⟨rfl, hk (.node .metaName a) (by mem), rfl, hk (.node .metaName b) (by mem), trivial⟩
  | asyncFunctionDeclaration _ _ _ _ _ _ _ => exact absurd ht (by simp only [nodeJson, type_tagged]; cases r <;> decide)
  | breakStatement l _ =>
    simp only [nodeJson, type_tagged]; obj
    exact ⟨rfl, optKid (r := .nameId) hk (by decide), trivial⟩
  | continueStatement l _ =>
    simp only [nodeJson, type_tagged]; obj
    exact ⟨rfl, optKid (r := .nameId) hk (by decide), trivial⟩
  | debuggerStatement _ => simp only [nodeJson, type_tagged]; obj; trivial
  | doWhileStatement b t _ =>
    simp only [nodeJson, type_tagged]; obj
    exact ⟨rfl, hk (.node .loopBody b) (by mem), rfl, hk (.node .expr t) (by mem), trivial⟩
  | emptyStatement _ => simp only [nodeJson, type_tagged]; obj; trivial
  | expressionStatement e _ =>
    simp only [nodeJson, type_tagged]; obj
    exact ⟨rfl, hk (.node .expr e) (by mem), trivial⟩
  | directive _ _ _ => exact absurd ht (by simp only [nodeJson, type_tagged]; cases r <;> decide)
  | forStatement i t u b _ =>
    simp only [nodeJson, type_tagged]; obj
    simp only [nodeParts, List.mem_append] at hk
    exact ⟨rfl, optKid (r := .forInit) (fun k h => hk k (.inl (.inl (.inl h)))) (fun _ h => h), rfl,
      optKid (r := .expr) (fun k h => hk k (.inl (.inl (.inr h)))) (fun _ h => h), rfl,
      optKid (r := .expr) (fun k h => hk k (.inl (.inr h))) (fun _ h => h), rfl,
      hk (.node .loopBody b) (.inr (List.mem_singleton.2 rfl)), trivial⟩
  | forInStatement l e b each _ =>
    simp only [nodeJson, type_tagged]; obj
    exact ⟨rfl, hk (.node .forLeft l) (by mem), rfl, hk (.node .expr e) (by mem), rfl, hk (.node .loopBody b) (by mem),
      rfl, .flag ho, trivial⟩
  | forOfStatement l e b _ =>
    simp only [nodeJson, type_tagged]; obj
    exact ⟨rfl, hk (.node .forLeft l) (by mem), rfl, hk (.node .expr e) (by mem), rfl, hk (.node .loopBody b) (by mem),
      trivial⟩
  | functionDeclaration id ps body gen ex async _ =>
    simp only [nodeJson, type_tagged]
    exact fnKC (by find_row) (optKid (r := .bindId) (fun k h => hk k (List.mem_append_left _ (List.mem_append_left _ h))) (by decide))
      .bool (.flag ho.2) .bool hk (by decide)
  | ifStatement t a b _ =>
    simp only [nodeJson, type_tagged]; obj
    exact ⟨rfl, hk (.node .expr t) (by mem), rfl, hk (.node .sub a) (by mem), rfl,
      optKid (r := .sub) (fun k h => hk k (List.mem_cons_of_mem _ (List.mem_cons_of_mem _ h))) (fun _ h => h), trivial⟩
  | returnStatement a _ =>
    simp only [nodeJson, type_tagged]; obj
    exact ⟨rfl, optKid (r := .expr) hk (fun _ h => h), trivial⟩
  | switchStatement d cs _ =>
    simp only [nodeJson, type_tagged]; obj
    exact ⟨rfl, hk (.node .expr d) (by mem), rfl, casesKid fun k h => hk k (List.mem_cons_of_mem _ h), trivial⟩
  | throwStatement a _ =>
    simp only [nodeJson, type_tagged]; obj
    exact ⟨rfl, hk (.node .expr a) (by mem), trivial⟩
  | tryStatement b h f _ =>
    simp only [nodeJson, type_tagged]; obj
    refine ⟨rfl, hk (.node .block b) (by mem), rfl, ?_, rfl,
      optKid (r := .block) (fun k h => hk k (List.mem_cons_of_mem _ (List.mem_append_right _ h))) (fun _ h => h), trivial⟩
    cases h with
    | none => simp only [optCatchClauseJson]; exact .null
    | some h => simp only [optCatchClauseJson]; exact KC.some (hk (.catchClause h) (by mem))
  | variableDeclaration ds kind _ =>
    simp only [nodeJson, type_tagged]; obj
    exact ⟨rfl, declaratorsKid hk, rfl, .word ho.2, trivial⟩
  | whileStatement t b _ =>
    simp only [nodeJson, type_tagged]; obj
    exact ⟨rfl, hk (.node .expr t) (by mem), rfl, hk (.node .loopBody b) (by mem), trivial⟩
  | withStatement o b _ =>
    simp only [nodeJson, type_tagged]; obj
    exact ⟨rfl, hk (.node .expr o) (by mem), rfl, hk (.node .sub b) (by mem), trivial⟩
  | blockStatement b _ =>
    simp only [nodeJson, type_tagged]; obj
    exact ⟨rfl, nodesKid (r := .stmt) hk (fun _ h => h), trivial⟩
  | classDeclaration id sup body _ =>
    simp only [nodeJson, type_tagged]
    exact classKC hk
  | exportAllDeclaration src _ =>
    obtain ⟨v, hv⟩ := ho
    simp only [nodeJson, type_tagged]; obj
    exact ⟨rfl, literalKC (by simp) (by rw [hv]; exact fun _ => by simp), trivial⟩
  | exportDefaultDeclaration d _ =>
    simp only [nodeJson, type_tagged]; obj
    exact ⟨rfl, hk (.node .exportDefault d) (by mem), trivial⟩
  | exportNamedDeclaration d specs src _ =>
    simp only [nodeJson, type_tagged]; obj
    refine ⟨rfl, optKid (r := .exportDecl) hk (fun _ h => h), rfl, KC.manyMap fun _ _ => exportSpecifierKC, rfl, ?_, trivial⟩
    cases src with
    | none => exact .null
    | some l =>
      obtain ⟨v, hv⟩ := ho.2 l rfl
      exact KC.some (literalKC (by simp) (by rw [hv]; exact fun _ => by simp))
  | importDeclaration specs src _ =>
    obtain ⟨-, v, hv⟩ := ho
    simp only [nodeJson, type_tagged]; obj
    exact ⟨rfl, KC.manyMap fun _ _ => importSpecifierKC, rfl, literalKC (by simp) (by rw [hv]; exact fun _ => by simp), trivial⟩
  | importDefaultSpecifier _ _ => exact absurd ht (by simp only [nodeJson, type_tagged]; cases r <;> decide)
  | importNamespaceSpecifier _ _ => exact absurd ht (by simp only [nodeJson, type_tagged]; cases r <;> decide)
  | importSpecifier _ _ _ => exact absurd ht (by simp only [nodeJson, type_tagged]; cases r <;> decide)
  | labeledStatement l b _ =>
    simp only [nodeJson, type_tagged]; obj
    exact ⟨rfl, identifierKC (by simp), rfl, hk (.node .labelBody b) (by mem), trivial⟩
  | moduleNode _ _ _ => exact absurd ht (by simp only [nodeJson, type_tagged]; cases r <;> decide)
  | program b st _ =>
    simp only [nodeJson, type_tagged]; obj
    refine ⟨rfl, ?_, rfl, .word ?_, trivial⟩
    · refine nodesKid hk ?_
      split
      · exact fun _ h => h
      · exact fun _ h => List.mem_append_left _ h
    · rcases ho with h | h <;> subst h <;> decide


theorem nodeGood {L : Nat} {c : Ctx} {r : Role} {n : Node} (h : Local L c (.node r n))
    (hk : ∀ k ∈ nodeParts r n, Good k) : Good (.node r n) :=
  KC.mono (nodeKC (type_fits h.1) h.2.1 hk) (by simpa using type_fits h.1)

/-- a property with the two rows of the schema -/
theorem optValueKC {ts : List Str} {v : Option PropertyValue} (h : ∀ w, v = some w → KC (.one ts) (propertyValueJson w)) :
    KC (.opt ts) (optPropertyValueJson v) := by
  cases v with
  | none => simp only [optPropertyValueJson]; exact .null
  | some w => simp only [optPropertyValueJson]; exact (h w rfl).some

theorem good_of_local {L : Nat} {c : Ctx} {it : Item} (h : Local L c it) (hk : ∀ k ∈ children it, Good k) : Good it := by
  cases it with
  | node r n => exact nodeGood h hk
  | binding m b =>
    cases b with
    | bindingIdentifier name sp =>
      simp only [Good, bindingJson]; obj
      exact ⟨rfl, .str, trivial⟩
    | arrayPattern es sp =>
      simp only [Good, bindingJson]; obj
      exact ⟨rfl, arrPatsKid hk, trivial⟩
    | objectPattern ps sp =>
      simp only [Good, bindingJson]; obj
      exact ⟨rfl, patPropsKid hk, trivial⟩
    | expression n =>
      simp only [Good, bindingJson]
      exact hk (.node .target n) (by mem)
  | arrElem e =>
    cases e with
    | expression n =>
      simp only [Good, arrayExpressionElementJson]
      exact KC.mono (hk (.node .expr n) (by mem)) (List.subset_cons_self _ _)
    | spreadElement n sp =>
      simp only [Good, arrayExpressionElementJson]
      exact KC.tag (row := [(cs!"argument", .one exprTypes)]) (by decide) (by find_row)
        ⟨rfl, hk (.node .expr n) (by mem), trivial⟩
  | arrPat m e =>
    cases e with
    | assignmentPattern left right =>
      simp only [Good, arrayPatternElementJson]; obj
      exact ⟨rfl, hk (.binding m.left left) (by mem), rfl, hk (.node .expr right) (by mem), trivial⟩
    | bindingIdentifier name =>
      simp only [Good, arrayPatternElementJson]; obj
      exact ⟨rfl, .str, trivial⟩
    | arrayPattern es =>
      simp only [Good, arrayPatternElementJson]; obj
      exact ⟨rfl, arrPatsKid hk, trivial⟩
    | objectPattern ps =>
      simp only [Good, arrayPatternElementJson]; obj
      exact ⟨rfl, patPropsKid hk, trivial⟩
    | restElement b =>
      simp only [Good, arrayPatternElementJson]; obj
      exact ⟨rfl, hk (.binding m b) (by mem), trivial⟩
  | arrAsg e =>
    cases e with
    | expression n =>
      simp only [Good, arrayAssignmentPatternElementJson]
      exact KC.mono (hk (.node .asgElem n) (by mem)) (List.subset_cons_self _ _)
    | restElement b =>
      simp only [Good, arrayAssignmentPatternElementJson]; obj
      exact ⟨rfl, hk (.binding .assign b) (by mem), trivial⟩
  | key k =>
    cases k with
    | identifier i => simp only [Good, propertyKeyJson]; exact identifierKC (by decide)
    | literal l =>
      simp only [Good, propertyKeyJson]
      refine literalKC (by decide) ?_
      rcases h with ⟨v, hv⟩ | ⟨v, hv⟩ <;> rw [hv] <;> exact fun _ => by simp
    | expression n => simp only [Good, propertyKeyJson]; exact hk (.node .expr n) (by mem)
  | fn f =>
    obtain ⟨id, ps, body, gen, ex, async⟩ := f
    obtain ⟨-, rfl, rfl⟩ := h
    intro tag ht
    simp only [fnExprJson]
    simp only [List.mem_cons, List.not_mem_nil, or_false] at ht
    rcases ht with rfl | rfl
    · exact fnKC (by find_row) (by simp only [optNodeJson]; exact .null) .bool (.flag rfl) .bool hk (by decide)
    · exact fnKC (by find_row) (by simp only [optNodeJson]; exact .null) .bool (.flag rfl) .bool hk (by decide)
  | propVal v =>
    cases v with
    | assignmentPattern _ _ => exact h.elim
    | asyncFunctionExpression f =>
      simp only [Good, propertyValueJson]
      have h1 : Good (.fn f) := hk (.fn f) (by mem)
      exact KC.mono (h1 cs!"AsyncFunctionExpression" (by simp)) (by decide)
    | bindingIdentifier _ _ => exact h.elim
    | bindingPattern _ => exact h.elim
    | functionExpression f =>
      simp only [Good, propertyValueJson]
      have h1 : Good (.fn f) := hk (.fn f) (by mem)
      exact KC.mono (h1 cs!"FunctionExpression" (by simp)) (by decide)
    | expression n =>
      simp only [Good, propertyValueJson]
      exact KC.mono (hk (.node .expr n) (by mem)) (List.subset_cons_self _ _)
  | patVal m v =>
    cases v with
    | assignmentPattern left right =>
      simp only [Good, propertyValueJson]; obj
      exact ⟨rfl, hk (.binding m.left left) (by mem), rfl, hk (.node .expr right) (by mem), trivial⟩
    | asyncFunctionExpression f => exact h.elim
    | bindingIdentifier name sp =>
      simp only [Good, propertyValueJson]; obj
      exact ⟨rfl, .str, trivial⟩
    | bindingPattern p =>
      cases p with
      | arrayPattern es =>
        simp only [Good, propertyValueJson, bindingPatternJson]; obj
        exact ⟨rfl, arrPatsKid hk, trivial⟩
      | objectPattern ps =>
        simp only [Good, propertyValueJson, bindingPatternJson]; obj
        exact ⟨rfl, patPropsKid hk, trivial⟩
    | functionExpression f => exact h.elim
    | expression n =>
      simp only [Good, propertyValueJson]
      exact hk (.node .asgElem n) (by mem)
  | patProp m p =>
    cases p with
    | property k comp v kind meth sh =>
      simp only [Good, objectPatternPropertyJson]
      refine KC.tag (row := propMembers (.opt elemTypes) .str) (by simp) (by find_row)
        ⟨rfl, hk (.key k) (by mem), rfl, .bool, rfl, optValueKC fun w hw => ?_, rfl, .str, rfl, .bool, rfl, .bool, trivial⟩
      subst hw
      exact hk (.patVal m w) (by mem)
    | restElement b =>
      simp only [Good, objectPatternPropertyJson]; obj
      exact ⟨rfl, hk (.binding m b) (by mem), trivial⟩
  | param m p =>
    cases p with
    | assignmentPattern left right =>
      simp only [Good, functionParameterJson]; obj
      exact ⟨rfl, hk (.binding m.left left) (by mem), rfl, hk (.node .expr right) (by mem), trivial⟩
    | bindingIdentifier name =>
      simp only [Good, functionParameterJson]; obj
      exact ⟨rfl, .str, trivial⟩
    | arrayPattern es =>
      simp only [Good, functionParameterJson]; obj
      exact ⟨rfl, arrPatsKid hk, trivial⟩
    | objectPattern ps =>
      simp only [Good, functionParameterJson]; obj
      exact ⟨rfl, patPropsKid hk, trivial⟩
    | restElement b =>
      simp only [Good, functionParameterJson]; obj
      exact ⟨rfl, hk (.binding .declared b) (by mem), trivial⟩
  | arg a =>
    cases a with
    | expression n =>
      simp only [Good, argumentListElementJson]
      exact KC.mono (hk (.node .expr n) (by mem)) (List.subset_cons_self _ _)
    | spreadElement n sp =>
      simp only [Good, argumentListElementJson]
      exact KC.tag (row := [(cs!"argument", .one exprTypes)]) (by decide) (by find_row)
        ⟨rfl, hk (.node .expr n) (by mem), trivial⟩
  | prop p =>
    cases p with
    | property k comp v kind meth sh sp =>
      simp only [Good, objectExpressionPropertyJson]
      refine KC.tag (row := propMembers (.opt (cs!"AsyncFunctionExpression" :: exprTypes)) (.word propKinds) ++
          [(cs!"span", Kind.one [cs!"Span"])]) (by simp) (by find_row) ?_
      simp only [propMembers, List.cons_append, List.nil_append]
      refine ⟨rfl, hk (.key k) (by mem), rfl, .bool, rfl, optValueKC fun w hw => ?_, rfl, .word h.2.1, rfl, .bool, rfl, .bool,
          rfl, spanKC, trivial⟩
      subst hw
      exact hk (.propVal w) (by mem)
    | spreadElement n sp =>
      simp only [Good, objectExpressionPropertyJson]
      exact KC.tag (row := [(cs!"argument", .one exprTypes), (cs!"span", .one [cs!"Span"])]) (by decide) (by find_row)
        ⟨rfl, hk (.node .expr n) (by mem), rfl, spanKC, trivial⟩
  | method m =>
    obtain ⟨k, comp, f, kind, st⟩ := m
    obtain ⟨h1, h2, rfl, -, -⟩ := h
    obtain ⟨f, rfl⟩ := Option.isSome_iff_exists.1 h1
    simp only [Good, methodDefinitionJson, optFnExprJson]; obj
    have h3 : Good (.fn f) := hk (.fn f) (by mem)
    exact ⟨rfl, hk (.node .methodKey k) (by mem), rfl, .bool, rfl, h3 _ (by simp), rfl, .word h2, rfl, .flag rfl, trivial⟩
  | case cl =>
    obtain ⟨t, b⟩ := cl
    simp only [children, List.mem_append] at hk
    simp only [Good, switchCaseJson]; obj
    exact ⟨rfl, optKid (r := .expr) (fun k h => hk k (.inl h)) (fun _ h => h), rfl,
      nodesKid (r := .stmt) (fun k h => hk k (.inr h)) (fun _ h => h), trivial⟩
  | declarator d =>
    obtain ⟨b, i⟩ := d
    simp only [Good, variableDeclaratorJson]; obj
    exact ⟨rfl, hk (.binding .declared b) (by mem), rfl,
      optKid (r := .expr) (fun k h => hk k (List.mem_cons_of_mem _ h)) (fun _ h => h), trivial⟩
  | catchClause cl =>
    obtain ⟨p, b⟩ := cl
    simp only [Good, catchClauseJson]; obj
    refine ⟨rfl, ?_, rfl, hk (.node .block b) (by mem), trivial⟩
    cases p with
    | none => simp only [optBindingJson]; exact .null
    | some p => simp only [optBindingJson]; exact KC.some (hk (.binding .declared p) (by mem))

theorem WF.good {L : Nat} {c : Ctx} {it : Item} (h : WF L c it) : Good it := by
  induction h with
  | mk h _ ih => exact good_of_local h ih

end Giron.Spec

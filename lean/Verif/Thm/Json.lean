import Verif.Proofs.Json
import Verif.Thm.Path
/-
C36: the JSON rendering of a tree.
-/
namespace Giron
open Spec

/-- C36: every object in the JSON of an accepted tree starts with `"type"` and has exactly the members of that type
in the table `schema`, in order, each holding what the table says. -/
theorem C36_objects_follow_schema [Env] {source : Str} {t : Node} (ht : Accepted source t)
    {members : List (Str × Json)} (h : Within (.obj members) (nodeJson t)) : ObjectOk members :=
  ht.wf.good.2 members h

/-- C36: in particular every object names its type first. -/
theorem C36_type_first [Env] {source : Str} {t : Node} (ht : Accepted source t)
    {members : List (Str × Json)} (h : Within (.obj members) (nodeJson t)) :
    ∃ name rest, members = (cs!"type", .str name) :: rest ∧ name ∈ schema.map Prod.fst := by
  obtain ⟨name, row, rest, h1, h2, -⟩ := C36_objects_follow_schema ht h
  exact ⟨name, rest, h2, List.mem_map_of_mem h1⟩

theorem Spec.MembersOk.keys : ∀ {row : List (Str × Kind)} {ms : List (Str × Json)}, MembersOk row ms →
    ms.map Prod.fst = row.map Prod.fst
  | [], [], _ => rfl
  | (k, κ) :: row, (k', j) :: ms, ⟨h1, _, h3⟩ => by simp [Spec.MembersOk.keys h3, h1]
  | [], _ :: _, h => h.elim
  | _ :: _, [], h => by simp [MembersOk] at h

/-- no type of the table repeats a member name -/
theorem schema_keys : ∀ d ∈ schema, (cs!"type" :: d.2.map Prod.fst).Nodup := by decide +kernel

/-- C36: no object of the output has two members with the same name. -/
theorem C36_keys_distinct [Env] {source : Str} {t : Node} (ht : Accepted source t)
    {members : List (Str × Json)} (h : Within (.obj members) (nodeJson t)) : (members.map Prod.fst).Nodup := by
  obtain ⟨name, row, rest, h1, rfl, h3⟩ := C36_objects_follow_schema ht h
  rw [List.map_cons, h3.keys]
  exact schema_keys _ h1

/-- C36: the root is a `Program` whose `sourceType` tells which function was called. -/
theorem C36_root [Env] {source : Str} {t : Node} :
    (parseScript source = .ok t → ∃ body, nodeJson t =
      .obj [(cs!"type", .str cs!"Program"), (cs!"body", .arr body), (cs!"sourceType", .str cs!"script")]) ∧
    (parseModule source = .ok t → ∃ body, nodeJson t =
      .obj [(cs!"type", .str cs!"Program"), (cs!"body", .arr body), (cs!"sourceType", .str cs!"module")]) := by
  constructor
  · intro h
    obtain ⟨body, sp, rfl⟩ := (script_wf h).2
    exact ⟨_, by simp only [nodeJson]; rfl⟩
  · intro h
    obtain ⟨body, sp, rfl⟩ := (module_wf h).2
    exact ⟨_, by simp only [nodeJson]; rfl⟩

/-- C36: what JavaScript gets from giron-wasm is the JSON of the tree, with all objects as above, or the error. -/
theorem C36_wasm [Env] {source : Str} {r : JsResult} :
    (wasmParseScript source = some r ∨ wasmParseModule source = some r) →
    (∃ j, r = .tree j ∧ HasType [cs!"Program"] j ∧ ∀ members, Within (.obj members) j → ObjectOk members) ∨
    (∃ e, r = .text e.debug ∧ (parseScript source = .error (.err e) ∨ parseModule source = .error (.err e))) := by
  intro h
  have key : ∀ x : Except Fail Node, jsResult x = some r → (∀ t, x = .ok t → Accepted source t) →
      (∀ e, x = .error (.err e) → parseScript source = .error (.err e) ∨ parseModule source = .error (.err e)) →
      (∃ j, r = .tree j ∧ HasType [cs!"Program"] j ∧ ∀ members, Within (.obj members) j → ObjectOk members) ∨
      (∃ e, r = .text e.debug ∧ (parseScript source = .error (.err e) ∨ parseModule source = .error (.err e))) := by
    intro x hx h1 h2
    unfold jsResult at hx
    split at hx
    · rename_i t
      cases hx
      left
      have hg : Good _ := (h1 t rfl).wf.good
      exact ⟨_, rfl, hg.1, hg.2⟩
    · rename_i e
      cases hx
      exact Or.inr ⟨e, rfl, h2 e rfl⟩
    · cases hx
  rcases h with h | h
  · exact key _ h (fun t h => Or.inl h) (fun e h => Or.inl h)
  · exact key _ h (fun t h => Or.inr h) (fun e h => Or.inr h)

/-- The node types of ESTree (ES2019), with those of the specification's `Literal`, `Property`, .. -/
def estreeTypes : List Str :=
  [cs!"Identifier", cs!"Literal", cs!"Program", cs!"ExpressionStatement", cs!"BlockStatement", cs!"EmptyStatement",
   cs!"DebuggerStatement", cs!"WithStatement", cs!"ReturnStatement", cs!"LabeledStatement", cs!"BreakStatement",
   cs!"ContinueStatement", cs!"IfStatement", cs!"SwitchStatement", cs!"SwitchCase", cs!"ThrowStatement",
   cs!"TryStatement", cs!"CatchClause", cs!"WhileStatement", cs!"DoWhileStatement", cs!"ForStatement",
   cs!"ForInStatement", cs!"ForOfStatement", cs!"FunctionDeclaration", cs!"VariableDeclaration",
   cs!"VariableDeclarator", cs!"ThisExpression", cs!"ArrayExpression", cs!"ObjectExpression", cs!"Property",
   cs!"FunctionExpression", cs!"UnaryExpression", cs!"UpdateExpression", cs!"BinaryExpression",
   cs!"AssignmentExpression", cs!"LogicalExpression", cs!"MemberExpression", cs!"ConditionalExpression",
   cs!"CallExpression", cs!"NewExpression", cs!"SequenceExpression", cs!"ArrowFunctionExpression",
   cs!"YieldExpression", cs!"AwaitExpression", cs!"TemplateLiteral", cs!"TaggedTemplateExpression",
   cs!"TemplateElement", cs!"ObjectPattern", cs!"ArrayPattern", cs!"RestElement", cs!"AssignmentPattern",
   cs!"Super", cs!"SpreadElement", cs!"ClassBody", cs!"MethodDefinition", cs!"ClassDeclaration",
   cs!"ClassExpression", cs!"MetaProperty", cs!"ImportDeclaration", cs!"ImportSpecifier",
   cs!"ImportDefaultSpecifier", cs!"ImportNamespaceSpecifier", cs!"ExportNamedDeclaration", cs!"ExportSpecifier",
   cs!"ExportDefaultDeclaration", cs!"ExportAllDeclaration"]

/-- C36: the types that can occur in the output and are not ESTree's. -/
theorem C36_foreign_types : (schema.map Prod.fst).filter (fun t => !estreeTypes.contains t) =
    [cs!"AsyncArrowFunctionExpression", cs!"AsyncFunctionExpression", cs!"ComputedMemberExpression",
     cs!"RegexLiteral", cs!"Regex", cs!"StaticMemberExpression", cs!"TemplateElementValue", cs!"Span", cs!"Marker",
     cs!"BindingIdentifier"] := by decide +kernel

/-! ### Examples -/

/-- the value at the end of a path of positions -/
def dig : Json → List Nat → Option Json
  | j, [] => some j
  | .arr l, i :: is => (l[i]?).bind (dig · is)
  | .obj l, i :: is => (l[i]?).bind (fun p => dig p.2 is)
  | _, _ :: _ => none

theorem dig_within : ∀ {is : List Nat} {j k : Json}, dig j is = some k → Within k j
  | [], j, k, h => by simp only [dig, Option.some.injEq] at h; subst h; exact .refl
  | i :: is, .arr l, k, h => by
    simp only [dig, Option.bind_eq_some_iff] at h
    obtain ⟨x, hx, h⟩ := h
    exact .arr (dig_within h) (List.mem_of_getElem? hx)
  | i :: is, .obj l, k, h => by
    simp only [dig, Option.bind_eq_some_iff] at h
    obtain ⟨x, hx, h⟩ := h
    exact .obj (key := x.1) (dig_within h) (List.mem_of_getElem? hx)
  | i :: is, .null, k, h => by simp [dig] at h
  | i :: is, .bool _, k, h => by simp [dig] at h
  | i :: is, .nat _, k, h => by simp [dig] at h
  | i :: is, .num _, k, h => by simp [dig] at h
  | i :: is, .str _, k, h => by simp [dig] at h

/-- the type of the object at the end of a path -/
def typeAt (r : Except Fail Node) (is : List Nat) : Option Str :=
  match r with
  | .ok t => match dig (nodeJson t) is with
    | some (.obj ((_, .str name) :: _)) => some name
    | _ => none
  | .error _ => none

theorem typeAt_spec {r : Except Fail Node} {is : List Nat} {name : Str} (h : typeAt r is = some name) :
    ∃ t key members, r = .ok t ∧ Within (.obj ((key, .str name) :: members)) (nodeJson t) := by
  unfold typeAt at h
  split at h
  · rename_i t
    split at h
    · rename_i key nm rest hd
      cases h
      exact ⟨t, key, rest, rfl, dig_within hd⟩
    · cases h
  · cases h

set_option maxRecDepth 20000 in
/-- The hypotheses of C36 are met: `x = {a: 1}` is accepted and the property is deep in its JSON. -/
example : letI := ascii
    ∃ t members, Accepted cs!"x = {a: 1};" t ∧ Within (.obj ((cs!"type", .str cs!"Property") :: members)) (nodeJson t) := by
  letI := ascii
  have h : typeAt (parseScript cs!"x = {a: 1};") [1, 0, 1, 3, 1, 0] = some cs!"Property" := by decide +kernel
  obtain ⟨t, key, members, h1, h2⟩ := typeAt_spec h
  have hk : key = cs!"type" := by
    obtain ⟨name, rest, h3, -⟩ := C36_type_first (Or.inl h1) h2
    exact congrArg (fun l => (l.head?.map Prod.fst).getD []) h3
  subst hk
  exact ⟨t, members, Or.inl h1, h2⟩

set_option maxRecDepth 20000 in
/-- C36, as stated with ESTree's names, is refuted: a member access is a `StaticMemberExpression`. -/
theorem C36_estree_names_refuted : letI := ascii
    ¬ ∀ (source : Str) (t : Node), Accepted source t → ∀ name members,
      Within (.obj ((cs!"type", .str name) :: members)) (nodeJson t) → name ∈ estreeTypes := by
  letI := ascii
  intro hall
  have h : typeAt (parseScript cs!"a.b;") [1, 0, 1] = some cs!"StaticMemberExpression" := by decide +kernel
  obtain ⟨t, key, members, h1, h2⟩ := typeAt_spec h
  have hk : key = cs!"type" := by
    obtain ⟨name, rest, h3, -⟩ := C36_type_first (Or.inl h1) h2
    exact congrArg (fun l => (l.head?.map Prod.fst).getD []) h3
  subst hk
  exact absurd (hall _ _ (Or.inl h1) _ _ h2) (by decide)

end Giron

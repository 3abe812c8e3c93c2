import Verif.Proofs.Spell.Obeys
import Verif.Spec.Tree
/-
The words of a part of a tree are among the words of the tree, one after the other.
-/
namespace Giron.Spell
open Giron Spec Lang
variable [Env]

/-- the words of a part (for some leaves, nothing is said) -/
def item : Item → Lang
  | .node .forInit n => forHead n
  | .node .program n => whole n
  | .node _ n => node n
  | .binding _ (.bindingIdentifier _ _) => fun _ => True
  | .binding _ b => binding b
  | .arrElem e => arrayElement e
  | .arrPat _ e => patternElement e
  | .arrAsg e => targetElement e
  | .key (.expression n) => node n
  | .key _ => fun _ => True
  | .fn f => method f
  | .propVal v => propertyValue v
  | .patVal _ v => (propertyValue v).or
      (match v with | .assignmentPattern (.bindingIdentifier _ _) right => node right | _ => nothing)
  | .patProp _ p => patternProperty p
  | .param _ p => parameter p
  | .arg a => argument a
  | .prop p => property p
  | .method m => member m
  | .case c => switchCase c
  | .declarator d => declarator d
  | .catchClause c => handler c

/-- every sequence of `A` has words of each of these parts -/
def All (A : Lang) (l : List Item) : Prop := ∀ it ∈ l, ∀ ms, A ms → ∃ a b c, ms = a ++ (b ++ c) ∧ item it b

theorem All.nil {A : Lang} : All A [] := nofun
theorem All.cons {A : Lang} {it : Item} {l : List Item} (h : All A [it]) (h' : All A l) : All A (it :: l) := by
  intro x hx
  rcases List.mem_cons.mp hx with rfl | hx
  · exact h x List.mem_cons_self
  · exact h' x hx
theorem All.append {A : Lang} {l l' : List Item} (h : All A l) (h' : All A l') : All A (l ++ l') := by
  intro x hx
  rcases List.mem_append.mp hx with hx | hx
  · exact h x hx
  · exact h' x hx
theorem All.left {A B : Lang} {l : List Item} (h : All A l) : All (A ⬝ B) l := by
  rintro x hx _ ⟨u, v, rfl, hu, hv⟩
  obtain ⟨a, b, c, rfl, hb⟩ := h x hx u hu
  exact ⟨a, b, c ++ v, by simp, hb⟩
theorem All.right {A B : Lang} {l : List Item} (h : All B l) : All (A ⬝ B) l := by
  rintro x hx _ ⟨u, v, rfl, hu, hv⟩
  obtain ⟨a, b, c, rfl, hb⟩ := h x hx v hv
  exact ⟨u ++ a, b, c, by simp, hb⟩
theorem All.nothing {l : List Item} : All Lang.nothing l := fun _ _ _ h => h.elim
theorem All.only {b : Bool} {A : Lang} {l : List Item} (h : All A l) : All (Lang.only b A) l := by
  cases b
  · exact .nothing
  · exact h
theorem All.or {A B : Lang} {l : List Item} (h : All A l) (h' : All B l) : All (A.or B) l := fun x hx ms hm =>
  hm.elim (h x hx ms) (h' x hx ms)
theorem All.ite {c : Prop} [Decidable c] {A B : Lang} {l : List Item} (h : c → All A l) (h' : ¬ c → All B l) :
    All (if c then A else B) l := by
  split
  · next hc => exact h hc
  · next hc => exact h' hc
theorem All.notFirst {bad : List Content} {A : Lang} {l : List Item} (h : All A l) : All (Lang.notFirst bad A) l :=
  fun x hx ms hm => h x hx ms hm.1
theorem All.sameLine {A : Lang} {l : List Item} (h : All A l) : All (Spell.sameLine A) l := .right h
theorem All.sameLineIf {b : Bool} {A : Lang} {l : List Item} (h : All A l) : All (Spell.sameLineIf b A) l := by
  cases b
  · exact h
  · exact .sameLine h
theorem All.bracketed {b : Bool} {A : Lang} {l : List Item} (h : All A l) : All (Spell.bracketed b A) l :=
  .ite (fun _ => .right (.left h)) fun _ => .nothing
theorem All.here {A : Lang} {it : Item} (h : ∀ ms, A ms → item it ms) : All A [it] := by
  intro x hx ms hm
  cases List.mem_singleton.mp hx
  exact ⟨[], ms, [], by simp, h ms hm⟩

/-- looks for the place of a part -/
syntax "place " term : tactic
macro_rules | `(tactic| place $h) => `(tactic| first
  | with_reducible exact $h | (with_reducible refine All.only ?_; place $h) | (with_reducible refine All.sameLine ?_; place $h) | (with_reducible refine All.sameLineIf ?_; place $h) | (with_reducible refine All.notFirst ?_; place $h) | (with_reducible refine All.left ?_; place $h) | (with_reducible refine All.right ?_; place $h))

theorem all_node {n : Node} {r : Role} (hr : r ≠ .forInit ∧ r ≠ .program) : All (node n) [.node r n] :=
  .here fun ms h => by cases r <;> first | exact h | exact absurd rfl hr.1 | exact absurd rfl hr.2

theorem all_exprs1 {n : Node} : All (node n) (exprs [n]) := all_node (by decide)

theorem all_opt {n : Option Node} {r : Role} (hr : r ≠ .forInit ∧ r ≠ .program) : All (optNode n) (Spec.optNode r n) := by
  cases n with
  | none => exact .nil
  | some n => exact all_node hr

theorem all_init {n : Option Node} : All (forInit n) (Spec.optNode .forInit n) := by
  cases n with
  | none => exact .nil
  | some n => exact .here fun ms h => h

theorem all_nodes {r : Role} (hr : r ≠ .forInit ∧ r ≠ .program) : ∀ {l : List Node}, All (nodes l) (l.map (.node r))
  | [] => .nil
  | n :: l => by
    rw [nodes]
    exact .cons (.left (all_node hr)) (.right (all_nodes hr))

theorem all_commas : ∀ {l : List Node}, All (commaNodes l) (exprs l)
  | [] => .nil
  | n :: l => by
    rw [commaNodes]
    exact .cons (.left (all_node (by decide))) (.right (.right all_commas))

theorem all_template {first : Bool} : ∀ {qs : List TemplateElement} {l : List Node}, All (template first qs l) (exprs l)
  | _, [] => .nil
  | [], n :: l => fun _ _ _ h => h.elim
  | q :: qs, n :: l => by
    rw [template]
    exact .cons (.right (.left (all_node (by decide)))) (.right (.right all_template))

theorem all_elements : ∀ {l : List (Option ArrayExpressionElement)}, All (arrayElements l) (l.reduceOption.map .arrElem)
  | [] => .nil
  | none :: l => by rw [arrayElements]; exact .right all_elements
  | some e :: l => by rw [arrayElements]; exact .cons (.left (.here fun _ h => h)) (.right (.right all_elements))

theorem all_patterns {m : Mode} : ∀ {l : List (Option ArrayPatternElement)}, All (patternElements l) (arrPats m l)
  | [] => .nil
  | none :: l => by rw [patternElements]; exact .right all_patterns
  | some e :: l => by rw [patternElements]; exact .cons (.left (.here fun _ h => h)) (.right (.right all_patterns))

theorem all_targets : ∀ {l : List (Option ArrayAssignmentPatternElement)}, All (targetElements l) (l.reduceOption.map .arrAsg)
  | [] => .nil
  | none :: l => by rw [targetElements]; exact .right all_targets
  | some e :: l => by rw [targetElements]; exact .cons (.left (.here fun _ h => h)) (.right (.right all_targets))

theorem all_properties : ∀ {l : List ObjectExpressionProperty}, All (properties l) (l.map .prop)
  | [] => .nil
  | p :: l => by rw [properties]; exact .cons (.left (.here fun _ h => h)) (.right (.right all_properties))

theorem all_patternProperties {m : Mode} : ∀ {l : List ObjectPatternProperty}, All (patternProperties l) (patProps m l)
  | [] => .nil
  | p :: l => by rw [patternProperties]; exact .cons (.left (.here fun _ h => h)) (.right (.right all_patternProperties))

theorem all_parameters {m : Mode} : ∀ {l : List FunctionParameter}, All (parameters l) (l.map (.param m))
  | [] => .nil
  | p :: l => by rw [parameters]; exact .cons (.left (.here fun _ h => h)) (.right (.right all_parameters))

theorem all_arguments : ∀ {l : List ArgumentListElement}, All (arguments l) (l.map .arg)
  | [] => .nil
  | p :: l => by rw [arguments]; exact .cons (.left (.here fun _ h => h)) (.right (.right all_arguments))

theorem all_members : ∀ {l : List MethodDefinition}, All (members l) (l.map .method)
  | [] => .nil
  | p :: l => by rw [members]; exact .cons (.right (.left (.here fun _ h => h))) (.right (.right all_members))

theorem all_cases : ∀ {l : List SwitchCase}, All (cases l) (l.map .case)
  | [] => .nil
  | p :: l => by rw [cases]; exact .cons (.left (.here fun _ h => h)) (.right all_cases)

theorem all_declarators : ∀ {l : List VariableDeclarator}, All (declarators l) (l.map .declarator)
  | [] => .nil
  | p :: l => by rw [declarators]; exact .cons (.left (.here fun _ h => h)) (.right (.right all_declarators))

theorem all_binding {b : Binding} {m : Mode} : All (binding b) [.binding m b] :=
  .here fun ms h => by cases b <;> first | exact h | trivial

theorem all_handler {h : Option CatchClause} : All (optHandler h) (h.toList.map .catchClause) := by
  cases h with
  | none => exact .nil
  | some h => exact .here fun _ h => h

theorem all_arrowParams {l : List FunctionParameter} : All (arrowParams l (parameters l)) (l.map (.param .arrow)) := by
  refine .or (.right (.left all_parameters)) ?_
  split
  · exact .here fun _ h => h
  · exact .nothing

theorem all_key {computed : Bool} {k : PropertyKey} : All (key computed k) [.key k] := by
  cases k with
  | identifier id => exact .here fun _ _ => trivial
  | literal l => exact .here fun _ _ => trivial
  | expression n => rw [key]; exact .bracketed (.here fun _ h => h)

theorem all_patternKey {computed : Bool} {k : PropertyKey} : All (patternKey computed k) [.key k] := by
  cases k with
  | identifier id => exact .here fun _ _ => trivial
  | literal l => exact .here fun _ _ => trivial
  | expression n => rw [patternKey]; exact .bracketed (.here fun _ h => h)

/-- The parts of a node have their words among those of the node. -/
theorem node_parts (r : Role) (n : Node) : All (node n) (nodeParts r n) := by
  cases n
  case arrowFunctionExpression id ps body generator expression async att span =>
    rw [node]
    cases id with
    | some _ => exact .nothing
    | none =>
      refine .only (.append (.left all_arrowParams) (.right (.right ?_)))
      cases expression
      · exact all_node (by decide)
      · exact .notFirst (all_node (by decide))
  case asyncArrowFunctionExpression id ps body generator expression async att span =>
    rw [node]
    cases id with
    | some _ => exact .nothing
    | none =>
      refine .only (.append (.right (.left (.sameLine all_arrowParams))) (.right (.right (.right ?_))))
      cases expression
      · exact all_node (by decide)
      · exact .notFirst (all_node (by decide))
  case exportNamedDeclaration d s source span =>
    cases d with
    | none => exact .nil
    | some d => rw [node]; exact .only (.right (all_node (by decide)))
  case sequenceExpression es att span =>
    rw [node]
    exact .or (.right (.left all_commas)) (.ite (fun _ => .nothing) fun _ => all_commas)
  case newExpression callee args att span =>
    rw [node]
    refine .cons (.right (.left (all_node (by decide)))) (.right (.right (.or (.right (.left all_arguments)) (.ite (fun h => ?_) fun _ => .nothing))))
    cases args with
    | nil => exact .nil
    | cons => cases h
  case updateExpression op a isPrefix att span =>
    rw [node]
    exact .ite (fun _ => .right (all_node (by decide))) fun _ => .left (all_node (by decide))
  all_goals rw [node, nodeParts]
  all_goals first | exact .nothing | exact .nil | skip
  case arrayExpression => place all_elements
  case arrayPattern => place all_patterns
  case arrayAssignmentPattern => place all_targets
  case objectExpression => place all_properties
  case objectPattern => place all_patternProperties
  case assignmentExpression => exact .cons (.left (all_node (by decide))) (.right (.right (all_node (by decide))))
  case assignmentPattern => exact .cons (.left all_binding) (.right (.right (all_node (by decide))))
  case binaryExpression => exact .cons (.left (all_node (by decide))) (.right (.right (all_node (by decide))))
  case callExpression => exact .cons (.left (all_node (by decide))) (by place all_arguments)
  case computedMemberExpression => exact .only (.cons (.left (all_node (by decide))) (.right (.right (.left (all_node (by decide))))))
  case staticMemberExpression => exact .only (.cons (.left (all_node (by decide))) (.right (.right (all_node (by decide)))))
  case conditionalExpression =>
    exact .cons (.left (all_node (by decide))) (.cons (.right (.right (.left (all_node (by decide))))) (.right (.right (.right (.right (all_node (by decide)))))))
  case functionExpression =>
    exact .only (.append (.append (by place all_opt (by decide)) (by place all_parameters)) (by place all_node (by decide)))
  case functionDeclaration =>
    exact .only (.append (.append (by place all_opt (by decide)) (by place all_parameters)) (by place all_node (by decide)))
  case taggedTemplateExpression => exact .cons (.left (all_node (by decide))) (.right all_template)
  case templateLiteral => exact all_template
  case unaryExpression => exact .only (.right all_exprs1)
  case yieldExpression => place all_opt (by decide)
  case restElement => exact .right all_binding
  case spreadElement => exact .right all_exprs1
  case metaProperty => exact .cons (.left (all_node (by decide))) (.right (.right (all_node (by decide))))
  case breakStatement => place all_opt (by decide)
  case continueStatement => place all_opt (by decide)
  case returnStatement => place all_opt (by decide)
  case throwStatement => place all_exprs1
  case expressionStatement => place all_exprs1
  case doWhileStatement => exact .cons (by place all_node (by decide)) (by place all_node (by decide))
  case forStatement =>
    exact .append (.append (.append (by place all_init) (by place all_opt (by decide))) (by place all_opt (by decide))) (by place all_node (by decide))
  case forInStatement =>
    exact .only (.cons (by place all_node (by decide)) (.cons (by place all_node (by decide)) (by place all_node (by decide))))
  case forOfStatement =>
    exact .cons (by place all_node (by decide)) (.cons (by place all_node (by decide)) (by place all_node (by decide)))
  case ifStatement =>
    exact .cons (by place all_node (by decide)) (.cons (by place all_node (by decide)) (by place all_opt (by decide)))
  case switchStatement => exact .cons (by place all_node (by decide)) (by place all_cases)
  case tryStatement => exact .cons (by place all_node (by decide)) (.append (by place all_handler) (by place all_opt (by decide)))
  case variableDeclaration => place all_declarators
  case whileStatement => exact .cons (by place all_node (by decide)) (by place all_node (by decide))
  case withStatement => exact .cons (by place all_node (by decide)) (by place all_node (by decide))
  case blockStatement => place all_nodes (by decide)
  case classDeclaration => exact .append (.append (by place all_opt (by decide)) (by place all_opt (by decide))) (by place all_members)
  case exportDefaultDeclaration => place all_node (by decide)
  case labeledStatement => place all_node (by decide)

/-- The head of a classic `for` likewise. -/
theorem head_parts (r : Role) (n : Node) : All (forHead n) (nodeParts r n) := by
  cases n
  case variableDeclaration => rw [forHead]; exact .right all_declarators
  case sequenceExpression => rw [forHead]; exact all_commas
  all_goals exact .nothing

/-- A program likewise. -/
theorem whole_parts (r : Role) (n : Node) : All (whole n) (nodeParts r n) := by
  cases n
  case program body st span =>
    refine all_nodes ?_
    split <;> decide
  all_goals exact .nothing

theorem fn_parts {f : FnExpr} : All (method f) (children (.fn f)) := by
  obtain ⟨id, ps, body, gen, expression, async⟩ := f
  rw [method]
  cases id with
  | some _ => exact .nothing
  | none => exact .only (.append (.right (.left all_parameters)) (by place all_node (by decide)))

theorem binding_parts {m : Mode} {b : Binding} : All (binding b) (children (.binding m b)) := by
  cases b with
  | bindingIdentifier => exact .nil
  | arrayPattern => rw [binding]; exact .right (.left all_patterns)
  | objectPattern => rw [binding]; exact .right (.left all_patternProperties)
  | expression n => rw [binding]; exact all_node (by decide)

/-- The parts of a part have their words among those of the part. -/
theorem item_parts (it : Item) : All (item it) (children it) := by
  cases it with
  | node r n =>
    by_cases hr : r = .forInit
    · subst hr; exact head_parts _ n
    by_cases hp : r = .program
    · subst hp; exact whole_parts _ n
    have e : item (.node r n) = node n := by cases r <;> first | rfl | exact absurd rfl hr | exact absurd rfl hp
    rw [e]
    exact node_parts r n
  | binding m b =>
    cases b with
    | bindingIdentifier => exact .nil
    | _ => exact binding_parts
  | arrElem e =>
    cases e with
    | expression n => exact all_exprs1
    | spreadElement n _ => exact All.right (A := pun .ellipsis) all_exprs1
  | arrPat m e =>
    cases e with
    | assignmentPattern left right => exact .cons (A := Spell.binding left ⬝ pun .assign ⬝ Spell.node right) (.left all_binding) (.right (.right (all_node (by decide))))
    | bindingIdentifier => exact .nil
    | arrayPattern es => exact All.right (A := pun .lBracket) (.left all_patterns)
    | objectPattern es => exact All.right (A := pun .lBrace) (.left all_patternProperties)
    | restElement b => exact All.right (A := pun .ellipsis) all_binding
  | arrAsg e =>
    cases e with
    | expression n => exact all_node (by decide)
    | restElement b => exact All.right (A := pun .ellipsis) all_binding
  | key k =>
    cases k with
    | expression n => exact all_exprs1
    | _ => exact .nil
  | fn f => exact fn_parts
  | propVal v =>
    cases v with
    | assignmentPattern left right => exact .cons (A := Spell.binding left ⬝ pun .assign ⬝ Spell.node right) (.left all_binding) (.right (.right (all_node (by decide))))
    | asyncFunctionExpression f => exact .here fun _ h => h
    | bindingIdentifier => exact .nil
    | bindingPattern p => exact .here fun _ h => .inl h
    | functionExpression f => exact .here fun _ h => h
    | expression n => exact all_exprs1
  | patVal m v =>
    refine .or ?_ ?_
    · cases v with
      | assignmentPattern left right => exact .cons (A := Spell.binding left ⬝ pun .assign ⬝ Spell.node right) (.left all_binding) (.right (.right (all_node (by decide))))
      | asyncFunctionExpression f => exact .here fun _ h => h
      | bindingIdentifier => exact .nil
      | bindingPattern p =>
        cases p with
        | arrayPattern => exact All.right (A := pun .lBracket) (.left all_patterns)
        | objectPattern => exact All.right (A := pun .lBrace) (.left all_patternProperties)
      | functionExpression f => exact .here fun _ h => h
      | expression n => exact all_node (by decide)
    · split
      · exact .cons (fun it hit ms hm => ⟨[], [], ms, rfl, by cases List.mem_singleton.mp hit; trivial⟩) (all_node (by decide))
      · exact .nothing
  | patProp m p =>
    cases p with
    | restElement b => exact All.right (A := pun .ellipsis) all_binding
    | property k computed v kind isMethod shorthand =>
      have hv : All (Spell.optValue v) (v.toList.map (.patVal m)) := by
        cases v with
        | none => exact .nil
        | some v => exact .here fun _ h => .inl h
      have hd : All (Spell.shorthandDefault k v) (v.toList.map (.patVal m)) := by
        unfold Spell.shorthandDefault
        split
        · split
          · exact .ite (fun _ => .here fun _ h => .inr h) fun _ => .nothing
          · exact .nothing
        · exact .nothing
      change All (patternProperty _) _
      rw [patternProperty]
      exact .or (.cons (.right (.left all_patternKey)) (.right (.right (.right hv))))
        (.ite (fun _ => .cons (.left all_patternKey) (.right (.right hd))) fun _ => .nothing)
  | param m p =>
    cases p with
    | assignmentPattern left right => exact .cons (A := Spell.binding left ⬝ pun .assign ⬝ Spell.node right) (.left all_binding) (.right (.right (all_node (by decide))))
    | bindingIdentifier => exact .nil
    | arrayPattern es => exact All.right (A := pun .lBracket) (.left all_patterns)
    | objectPattern es => exact All.right (A := pun .lBrace) (.left all_patternProperties)
    | restElement b => exact All.right (A := pun .ellipsis) all_binding
  | arg a =>
    cases a with
    | expression n => exact all_exprs1
    | spreadElement n _ => exact All.right (A := pun .ellipsis) all_exprs1
  | prop p =>
    cases p with
    | spreadElement n _ => exact All.right (A := pun .ellipsis) all_exprs1
    | property k computed v kind isMethod shorthand sp =>
      have hv : All (Spell.optValue v) (v.toList.map .propVal) := by
        cases v with
        | none => exact .nil
        | some v => exact .here fun _ h => h
      change All (property _) _
      rw [property]
      exact .cons (.right (.left all_key)) (.right (.right (.right hv)))
  | method m =>
    obtain ⟨k, computed, f, kind, st⟩ := m
    have hf : All (Spell.optMethod f) (f.toList.map .fn) := by
      cases f with
      | none => exact .nil
      | some f => exact .here fun _ h => h
    change All (member _) _
    rw [member]
    exact .cons (by place all_node (by decide)) (by place hf)
  | case c =>
    obtain ⟨test, body⟩ := c
    change All (switchCase _) _
    rw [switchCase]
    exact .append (by place all_opt (by decide)) (by place all_nodes (by decide))
  | declarator d =>
    obtain ⟨b, init⟩ := d
    change All (Spell.declarator _) _
    rw [Spell.declarator]
    exact .cons (.left all_binding) (by place all_opt (by decide))
  | catchClause c =>
    obtain ⟨p, body⟩ := c
    change All (Spell.handler _) _
    rw [Spell.handler]
    refine .append (.right (.left ?_)) (by place all_node (by decide))
    cases p with
    | none => exact .nil
    | some b => exact All.right (A := pun .lParen) (.left all_binding)

/-- The words of every part of a tree are among the words of the tree. -/
theorem path_words {it : Item} : ∀ {p : List Item} {a : Item} {ms : List Mark}, item a ms → Chain (a :: p) → (a :: p).getLast? = some it →
    ∃ u v w, ms = u ++ (v ++ w) ∧ item it v
  | [], a, ms, h, _, hl => by
    simp only [List.getLast?_singleton, Option.some.injEq] at hl
    subst hl
    exact ⟨[], ms, [], by simp, h⟩
  | b :: p, a, ms, h, hc, hl => by
    obtain ⟨u, v, w, rfl, hv⟩ := item_parts a b hc.1 ms h
    obtain ⟨u', v', w', rfl, hv'⟩ := path_words hv hc.2 (by simpa using hl)
    exact ⟨u ++ u', v', w' ++ w, by simp, hv'⟩

end Giron.Spell

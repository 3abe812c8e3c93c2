import Verif.Proofs.Pos.World
/-
The spans of the parts of a tree are spans of the tree.
-/
namespace Giron
namespace Pos
open Spec
variable {P : Pr}

/-- the spans of a part have the property -/
def ItemAl (P : Pr) : Item → Prop
  | .node _ n => Al P n
  | .binding _ b => Al P b
  | .arrElem e => Al P e
  | .arrPat _ e => Al P e
  | .arrAsg e => Al P e
  | .key k => Al P k
  | .fn f => Al P f
  | .propVal v => Al P v
  | .patVal _ v => Al P v
  | .patProp _ p => Al P p
  | .param _ p => Al P p
  | .arg a => Al P a
  | .prop p => Al P p
  | .method m => Al P m
  | .case c => Al P c
  | .declarator d => Al P d
  | .catchClause c => Al P c

/-- the spans of the parts have the property -/
def ItemsAl (P : Pr) (l : List Item) : Prop := ∀ it ∈ l, ItemAl P it

theorem items_nil : ItemsAl P [] ↔ True := by simp [ItemsAl]
theorem items_cons {a : Item} {l : List Item} : ItemsAl P (a :: l) ↔ ItemAl P a ∧ ItemsAl P l := by simp [ItemsAl]
theorem items_append {l l' : List Item} : ItemsAl P (l ++ l') ↔ ItemsAl P l ∧ ItemsAl P l' := by
  simp only [ItemsAl, List.mem_append]
  exact ⟨fun h => ⟨fun a ha => h a (.inl ha), fun a ha => h a (.inr ha)⟩, fun h a ha => ha.elim (h.1 a) (h.2 a)⟩
theorem items_map {α : Type} [Sp α] {f : α → Item} {l : List α} (hf : ∀ a, ItemAl P (f a) = Al P a) : ItemsAl P (l.map f) ↔ Al P l := by
  simp only [ItemsAl, List.mem_map, forall_exists_index, and_imp, forall_apply_eq_imp_iff₂, hf, al_def, Sp.all]
theorem items_opt {α : Type} [Sp α] {f : α → Item} {l : Option α} (hf : ∀ a, ItemAl P (f a) = Al P a) : ItemsAl P (l.toList.map f) ↔ Al P l := by
  rw [items_map hf]
  cases l <;> simp [al]
theorem items_holes {α : Type} [Sp α] {f : α → Item} {l : List (Option α)} (hf : ∀ a, ItemAl P (f a) = Al P a) :
    ItemsAl P (l.reduceOption.map f) ↔ Al P l := by
  rw [items_map hf]
  simp only [List.reduceOption]
  exact al_filterMap

@[al] theorem items_map_node {r : Role} {l : List _} : ItemsAl P (l.map (Item.node r)) ↔ Al P l := items_map fun _ => rfl
@[al] theorem items_map_binding {m : Mode} {l : List _} : ItemsAl P (l.map (Item.binding m)) ↔ Al P l := items_map fun _ => rfl
@[al] theorem items_map_arrElem  {l : List _} : ItemsAl P (l.map (Item.arrElem)) ↔ Al P l := items_map fun _ => rfl
@[al] theorem items_map_arrPat {m : Mode} {l : List _} : ItemsAl P (l.map (Item.arrPat m)) ↔ Al P l := items_map fun _ => rfl
@[al] theorem items_map_arrAsg  {l : List _} : ItemsAl P (l.map (Item.arrAsg)) ↔ Al P l := items_map fun _ => rfl
@[al] theorem items_map_patProp {m : Mode} {l : List _} : ItemsAl P (l.map (Item.patProp m)) ↔ Al P l := items_map fun _ => rfl
@[al] theorem items_map_param {m : Mode} {l : List _} : ItemsAl P (l.map (Item.param m)) ↔ Al P l := items_map fun _ => rfl
@[al] theorem items_map_arg  {l : List _} : ItemsAl P (l.map (Item.arg)) ↔ Al P l := items_map fun _ => rfl
@[al] theorem items_map_prop  {l : List _} : ItemsAl P (l.map (Item.prop)) ↔ Al P l := items_map fun _ => rfl
@[al] theorem items_map_method  {l : List _} : ItemsAl P (l.map (Item.method)) ↔ Al P l := items_map fun _ => rfl
@[al] theorem items_map_case  {l : List _} : ItemsAl P (l.map (Item.case)) ↔ Al P l := items_map fun _ => rfl
@[al] theorem items_map_declarator  {l : List _} : ItemsAl P (l.map (Item.declarator)) ↔ Al P l := items_map fun _ => rfl
@[al] theorem items_map_catchClause  {l : List _} : ItemsAl P (l.map (Item.catchClause)) ↔ Al P l := items_map fun _ => rfl
@[al] theorem items_map_fn  {l : List _} : ItemsAl P (l.map (Item.fn)) ↔ Al P l := items_map fun _ => rfl

@[al] theorem items_map_propVal {l : List _} : ItemsAl P (l.map Item.propVal) ↔ Al P l := items_map fun _ => rfl
@[al] theorem items_map_patVal {m : Mode} {l : List _} : ItemsAl P (l.map (Item.patVal m)) ↔ Al P l := items_map fun _ => rfl
@[al] theorem al_toList {α : Type} [Sp α] {o : Option α} : Al P o.toList ↔ Al P o := by cases o <;> simp [al]
@[al] theorem al_holes {α : Type} [Sp α] {l : List (Option α)} : Al P l.reduceOption ↔ Al P l := al_filterMap

/-- decompose -/
macro "itemsal" : tactic => `(tactic| simp_all [al, exprs, optNode, fnParts, classParts, arrPats, patProps, items_nil, items_cons,
  items_append, ItemAl])

theorem nodeParts_al {r : Role} {n : Node} (h : Al P n) : ItemsAl P (nodeParts r n) := by
  cases n <;> simp only [nodeParts]
  all_goals itemsal

theorem children_al {it : Item} (h : ItemAl P it) : ItemsAl P (children it) := by
  cases it with
  | node r n => exact nodeParts_al h
  | binding m b => cases b <;> simp only [children, ItemAl] at h ⊢ <;> itemsal
  | arrElem e => cases e <;> simp only [children, ItemAl] at h ⊢ <;> itemsal
  | arrPat m e => cases e <;> simp only [children, ItemAl] at h ⊢ <;> itemsal
  | arrAsg e => cases e <;> simp only [children, ItemAl] at h ⊢ <;> itemsal
  | key e => cases e <;> simp only [children, ItemAl] at h ⊢ <;> itemsal
  | fn e => cases e; simp only [children, ItemAl] at h ⊢; itemsal
  | propVal e => cases e <;> simp only [children, ItemAl] at h ⊢ <;> itemsal
  | patVal m e =>
    cases e with
    | bindingPattern p => cases p <;> simp only [children, ItemAl] at h ⊢ <;> itemsal
    | _ => simp only [children, ItemAl] at h ⊢ <;> itemsal
  | patProp m e => cases e <;> simp only [children, ItemAl] at h ⊢ <;> itemsal
  | param m e => cases e <;> simp only [children, ItemAl] at h ⊢ <;> itemsal
  | arg e => cases e <;> simp only [children, ItemAl] at h ⊢ <;> itemsal
  | prop e => cases e <;> simp only [children, ItemAl] at h ⊢ <;> itemsal
  | method e => cases e; simp only [children, ItemAl] at h ⊢; itemsal
  | case e => cases e; simp only [children, ItemAl] at h ⊢; itemsal
  | declarator e => cases e; simp only [children, ItemAl] at h ⊢; itemsal
  | catchClause e => cases e; simp only [children, ItemAl] at h ⊢; itemsal

theorem identSpan {i : Identifier} (h : Al P i) : P i.span := h.out
theorem litSpan {l : Literal} (h : Al P l) : P l.span := h.out

theorem nodeSpan_al {n : Node} (h : Al P n) : P (nodeSpan n) := by
  refine al_span.1 ?_
  cases n <;> simp only [nodeSpan, al] at h ⊢ <;> simp_all only

theorem importSpans_al {l : List ImportDeclarationSpecifier} (h : Al P l) : ∀ sp ∈ l.flatMap importSpans, P sp := by
  intro sp hs
  rw [List.mem_flatMap] at hs
  obtain ⟨a, ha, hs⟩ := hs
  have : Al P a := ⟨h.out a ha⟩
  cases a <;> simp only [al] at this <;> simp only [importSpans, List.mem_cons, List.not_mem_nil, or_false] at hs
  · subst hs; exact identSpan this
  · subst hs; exact identSpan this
  · rcases hs with rfl | rfl
    · exact identSpan this.1
    · exact identSpan this.2

theorem exportSpans_al {l : List ExportSpecifier} (h : Al P l) : ∀ sp ∈ l.flatMap exportSpans, P sp := by
  intro sp hs
  rw [List.mem_flatMap] at hs
  obtain ⟨a, ha, hs⟩ := hs
  have : Al P a := ⟨h.out a ha⟩
  cases a
  simp only [al] at this
  simp only [exportSpans, List.mem_cons, List.not_mem_nil, or_false] at hs
  rcases hs with rfl | rfl
  · exact identSpan this.1
  · exact identSpan this.2

theorem heldSpans_al {n : Node} (h : Al P n) : ∀ sp ∈ heldSpans n, P sp := by
  intro sp hs
  cases n <;> simp only [heldSpans, List.mem_cons, List.mem_append, List.mem_map, Option.mem_toList, List.not_mem_nil, or_false] at hs <;> simp only [al] at h
  case exportAllDeclaration => subst hs; exact litSpan h.1
  case exportNamedDeclaration =>
    rcases hs with hs | ⟨a, ha, rfl⟩
    · exact exportSpans_al h.2.1 _ hs
    · exact litSpan ⟨h.2.2.1.out a ha⟩
  case importDeclaration =>
    rcases hs with hs | rfl
    · exact importSpans_al h.1 _ hs
    · exact litSpan h.2.1
  case importDefaultSpecifier => subst hs; exact identSpan h.1
  case importNamespaceSpecifier => subst hs; exact identSpan h.1
  case importSpecifier =>
    rcases hs with rfl | rfl
    · exact identSpan h.1
    · exact identSpan h.2.1
  case labeledStatement => subst hs; exact identSpan h.1

theorem spans_al {it : Item} (h : ItemAl P it) : ∀ sp ∈ spans it, P sp := by
  intro sp hs
  unfold spans at hs
  split at hs <;> simp only [ItemAl, al, al_span] at h <;> simp only [List.mem_cons, List.not_mem_nil, or_false] at hs
  · rcases hs with rfl | hs
    · exact nodeSpan_al h
    · exact heldSpans_al h _ hs
  case h_6 => subst hs; exact identSpan h
  case h_7 => subst hs; exact litSpan h
  all_goals (subst hs; simp_all)

theorem chain_al {p : List Item} : ∀ {a it : Item}, Chain (a :: p) → ItemAl P a → (a :: p).getLast? = some it → ItemAl P it := by
  induction p with
  | nil => intro a it _ h hl; cases hl; exact h
  | cons b p ih =>
    intro a it hc h hl
    exact ih hc.2 (children_al h b hc.1) (by rw [List.getLast?_cons_cons] at hl; exact hl)

/-- every span in the tree has the property -/
theorem path_al {t : Node} (h : Al P t) {p : List Item} {it : Item} (hp : PathTo t p it) : ∀ sp ∈ spans it, P sp := by
  obtain ⟨h1, h2, h3⟩ := hp
  cases p with
  | nil => cases h1
  | cons a p =>
    cases h1
    exact spans_al (chain_al h2 h h3)

end Pos
end Giron

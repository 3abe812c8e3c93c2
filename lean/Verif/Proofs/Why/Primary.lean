import Verif.Proofs.Why.Class
/-
There is a reason for every error.  (One instance per method.)
-/
namespace Giron
namespace Why
open M Giron.Parser Layout Spec
variable [Env] {R : Src} {r : Rec}


instance wy_templateElementOf {t : Token}  : Wy R (templateElementOf t) := by
  unfold templateElementOf; wy

instance wy_parseTemplateHead  : Wy R (parseTemplateHead) := by
  unfold parseTemplateHead
  constructor
  intro s past w h
  refine Wp.cur (Wp.ite (fun ht => Wp.ite (fun _ => (by wy : Wy R _).out _ _ _ h) fun hh => ?_) fun _ => Wp.last h)
  refine Wp.errorCurrent h ?_
  obtain ⟨raw, cooked, head, tail, hc⟩ := h.cur.template ht
  obtain ⟨l, k, st, e, he⟩ := h.cur
  rw [hc] at he
  cases head
  · exact ⟨raw, cooked, tail, hc⟩
  · rw [he] at hh
    exact absurd rfl hh

instance wy_parseTemplateElement  : Wy R (parseTemplateElement) := by
  unfold parseTemplateElement; wy

theorem wy_templateLoopF [RecWy R r] (n : Nat) : ∀ (x1 : Bool), Wy R (templateLoopF r n x1) := by
  induction n with
  | zero => intro x1; exact wy_still (hm := still_fuel)
  | succ n ih => intro x1; unfold templateLoopF; wy

instance wy_templateLoopF' [RecWy R r] {n : Nat} {x1 : Bool} : Wy R (templateLoopF r n x1) := wy_templateLoopF n x1

instance wy_parseTemplateParts [RecWy R r] : Wy R (parseTemplateParts r) := by
  unfold parseTemplateParts; wy

instance wy_parseTemplateLiteral [RecWy R r] : Wy R (parseTemplateLiteral r) := by
  unfold parseTemplateLiteral; wy

instance wy_parseTaggedTemplate {tag : Node} [RecWy R r] : Wy R (parseTaggedTemplate r tag) := by
  unfold parseTaggedTemplate; wy

instance wy_parseFunctionExpr {async : Bool} [RecWy R r] : Wy R (parseFunctionExpr r async) := by
  unfold parseFunctionExpr; wy

instance wy_argument [RecWy R r] : Wy R (argument r) := by
  unfold argument; wy

instance wy_parseArguments [RecWy R r] : Wy R (parseArguments r) := by
  unfold parseArguments; wy

instance wy_seqItem [RecWy R r] : Wy R (seqItem r) := by
  unfold seqItem; wy

/-- what is in the parentheses has been read -/
structure Behind (past : List Word) (l : List Node) : Prop where
  close : First (.punct .rParen) past
  dots : ∀ n ∈ l, Dots (Spell.node n) → ∃ u ∈ past, u.c = .punct .ellipsis

theorem wy_nodeToParam {isLast : Bool} {expr : Node} {s : Parser} {past : List Word} {w : Word} (h : Here R s past w)
    (hb : Behind past [expr]) : Wp R (nodeToParam isLast expr) s past w fun _ _ past' w' => past' = past ∧ w' = w := by
  unfold nodeToParam
  have hd : Dots (Spell.node expr) → reason R.module past w .paramAfterRest := fun hd =>
    ⟨hb.dots _ (List.mem_singleton.2 rfl) hd, .inr (.inl hb.close)⟩
  refine Wp.convert (a := false) h (cx_toBindingPattern expr) hd (fun h => nomatch h) fun v hv => ?_
  cases v with
  | restElement argument sp =>
    refine Wp.ite (fun _ => Wp.pure h ⟨rfl, rfl⟩) fun _ => Wp.errorCurrent h (hd fun ms hm => ?_)
    exact dots_pun ms (Spell.toBindingPattern_keeps _ _ hv ms hm)
  | _ => first | exact Wp.pure h ⟨rfl, rfl⟩ | exact Wp.errorCurrent h hb.close

theorem wy_seqToArrowParams : ∀ (l : List Node) {s : Parser} {past : List Word} {w : Word}, Here R s past w → Behind past l →
    Wp R (seqToArrowParams l) s past w fun _ _ _ _ => True
  | [], _, _, _, h, _ => Wp.pure h trivial
  | a :: l, _, _, _, h, hb => by
    unfold seqToArrowParams
    refine Wp.bind (wy_nodeToParam h ⟨hb.close, fun n hn => hb.dots n (by rw [List.mem_singleton.1 hn]; exact List.mem_cons_self)⟩) ?_
    rintro p s1 _ _ h1 _ ⟨rfl, rfl⟩
    exact Wp.bind (wy_seqToArrowParams l h1 ⟨hb.close, fun n hn => hb.dots n (List.mem_cons_of_mem _ hn)⟩) fun _ _ _ _ h2 _ _ => Wp.pure h2 trivial

theorem wy_seqToArrow {seq : List Node} [RecWy R r] {s : Parser} {past : List Word} {w : Word} (h : Here R s past w)
    (hb : Behind past seq) : Wp R (seqToArrow r seq) s past w fun _ _ _ _ => True := by
  unfold seqToArrow
  exact Wp.bind (wy_seqToArrowParams seq h hb) fun _ _ _ _ h1 _ _ => (by wy : Wy R _).out _ _ _ h1

theorem seqWords_dots {n : Node} (hd : Dots (Spell.node n)) : ∀ (l : List Node) (ws : List Mark), n ∈ l → seqWords l ws →
    Mark.punct .ellipsis ∈ ws
  | [], _, h, _ => nomatch h
  | a :: l, ws, h, hw => by
    obtain ⟨w1, w2, rfl, h1, w3, w4, rfl, _, h4⟩ := hw
    rcases List.mem_cons.1 h with rfl | h
    · exact List.mem_append_left _ (hd _ h1)
    · exact List.mem_append_right _ (List.mem_append_right _ (seqWords_dots hd l w4 h h4))

instance wy_parseSeqOrArrow [hr : RecWy R r] : Wy R (parseSeqOrArrow r) := by
  unfold parseSeqOrArrow
  constructor
  intro s past w h
  have := hr.spells
  have := hr.fr
  refine Wp.still h fun _ s1 _ _ _ h1 => Wp.consume h1 fun _ s2 w2 _ h2 _ => Wp.bind (Wp.reads h2 inferInstance inferInstance
    (untilPuncOrRest_reads (p := .rParen) (fun h => nomatch h) (I := itemWords) ⟨rfl, fun _ => rfl⟩ (fun c _ hc => seqItem_reads hr.spells c hc)
      (seqItem_rest hr.spells) w2.c)) fun items s3 p3 w3 h3 _ hq => Wp.consume h3 fun _ s4 w4 hw h4 _ => Wp.cur (Wp.ite (fun _ => ?_) fun _ =>
    (by wy : Wy R _).out _ _ _ h4)
  obtain ⟨_, ms, text, text', hp, hi⟩ := hq
  refine wy_seqToArrow h4 ⟨⟨w3.nl, p3, by rw [← hw]⟩, fun n hn hd => ?_⟩
  obtain ⟨u, hu, hc⟩ := passes_mem hp (seqWords_dots hd _ _ hn hi.1)
  exact ⟨u, List.mem_cons_of_mem _ hu, hc⟩

instance wy_arrayItem [RecWy R r] : Wy R (arrayItem r) := by
  unfold arrayItem; wy

instance wy_parseArrayLitExpr [RecWy R r] : Wy R (parseArrayLitExpr r) := by
  unfold parseArrayLitExpr; wy

instance wy_parseMethodDefinition {key : PropertyKey} {kind : PropKind} {async generator computed : Bool} [RecWy R r] : Wy R (parseMethodDefinition r key kind async generator computed) := by
  unfold parseMethodDefinition; wy

/-- from a place where the next word may be looked at -/
def WyLook (R : Src) {α : Type} (m : PM α) : Prop :=
  ∀ s past w, Here R s past w → (∃ v ∈ lookWords, w.c = .name v) → Wp R m s past w fun _ _ _ _ => True

theorem wy_accessorHead [RecWy R r] {n k} : WyLook R (accessorHead r n k) := by
  unfold accessorHead
  intro s past w h hl
  exact Wp.peek h hl fun t s' _ _ h' => (by wy : Wy R _).out _ _ _ h'

theorem wy_asyncHead [RecWy R r] : WyLook R (asyncHead r) := by
  unfold asyncHead
  intro s past w h hl
  exact Wp.peek h hl fun t s' _ _ h' => (by wy : Wy R _).out _ _ _ h'

instance wy_propHead [RecWy R r] : Wy R (propHead r) := by
  unfold propHead
  constructor
  intro s past w h
  refine Wp.cur (Wp.ite (fun hi => wy_accessorHead s past w h ⟨_, ?_, h.cur.isId hi⟩) fun _ => Wp.ite
    (fun hi => wy_accessorHead s past w h ⟨_, ?_, h.cur.isId hi⟩) fun _ => Wp.ite
    (fun hi => wy_asyncHead s past w h ⟨_, ?_, h.cur.isId hi⟩) fun _ => (by wy : Wy R _).out _ _ _ h) <;> simp

instance wy_propKey [RecWy R r] : Wy R (propKey r) := by
  unfold propKey; wy

instance wy_propRest {key : PropertyKey} {computed : Bool} {kind : PropKind} {async generator : Bool} [RecWy R r] : Wy R (propRest r key computed kind async generator) := by
  unfold propRest; wy

instance wy_objectItem [RecWy R r] : Wy R (objectItem r) := by
  unfold objectItem; wy

instance wy_parseObjectLitExpr [RecWy R r] : Wy R (parseObjectLitExpr r) := by
  unfold parseObjectLitExpr; wy

instance wy_identName {x0 : Node}  : Wy R (identName x0) := by
  unfold identName; wy

instance wy_parseAsyncPrimaryExpr [RecWy R r] : Wy R (parseAsyncPrimaryExpr r) := by
  unfold parseAsyncPrimaryExpr; wy

instance wy_parseLiteral  : Wy R (parseLiteral) := by
  unfold parseLiteral; wy

instance wy_parseRegex  : Wy R (parseRegex) := by
  unfold parseRegex; wy

instance wy_parseThis  : Wy R (parseThis) := by
  unfold parseThis; wy

instance wy_parsePrimaryExpr [RecWy R r] : Wy R (parsePrimaryExpr r) := by
  unfold parsePrimaryExpr; wy

end Why
end Giron

import Verif.Proofs.Why.Primary
/-
There is a reason for every error.  (One instance per method.)
-/
namespace Giron
namespace Why
open M Giron.Parser Layout Spec
variable [Env] {R : Src} {r : Rec}

instance wy_parseComputedMemberExpr {object : Node} [RecWy R r] : Wy R (parseComputedMemberExpr r object) := by
  unfold parseComputedMemberExpr; wy

instance wy_parseStaticMemberExpr {object : Node}  : Wy R (parseStaticMemberExpr object) := by
  unfold parseStaticMemberExpr; wy

instance wy_parseSuper  : Wy R (parseSuper) := by
  unfold parseSuper; wy

theorem wy_memberLoopF [RecWy R r] (n : Nat) : ∀ (x1 : Node), Wy R (memberLoopF r n x1) := by
  induction n with
  | zero => intro x1 ; exact wy_still (hm := still_fuel)
  | succ n ih => intro x1 ; unfold memberLoopF; wy

instance wy_memberLoopF' [RecWy R r] {n : Nat} {x1 : Node} : Wy R (memberLoopF r n x1) := wy_memberLoopF n x1

instance wy_parseMemberHead [RecWy R r] : Wy R (parseMemberHead r) := by
  unfold parseMemberHead; wy

instance wy_parseMemberExpr [RecWy R r] : Wy R (parseMemberExpr r) := by
  unfold parseMemberExpr; wy

theorem wy_callLoopF [RecWy R r] (n : Nat) : ∀ (x1 : Node), Wy R (callLoopF r n x1) := by
  induction n with
  | zero => intro x1 ; exact wy_still (hm := still_fuel)
  | succ n ih => intro x1 ; unfold callLoopF; wy

instance wy_callLoopF' [RecWy R r] {n : Nat} {x1 : Node} : Wy R (callLoopF r n x1) := wy_callLoopF n x1

instance wy_parseCallExprTail {callee : Node} [RecWy R r] : Wy R (parseCallExprTail r callee) := by
  unfold parseCallExprTail; wy

instance wy_parseCallHead [RecWy R r] : Wy R (parseCallHead r) := by
  unfold parseCallHead; wy

instance wy_parseCallExpr [RecWy R r] : Wy R (parseCallExpr r) := by
  unfold parseCallExpr; wy

instance wy_parseNewTarget {newTok : Token} {span : Span}  : Wy R (parseNewTarget newTok span) := by
  unfold parseNewTarget; wy

instance wy_parseNewCallee [RecWy R r] : Wy R (parseNewCallee r) := by
  unfold parseNewCallee; wy

instance wy_parseNewExpr [RecWy R r] : Wy R (parseNewExpr r) := by
  unfold parseNewExpr; wy

instance wy_parseLeftHandSideExpr [RecWy R r] : Wy R (parseLeftHandSideExpr r) := by
  unfold parseLeftHandSideExpr; wy

theorem isUpdateOp_word {t : Token} {c : Content} (h : IsTok t c) (hu : t.isUpdateOp = true) : c = .punct .inc ∨ c = .punct .dec := by
  unfold Token.isUpdateOp at hu
  split at hu
  · next hv => exact .inl (h.punc (by simp [Token.matchesPunc, hv]))
  · next hv => exact .inr (h.punc (by simp [Token.matchesPunc, hv]))
  · cases hu

theorem wy_parsePrefixUpdate [RecWy R r] {s : Parser} {past : List Word} {w : Word} (h : Here R s past w)
    (hu : s.current.isUpdateOp = true) : Wp R (parsePrefixUpdate r) s past w fun _ _ _ _ => True := by
  have hw := isUpdateOp_word h.cur hu
  unfold parsePrefixUpdate advanceStr
  refine Wp.still h fun _ s1 e1 _ _ h1 => ?_
  rw [bind_assoc]
  refine Wp.advance h1 fun s2 w2 h2 _ => Wp.still h2 fun _ s3 _ _ _ h3 => Wp.cur (Wp.step h3 fun _ s4 p4 w4 h4 l4 => Wp.ite (fun _ => ?_)
    fun _ => (by wy : Wy R _).out _ _ _ h4)
  refine Wp.err' ?_
  obtain ⟨text, _, ho⟩ := h4.place
  have hm : w ∈ w4 :: p4 := l4.subset (by simp)
  rcases List.mem_cons.1 hm with rfl | hm
  · obtain ⟨text, _, ho⟩ := h3.place
    exact ⟨_, w2, text, ho, w, List.mem_cons_self, hw⟩
  · exact ⟨p4, w4, text, ho, w, hm, hw⟩

instance wy_parsePostfix [RecWy R r] : Wy R (parsePostfix r) := by
  unfold parsePostfix
  refine wy_bind inferInstance fun _ => wy_bind inferInstance fun t => wy_bind inferInstance fun e => ?_
  constructor
  intro s past w h
  refine Wp.get (Wp.ite (fun hc => Wp.ite (fun _ => ?_) fun _ => (by wy : Wy R _).out _ _ _ h) fun _ => Wp.last h)
  obtain ⟨text, hs, _⟩ := h.place
  exact Wp.err h ⟨isUpdateOp_word h.cur hc.2, hs.no hc.1⟩

instance wy_parseUpdateExpr [RecWy R r] : Wy R (parseUpdateExpr r) := by
  unfold parseUpdateExpr
  constructor
  intro s past w h
  exact Wp.cur (Wp.ite (fun hu => wy_parsePrefixUpdate h hu) fun _ => Wp.last h)

instance wy_parseUnaryOp [RecWy R r] : Wy R (parseUnaryOp r) := by
  unfold parseUnaryOp; wy

instance wy_parseUnaryExpr [RecWy R r] : Wy R (parseUnaryExpr r) := by
  unfold parseUnaryExpr; wy

instance wy_parsePow [RecWy R r] : Wy R (parsePow r) := by
  unfold parsePow; wy

instance wy_parseExponentiationExpr [RecWy R r] : Wy R (parseExponentiationExpr r) := by
  unfold parseExponentiationExpr; wy

theorem wy_climbInnerF {opPrec : Nat} [RecWy R r] (n : Nat) : ∀ (x1 : Node), Wy R (climbInnerF r opPrec n x1) := by
  induction n with
  | zero => intro x1 ; exact wy_still (hm := still_fuel)
  | succ n ih => intro x1 ; unfold climbInnerF; wy

instance wy_climbInnerF' {opPrec : Nat} [RecWy R r] {n : Nat} {x1 : Node} : Wy R (climbInnerF r opPrec n x1) := wy_climbInnerF n x1

instance wy_climbStep {lhs : Node} [RecWy R r] : Wy R (climbStep r lhs) := by
  unfold climbStep; wy

theorem wy_climbF {prec : Nat} [RecWy R r] (n : Nat) : ∀ (x1 : Node), Wy R (climbF r prec n x1) := by
  induction n with
  | zero => intro x1 ; exact wy_still (hm := still_fuel)
  | succ n ih => intro x1 ; unfold climbF; wy

instance wy_climbF' {prec : Nat} [RecWy R r] {n : Nat} {x1 : Node} : Wy R (climbF r prec n x1) := wy_climbF n x1

instance wy_precedenceClimbing {lhs : Node} {prec : Nat} [RecWy R r] : Wy R (precedenceClimbing r lhs prec) := by
  unfold precedenceClimbing; wy

instance wy_parseBinaryExpr [RecWy R r] : Wy R (parseBinaryExpr r) := by
  unfold parseBinaryExpr; wy

instance wy_parseConditionalExpr [RecWy R r] : Wy R (parseConditionalExpr r) := by
  unfold parseConditionalExpr; wy

instance wy_parseSingleParamArrow {name : Str} [RecWy R r] : Wy R (parseSingleParamArrow r name) := by
  unfold parseSingleParamArrow; wy

instance wy_parseYieldExpr [RecWy R r] : Wy R (parseYieldExpr r) := by
  unfold parseYieldExpr; wy

instance wy_arrowIfIdentifier {lhs : Node} [RecWy R r] : Wy R (arrowIfIdentifier r lhs) := by
  unfold arrowIfIdentifier; wy

theorem wy_parseAssignTail {lhs : Node} [RecWy R r] {s : Parser} {past : List Word} {w : Word} (h : Here R s past w)
    (hw : w.c = .punct .assign) (hd : Dots (Spell.node lhs) → ∃ u ∈ past, u.c = .punct .ellipsis) :
    Wp R (parseAssignTail r lhs) s past w fun _ _ _ _ => True := by
  unfold parseAssignTail
  have hf : First (.punct .assign) (w :: past) := ⟨w.nl, past, by rw [← hw]⟩
  have hl : ∀ w1, reason R.module (w :: past) w1 .invalidLhsInAssignment := fun w1 => .inl ⟨.assign, .inl (by decide), hf⟩
  exact Wp.advance h fun s1 w1 h1 _ => Wp.convert (a := true) h1 (cx_toAssignmentPattern lhs)
    (fun h => let ⟨u, hu, hc⟩ := hd h; ⟨⟨u, List.mem_cons_of_mem _ hu, hc⟩, .inl hf⟩) (fun _ => hl w1) fun v _ =>
    Wp.ite (fun _ => Wp.err h1 (hl w1)) fun _ => (by wy : Wy R _).out _ _ _ h1

theorem isAssignOp_word {t : Token} {c : Content} (h : IsTok t c) (hu : t.isAssignOp = true) : ∃ p, (p.toStr ∈ assignOps ∨ p = .equal) ∧ c = .punct p := by
  have key : ∀ p : Punctuator, (p.toStr ∈ assignOps ∨ p = .equal) → t.value = .punc p → ∃ p, (p.toStr ∈ assignOps ∨ p = .equal) ∧ c = .punct p := fun p hp hv =>
    ⟨p, hp, h.punc (by simp [Token.matchesPunc, hv])⟩
  unfold Token.isAssignOp at hu
  split at hu
  all_goals first | (next hv => exact key _ (by decide) hv) | cases hu

theorem wy_parseOpAssignTail {lhs : Node} [RecWy R r] {s : Parser} {past : List Word} {w : Word} (h : Here R s past w)
    (hw : ∃ p, (p.toStr ∈ assignOps ∨ p = .equal) ∧ w.c = .punct p) :
    Wp R (parseOpAssignTail r lhs) s past w fun _ _ _ _ => True := by
  unfold parseOpAssignTail
  obtain ⟨p, hp, hw⟩ := hw
  have hf : First (.punct p) (w :: past) := ⟨w.nl, past, by rw [← hw]⟩
  exact Wp.advance h fun s1 w1 h1 _ => Wp.still h1 fun _ s2 _ _ _ h2 => Wp.ite (fun _ => Wp.err h2 (.inl ⟨p, hp, hf⟩)) fun _ =>
    (by wy : Wy R _).out _ _ _ h2

instance wy_parseAssignmentExpr [hr : RecWy R r] : Wy R (parseAssignmentExpr r) := by
  unfold parseAssignmentExpr
  constructor
  intro s past w h
  have := hr.spells
  have := hr.fr
  refine Wp.get (Wp.ite (fun _ => Wp.last h) fun _ => Wp.still h fun _ s1 _ _ _ h1 => ?_)
  refine Wp.bind (Wp.reads h1 inferInstance inferInstance (parseConditionalExpr_reads hr.spells w.c)) fun e s2 p2 w2 h2 _ hq => ?_
  obtain ⟨_, ms, text, text', hp, hi⟩ := hq
  refine Wp.bind (Wp.reads h2 inferInstance inferInstance (arrowIfIdentifier_reads hr.spells e ms hi w2.c)) fun e' s3 p3 w3 h3 l3 hq => ?_
  obtain ⟨_, ms', text1, text1', hp', hi'⟩ := hq
  refine Wp.cur (Wp.ite (fun ha => wy_parseAssignTail h3 (h3.cur.isP ha) fun hd => ?_) fun _ => Wp.ite
    (fun ha => wy_parseOpAssignTail h3 (isAssignOp_word h3.cur ha.2)) fun _ => (by wy : Wy R _).out _ _ _ h3)
  rcases List.mem_append.1 (hd _ hi') with hm | hm
  · obtain ⟨u, hu, hc⟩ := passes_mem hp hm
    exact ⟨u, (suf_of_later l3).subset hu, hc⟩
  · exact passes_mem hp' hm

end Why
end Giron

import Verif.Proofs.Why.Core
/-
There is a reason for every error.  (One instance per method.)
-/
namespace Giron
namespace Why
open M Giron.Parser Layout Spec
variable [Env] {R : Src} {r : Rec}

theorem shown_of_str {t : Token} {c : Content} {v : Str} (h : IsTok t c) (hv : t.toStr? = some v) : shown c = v := by
  obtain ⟨l, k, st, e, rfl⟩ := h
  rw [← Pos.token_shown (l := l) (k := k) (st := st) (e := e)]
  revert hv
  unfold Token.toStr?
  generalize (c.token l k st e).value = u
  cases u <;> simp [Value.toString]

instance wy_strictReservedCheck  : Wy R (strictReservedCheck) := by
  unfold strictReservedCheck
  constructor
  intro s past w h
  refine Wp.get (Wp.ite (fun hs => ?_) fun _ => Wp.pure h trivial)
  unfold Token.isStrictReservedKw
  split
  · exact fails_then (f := M.panic .tokenNotStr) h
  · next v hv =>
    refine Wp.ite (fun hb => Wp.errorCurrent h ⟨?_, h.strict hs⟩) fun _ => Wp.pure h trivial
    rw [shown_of_str h.cur hv]
    simpa [Grammar.strictReserved, or_assoc] using hb

instance wy_advanceStr {goal : LexGoal}  : Wy R (advanceStr goal) := by
  unfold advanceStr; wy

instance wy_parseIdName {goal : LexGoal}  : Wy R (parseIdName goal) := by
  unfold parseIdName; wy

instance wy_parseIdReference  : Wy R (parseIdReference) := by
  unfold parseIdReference
  refine wy_bind inferInstance fun _ => wy_bind inferInstance fun _ => ?_
  constructor
  intro s past w h
  refine Wp.get (Wp.ite (fun _ => ?_) fun _ => Wp.ite (fun hy => ?_) fun _ => Wp.ite (fun ha => ?_) fun _ => Wp.last h)
  · exact (by wy : Wy R _).out s past w h
  · exact Wp.ite (fun _ => Wp.errorCurrent h (h.cur.isKw hy)) fun _ => (by wy : Wy R _).out s past w h
  · exact Wp.ite (fun _ => Wp.errorCurrent h (h.cur.isKw ha)) fun _ => (by wy : Wy R _).out s past w h

instance wy_parseBindingId  : Wy R (parseBindingId) := by
  unfold parseBindingId; wy

instance wy_commaExpr [RecWy R r] : Wy R (commaExpr r) := by
  unfold commaExpr; wy

instance wy_parseExpression [RecWy R r] : Wy R (parseExpression r) := by
  unfold parseExpression; wy

theorem Passes.word {past past' : List Word} {w w' : Word} {text text' : Str} {ms : List Mark} {c : Content}
    (h : Passes past w text ms past' w' text') (hm : Mark.word c ∈ ms) : ∃ u ∈ past', u.c = c := by
  have key : ∀ {past w text ms past' w' text'}, Passes past w text ms past' w' text' → past <:+ past' := by
    intro past w text ms past' w' text' hp
    induction hp with
    | here => exact List.suffix_refl _
    | step _ _ _ ih => exact (List.suffix_cons _ _).trans ih
    | mark _ _ ih => exact ih
  induction h with
  | here => cases hm
  | step hc ht hp ih =>
    rcases List.mem_cons.1 hm with hm | hm
    · cases hm
      exact ⟨_, (key hp).subset List.mem_cons_self, rfl⟩
    · exact ih hm
  | mark hh _ ih =>
    rcases List.mem_cons.1 hm with hm | hm
    · subst hm
      exact hh.elim
    · exact ih hm

theorem use_strict_word {n : Node} {ms : List Mark} (h : isUseStrictLiteral n = true) (hm : Spell.node n ms) :
    ∃ c o, Mark.word c ∈ ms ∧ c = .string cs!"use strict" o := by
  unfold isUseStrictLiteral at h
  split at h
  · next value raw _ _ =>
    simp only [decide_eq_true_eq] at h
    subst h
    obtain ⟨c, rfl, h1, -, h3⟩ := hm
    cases c with
    | name v =>
      have h1 : some (nameToken v).2 = some (.str cs!"use strict") := h1
      rcases h3 v rfl with rfl | rfl | rfl <;> exact absurd h1 (by decide)
    | string v o => cases h1; exact ⟨_, o, List.mem_cons_self, rfl⟩
    | _ => cases h1
  · cases h

instance wy_parseDirective [hr : RecWy R r] : Wy R (parseDirective r) := by
  unfold parseDirective
  refine wy_bind inferInstance fun _ => ?_
  constructor
  intro s past w h
  have := hr.fr
  refine (Wp.reads h inferInstance inferInstance (parseExpression_reads hr.spells w.c)).bind fun e s1 past1 w1 h1 l1 hq => ?_
  obtain ⟨-, ms, text, text', hp, hm⟩ := hq
  by_cases he : isUseStrictLiteral e = true
  · simp only [M.when, if_pos he]
    refine Wp.setCtx h1 (fun _ => ?_) fun h2 => (by wy : Wy R _).out _ _ _ h2
    obtain ⟨c, o, hc, rfl⟩ := use_strict_word he hm
    obtain ⟨u, hu, hc⟩ := Passes.word hp hc
    exact .inr (.inr ⟨u, List.mem_cons_of_mem _ hu, o, hc⟩)
  · simp only [M.when, if_neg he]
    exact (by wy : Wy R _).out _ _ _ h1

instance wy_directiveProloguesF [RecWy R r] {n : Nat} : Wy R (directiveProloguesF r n) := by
  induction n with
  | zero => exact wy_still (hm := still_fuel)
  | succ n ih => unfold directiveProloguesF; wy

instance wy_parseDirectivePrologues [RecWy R r] : Wy R (parseDirectivePrologues r) := by
  unfold parseDirectivePrologues; wy

instance wy_parseStatementList [RecWy R r] : Wy R (parseStatementList r) := by
  unfold parseStatementList; wy

instance wy_parseFunctionBodyBlock [RecWy R r] : Wy R (parseFunctionBodyBlock r) := by
  unfold parseFunctionBodyBlock
  refine wy_bind inferInstance fun _ => wy_bind inferInstance fun _ => ?_
  constructor
  intro s past w h
  refine Wp.get (Wp.step h fun _ s1 p1 w1 h1 l1 => Wp.get (Wp.step h1 fun _ s2 p2 w2 h2 l2 => Wp.step h2 fun _ s3 p3 w3 h3 l3 =>
    Wp.step h3 fun _ s4 p4 w4 h4 l4 => ?_))
  refine Wp.setCtx (f := fun x => { x.ctx with strict := s.ctx.strict }) h4 (fun hs => ?_) fun h5 => (by wy : Wy R _).out _ _ _ h5
  exact madeStrict_mono (h.strict hs) (l1.trans (l2.trans (l3.trans l4)))

instance wy_parseFunctionBody [RecWy R r] : Wy R (parseFunctionBody r) := by
  unfold parseFunctionBody; wy

instance wy_parseArrowBody [RecWy R r] : Wy R (parseArrowBody r) := by
  unfold parseArrowBody; wy

instance wy_commaUnless {close : Punctuator}  : Wy R (commaUnless close) := by
  unfold commaUnless; wy

end Why
end Giron

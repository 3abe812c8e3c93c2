import Verif.Proofs.Why.Expr
/-
There is a reason for every error.  (One instance per method.)
-/
namespace Giron
namespace Why
open M Giron.Parser Layout Spec
variable [Env] {R : Src} {r : Rec}


/-- a declaration was begun -/
abbrev Declares (l : List Word) : Prop := Seen cs!"var" l ∨ Seen cs!"let" l ∨ Seen cs!"const" l

/-- The last of the words is the word before the one reached. -/
theorem first_of_passes {past past' : List Word} {w w' : Word} {text text' : Str} {ms : List Mark} {c : Content}
    (h : Passes past w text ms past' w' text') : ∀ l, ms = l ++ [.word c] → First c past' := by
  induction h with
  | here => intro l e; simp at e
  | @step past past' w w1 w' text text1 text' ms hc ht hp ih =>
    intro l e
    cases l with
    | nil =>
      cases e
      cases hp
      exact ⟨w.nl, past, rfl⟩
    | cons a l => exact ih l (List.cons.inj e).2
  | @mark past past' w w' text text' m ms hm hp ih =>
    intro l e
    cases l with
    | nil =>
      cases e
      cases hm
    | cons a l => exact ih l (List.cons.inj e).2

theorem first_of_pun {p : Punctuator} {A B : Lang} {past past' : List Word} {w w' : Word} {text text' : Str} {ms : List Mark}
    (h : Passes past w text ms past' w' text') (hl : (A.cat (B.cat (Lang.pun p))) ms) : First (.punct p) past' := by
  obtain ⟨a, b, rfl, _, c, d, rfl, _, rfl⟩ := hl
  exact first_of_passes h (a ++ c) (by rw [List.append_assoc])

/-- after what is bound -/
theorem Wp.bound {β : Type} {s : Parser} {past : List Word} {w : Word} {Q : β → Parser → List Word → Word → Prop} [hr : RecWy R r]
    {k : Binding → PM β} (h : Here R s past w)
    (hk : ∀ b s' past' w', Here R s' past' w' → Later past w past' w' →
      ((∃ v sp, b = .bindingIdentifier v sp) ∨ First (.punct .rBrace) past' ∨ First (.punct .rBracket) past') →
      past <:+ past' → Wp R (k b) s' past' w' Q) :
    Wp R (r.bindingIdOrPat >>= k) s past w Q := by
  refine Wp.bind (Q := fun b _ past' _ => ((∃ v sp, b = .bindingIdentifier v sp) ∨ First (.punct .rBrace) past' ∨
      First (.punct .rBracket) past') ∧ past <:+ past') ?_ fun b s' p v h1 h2 h3 => hk b s' p v h1 h2 h3.1 h3.2
  have := Wp.reads h inferInstance hr.fr.bindingIdOrPat (hr.spells.bindingIdOrPat w.c)
  refine ⟨fun b s' hm => ?_, this.bad⟩
  obtain ⟨p, v, h1, h2, h3, ms, text, text', h4, h5⟩ := this.out b s' hm
  refine ⟨p, v, h1, h2, ?_, ?_⟩
  · cases b with
    | bindingIdentifier v sp => exact .inl ⟨v, sp, rfl⟩
    | arrayPattern es sp => exact .inr (.inr (first_of_pun h4 h5))
    | objectPattern ps sp => exact .inr (.inl (first_of_pun h4 h5))
    | expression n => exact absurd rfl (hr.pattern _ _ _ hm n)
  · exact suf_of_later h2

instance wy_parseBlockStmt [RecWy R r] : Wy R (parseBlockStmt r) := by
  unfold parseBlockStmt; wy

theorem wy_parseVariableDclr [RecWy R r] : WyAt R (Before Declares) (parseVariableDclr r) := by
  unfold parseVariableDclr
  intro s past w h hd
  refine Wp.bound h fun b s1 p1 w1 h1 l1 hb hp => Wp.cur (Wp.ite (fun _ => (by wy : Wy R _).out _ _ _ h1) fun ha => ?_)
  split
  · exact Wp.pure h1 trivial
  · next hn =>
    rcases hb with ⟨v, sp, rfl⟩ | hb
    · exact absurd rfl (hn v sp)
    · exact Wp.advanceError h1 ⟨h1.cur.notP ha, hb, (inferInstance : Since Declares).more _ _ hp hd⟩

theorem wy_commaDclr [RecWy R r] : WyAt R (Before Declares) (commaDclr r) := by
  unfold commaDclr
  exact wyAt_bind (Wy.at inferInstance) fun _ => wy_parseVariableDclr

theorem wy_parseVarList [RecWy R r] : WyAt R (Before Declares) (parseVarList r) := by
  unfold parseVarList
  exact wyAt_bind wy_parseVariableDclr fun _ => wyAt_bind (wyAt_whilePunc wy_commaDclr) fun _ => Wy.at inferInstance

instance wy_parseVariableStmt [RecWy R r] : Wy R (parseVariableStmt r) := by
  unfold parseVariableStmt
  constructor
  intro s past w h
  exact Wp.still h fun _ s1 _ _ _ h1 => Wp.consumeKw h1 fun _ s2 w2 hw h2 _ =>
    Wp.bind (wyAt_withParams wy_parseVarList _ _ _ h2 (.inl ⟨_, List.mem_cons_self, hw⟩)) fun _ _ _ _ h3 _ _ => (by wy : Wy R _).out _ _ _ h3

instance wy_parseLexicalDclr [RecWy R r] : Wy R (parseLexicalDclr r) := by
  unfold parseLexicalDclr
  constructor
  intro s past w h
  refine Wp.still h fun _ s1 _ _ _ h1 => Wp.cur (Wp.bind (Q := fun _ _ past' _ => Declares past') ?_ fun _ s2 p2 w2 h2 _ hd =>
    Wp.bind (wy_parseVarList _ _ _ h2 hd) fun _ _ _ _ h3 _ _ => (by wy : Wy R _).out _ _ _ h3)
  refine Wp.ite (fun _ => Wp.consumeId h1 fun _ s2 w2 hw h2 _ => Wp.pure h2 (.inr (.inl ⟨_, List.mem_cons_self, hw⟩))) fun _ =>
    Wp.ite (fun _ => Wp.consumeKw h1 fun _ s2 w2 hw h2 _ => Wp.pure h2 (.inr (.inr ⟨_, List.mem_cons_self, hw⟩))) fun _ => fails_any h1

instance wy_parseEmptyStmt  : Wy R (parseEmptyStmt) := by
  unfold parseEmptyStmt; wy

instance wy_parseExpressionStmt {expression : Node}  : Wy R (parseExpressionStmt expression) := by
  unfold parseExpressionStmt; wy

instance wy_parseElse [RecWy R r] : Wy R (parseElse r) := by
  unfold parseElse; wy

instance wy_parseIfStmt [RecWy R r] : Wy R (parseIfStmt r) := by
  unfold parseIfStmt; wy

instance wy_parseLoopBody [RecWy R r] : Wy R (parseLoopBody r) := by
  unfold parseLoopBody; wy

instance wy_optExpr {close : Punctuator} [RecWy R r] : Wy R (optExpr r close) := by
  unfold optExpr; wy

instance wy_parseForClassic {init : Option Node} [RecWy R r] : Wy R (parseForClassic r init) := by
  unfold parseForClassic; wy

instance wy_parseForIn {left : Node} [RecWy R r] : Wy R (parseForIn r left) := by
  unfold parseForIn; wy

instance wy_parseForOf {left : Node} [RecWy R r] : Wy R (parseForOf r left) := by
  unfold parseForOf; wy

theorem wy_forCommaDclr [RecWy R r] : WyAt R (Before Declares) (forCommaDclr r) := by
  unfold forCommaDclr
  exact wyAt_bind (Wy.at inferInstance) fun _ => wyAt_withParams wy_parseVariableDclr

theorem wy_parseForDclrs {kind : Str} {d : VariableDeclarator} [RecWy R r] : WyAt R (Before Declares) (parseForDclrs r kind d) := by
  unfold parseForDclrs
  exact wyAt_bind (wyAt_whilePunc wy_forCommaDclr) fun _ => Wy.at (by wy)

theorem wy_parseForInit {kind : Str} {id : Binding} [RecWy R r] : WyAt R (Before Declares) (parseForInit r kind id) := by
  unfold parseForInit
  exact wyAt_bind (Wy.at inferInstance) fun _ => wyAt_bind (Wy.at inferInstance) fun _ => wy_parseForDclrs


theorem wy_parseForVar [RecWy R r] {s : Parser} {past : List Word} {w : Word} (h : Here R s past w) (hw : w.c = .name cs!"var") :
    Wp R (parseForVar r) s past w fun _ _ _ _ => True := by
  unfold parseForVar
  refine Wp.still h fun _ s1 _ _ _ h1 => Wp.advance h1 fun s2 w2 h2 _ => ?_
  have hd : Declares (w :: past) := .inl ⟨_, List.mem_cons_self, hw⟩
  refine Wp.bound h2 fun b s3 p3 w3 h3 l3 hb hp => Wp.cur ?_
  have hd3 := (inferInstance : Since Declares).more _ _ hp hd
  refine Wp.ite (fun _ => wy_parseForInit _ _ _ h3 hd3) fun ha => Wp.ite (fun _ => (by wy : Wy R _).out _ _ _ h3) fun _ =>
    Wp.ite (fun _ => (by wy : Wy R _).out _ _ _ h3) fun _ => ?_
  split
  · exact wy_parseForDclrs _ _ _ h3 hd3
  · next hn =>
    rcases hb with ⟨v, sp, rfl⟩ | hb
    · exact absurd rfl (hn v sp)
    · exact Wp.errorCurrent h3 ⟨h3.cur.notP ha, hb, hd3⟩

instance wy_parseForKind  : Wy R (parseForKind) := by
  unfold parseForKind; wy

instance wy_parseForLexical [RecWy R r] : Wy R (parseForLexical r) := by
  unfold parseForLexical parseForKind
  constructor
  intro s past w h
  refine Wp.still h fun _ s1 _ _ _ h1 => Wp.bind (Q := fun _ _ past' w' => Declares (w' :: past')) ?_ fun _ s2 p2 w2 h2 _ hd => ?_
  · refine Wp.cur (Wp.ite (fun hc => Wp.pure h1 (.inr (.inr ⟨_, List.mem_cons_self, h1.cur.isKw hc⟩))) fun _ =>
      Wp.ite (fun hc => Wp.pure h1 (.inr (.inl ⟨_, List.mem_cons_self, h1.cur.isId hc⟩))) fun _ => fails_any h1)
  refine Wp.advance h2 fun s3 w3 h3 _ => Wp.cur (Wp.bound h3 fun b s3 p3 w3 h3 l3 hb hp => Wp.cur ?_)
  have hd3 := (inferInstance : Since Declares).more _ _ hp hd
  refine Wp.ite (fun _ => wy_parseForInit _ _ _ h3 hd3) fun ha => Wp.ite (fun _ => (by wy : Wy R _).out _ _ _ h3) fun _ =>
    Wp.ite (fun _ => (by wy : Wy R _).out _ _ _ h3) fun _ => ?_
  split
  · exact wy_parseForDclrs _ _ _ h3 hd3
  · next hn =>
    rcases hb with ⟨v, sp, rfl⟩ | hb
    · exact absurd rfl (hn v sp)
    · exact Wp.err h3 ⟨h3.cur.notP ha, hb, hd3⟩

theorem cx_forTarget {e : Node} : Cx true (Spell.node e) (forTarget e) := by
  unfold forTarget
  split
  · exact cx_toAssignmentPattern _
  · exact cx_toAssignmentPattern _
  · exact .ok

theorem wy_parseForTarget {expr : Node} {s : Parser} {past : List Word} {w : Word} (h : Here R s past w)
    (hw : w.c = .name cs!"in") (hf : Seen cs!"for" past) (hd : Dots (Spell.node expr) → ∃ u ∈ past, u.c = .punct .ellipsis) :
    Wp R (parseForTarget expr) s past w fun _ _ _ _ => True := by
  unfold parseForTarget
  exact Wp.still h fun _ s1 _ _ _ h1 => Wp.convert h1 cx_forTarget (fun h => ⟨hd h, .inr (.inr ⟨hw, hf⟩)⟩) (fun _ => .inr ⟨hw, hf⟩)
    fun n _ => Wp.ite (fun _ => Wp.advanceError h1 ⟨hw, hf⟩) fun _ => Wp.pure h1 trivial

instance wy_forCommaExpr [RecWy R r] : Wy R (forCommaExpr r) := by
  unfold forCommaExpr; wy

theorem notKw_of {c : Content} {t : Token} (h : IsTok t c) : t.isKw cs!"of" = false := by
  cases hb : t.isKw cs!"of" with
  | false => rfl
  | true =>
    have := h.isKw hb
    subst this
    obtain ⟨l, k, st, e, rfl⟩ := h
    cases hb

theorem wy_parseForExpr [hr : RecWy R r] : WyAt R (Before (Seen cs!"for")) (parseForExpr r) := by
  unfold parseForExpr
  intro s past w h hd
  have := hr.spells
  have := hr.fr
  refine Wp.still h fun _ s1 _ _ _ h1 => Wp.cur (Wp.ite (fun _ => Wp.last h1) fun _ => Wp.bind (Wp.reads h1 inferInstance inferInstance
    (.withIn (hr.spells.assignmentExpr w.c))) fun e s2 p2 w2 h2 l2 hq => Wp.cur ?_)
  obtain ⟨_, ms, text, text', hp, hi⟩ := hq
  refine Wp.ite (fun hi' => Wp.bind (wy_parseForTarget h2 (h2.cur.isKw hi') (seen_mono hd (suf_of_later l2)) fun hd => passes_mem hp (hd _ hi))
      fun _ _ _ _ h3 _ _ => Wp.last h3) fun _ =>
    Wp.ite (fun hi => by rw [notKw_of h2.cur] at hi; cases hi) fun _ => (by wy : Wy R _).out _ _ _ h2

instance wy_parseForStmt [RecWy R r] : Wy R (parseForStmt r) := by
  unfold parseForStmt
  constructor
  intro s past w h
  refine Wp.still h fun _ s1 _ _ _ h1 => Wp.consumeKw h1 fun _ s2 w2 hw h2 _ => Wp.consume h2 fun _ s3 w3 _ h3 _ => Wp.cur
    (Wp.ite (fun hv => wy_parseForVar h3 (h3.cur.isKw hv)) fun _ => Wp.ite (fun _ => Wp.last h3) fun _ =>
      wy_parseForExpr _ _ _ h3 ⟨_, List.mem_cons_of_mem _ List.mem_cons_self, hw⟩)

instance wy_parseWhileStmt [RecWy R r] : Wy R (parseWhileStmt r) := by
  unfold parseWhileStmt; wy

instance wy_parseDoWhileStmt [RecWy R r] : Wy R (parseDoWhileStmt r) := by
  unfold parseDoWhileStmt; wy

instance wy_parseIterationStmt [RecWy R r] : Wy R (parseIterationStmt r) := by
  unfold parseIterationStmt; wy

instance wy_consequentF [RecWy R r] {n : Nat} : Wy R (consequentF r n) := by
  induction n with
  | zero => exact wy_still (hm := still_fuel)
  | succ n ih => unfold consequentF; wy

instance wy_parseConsequent [RecWy R r] : Wy R (parseConsequent r) := by
  unfold parseConsequent; wy

theorem wy_parseCaseTest {firstDefault : Bool} [RecWy R r] {s : Parser} {past : List Word} {w : Word} (h : Here R s past w)
    (hs : Seen cs!"switch" past) (hd : firstDefault = false → Seen cs!"default" past) :
    Wp R (parseCaseTest r firstDefault) s past w fun x _ past' _ => x.2 = false → Seen cs!"default" past' := by
  unfold parseCaseTest
  refine Wp.cur (Wp.ite (fun _ => ?_) fun _ => Wp.ite (fun hk => ?_) fun _ => Wp.ite (fun hk => ?_) fun _ => fails_any h)
  · exact Wp.step h fun _ _ _ _ h1 l1 => Wp.step h1 fun _ _ _ _ h2 l2 => Wp.pure h2 fun hf => seen_mono (hd hf) (suf_of_later (l1.trans l2))
  · exact Wp.advance h fun s1 w1 h1 _ => Wp.pure h1 fun _ => ⟨w, List.mem_cons_self, h.cur.isKw hk.1⟩
  · next hn =>
    refine Wp.errorCurrent h ⟨h.cur.isKw hk, hd ?_, hs⟩
    cases firstDefault
    · rfl
    · exact absurd ⟨hk, rfl⟩ hn

theorem wy_casesF [RecWy R r] (n : Nat) : ∀ (x1 : Bool) (s : Parser) (past : List Word) (w : Word), Here R s past w →
    Seen cs!"switch" past → (x1 = false → Seen cs!"default" past) → Wp R (casesF r n x1) s past w fun _ _ _ _ => True := by
  induction n with
  | zero => intro x1 s past w h _ _; exact Wp.last (hm := wy_still (hm := still_fuel)) h
  | succ n ih =>
    intro x1 s past w h hs hd
    unfold casesF
    refine (wy_parseCaseTest h hs hd).bind ?_
    rintro ⟨test, x2⟩ s1 p1 w1 h1 l1 hd1
    refine Wp.step h1 fun _ s2 p2 w2 h2 l2 => Wp.step h2 fun _ s3 p3 w3 h3 l3 => Wp.cur (Wp.ite (fun _ => Wp.last h3) fun _ => ?_)
    exact (ih x2 s3 p3 w3 h3 (seen_mono hs (suf_of_later (l1.trans (l2.trans l3)))) fun hf =>
      seen_mono (hd1 hf) (suf_of_later (l2.trans l3))).bind fun _ _ _ _ h4 _ _ => Wp.last h4

theorem wy_parseSwitchInner [RecWy R r] : WyAt R (Before (Seen cs!"switch")) (parseSwitchInner r) := by
  unfold parseSwitchInner
  refine wyAt_bind (Wy.at inferInstance) fun _ => wyAt_bind (Wy.at inferInstance) fun _ => wyAt_bind (Wy.at inferInstance) fun _ =>
    wyAt_bind (Wy.at inferInstance) fun _ => wyAt_bind ?_ fun _ => Wy.at (by wy)
  intro s past w h hd
  have := wy_casesF (r := r) (s.size + 1) true s past w h hd (fun hf => by cases hf)
  exact ⟨this.out, this.bad⟩

instance wy_parseSwitchStmt [RecWy R r] : Wy R (parseSwitchStmt r) := by
  unfold parseSwitchStmt
  constructor
  intro s past w h
  refine Wp.still h fun _ s1 _ _ _ h1 => Wp.consumeKw h1 fun _ s2 w2 hw h2 _ => Wp.get (Wp.step h2 fun _ s3 p3 w3 h3 l3 => ?_)
  exact (wy_parseSwitchInner _ _ _ h3 (seen_mono ⟨_, List.mem_cons_self, hw⟩ (suf_of_later l3))).bind fun _ _ _ _ h4 _ _ =>
    (by wy : Wy R _).out _ _ _ h4

theorem wy_parseLabelOpt {s : Parser} {past : List Word} {w : Word} (h : Here R s past w) :
    Wp R parseLabelOpt s past w fun l _ past' w' => l.isNone = true → past' = past ∧ w' = w := by
  unfold parseLabelOpt
  exact Wp.get (Wp.ite (fun _ => Wp.step h fun _ _ _ _ h1 _ => Wp.pure h1 fun hn => by cases hn) fun _ => Wp.pure h fun _ => ⟨rfl, rfl⟩)

instance wy_parseContinueStmt : Wy R parseContinueStmt := by
  unfold parseContinueStmt
  constructor
  intro s past w h
  refine Wp.still h fun _ s1 _ _ _ h1 => Wp.consumeKw h1 fun _ s2 w2 hw h2 _ => (wy_parseLabelOpt h2).bind fun l s3 p3 w3 h3 _ hl =>
    Wp.get (Wp.ite (fun hn => ?_) fun _ => (by wy : Wy R _).out _ _ _ h3)
  obtain ⟨rfl, rfl⟩ := hl hn.1
  exact Wp.errorCurrent h3 ⟨w.nl, past, by rw [← hw]⟩

instance wy_parseBreakStmt : Wy R parseBreakStmt := by
  unfold parseBreakStmt
  constructor
  intro s past w h
  refine Wp.still h fun _ s1 _ _ _ h1 => Wp.consumeKw h1 fun _ s2 w2 hw h2 _ => (wy_parseLabelOpt h2).bind fun l s3 p3 w3 h3 _ hl =>
    Wp.get (Wp.ite (fun hn => ?_) fun _ => (by wy : Wy R _).out _ _ _ h3)
  obtain ⟨rfl, rfl⟩ := hl hn.1
  exact Wp.errorCurrent h3 ⟨w.nl, past, by rw [← hw]⟩

instance wy_parseReturnArg [RecWy R r] : Wy R (parseReturnArg r) := by
  unfold parseReturnArg; wy

instance wy_parseReturnStmt [RecWy R r] : Wy R (parseReturnStmt r) := by
  unfold parseReturnStmt; wy

theorem wy_parseReturn [RecWy R r] {s : Parser} {past : List Word} {w : Word} (h : Here R s past w) (hw : w.c = .name cs!"return") :
    Wp R (parseReturn r) s past w fun _ _ _ _ => True := by
  unfold parseReturn
  exact Wp.get (Wp.ite (fun _ => Wp.last h) fun _ => Wp.advanceError h hw)

theorem wy_parseWithStmt [RecWy R r] {s : Parser} {past : List Word} {w : Word} (h : Here R s past w) (hw : w.c = .name cs!"with") :
    Wp R (parseWithStmt r) s past w fun _ _ _ _ => True := by
  unfold parseWithStmt
  exact Wp.get (Wp.ite (fun hs => Wp.errorCurrent h ⟨hw, h.strict hs⟩) fun _ => (by wy : Wy R _).out _ _ _ h)

instance wy_parseThrowStmt [RecWy R r] : Wy R (parseThrowStmt r) := by
  unfold parseThrowStmt
  constructor
  intro s past w h
  refine Wp.still h fun _ s1 _ _ _ h1 => Wp.consumeKw h1 fun _ s2 w2 hw h2 _ =>
    Wp.get (Wp.ite (fun _ => (by wy : Wy R _).out _ _ _ h2) fun hn => ?_)
  obtain ⟨text, hst, _⟩ := h2.place
  exact Wp.errorCurrent h2 ⟨⟨w.nl, past, by rw [← hw]⟩, hst.yes (by simpa using hn)⟩

instance wy_parseCatchParam [RecWy R r] : Wy R (parseCatchParam r) := by
  unfold parseCatchParam; wy

instance wy_parseCatchClause [RecWy R r] : Wy R (parseCatchClause r) := by
  unfold parseCatchClause; wy

instance wy_parseFinallyClause [RecWy R r] : Wy R (parseFinallyClause r) := by
  unfold parseFinallyClause; wy

instance wy_parseTryStmt [RecWy R r] : Wy R (parseTryStmt r) := by
  unfold parseTryStmt; wy

instance wy_parseDebuggerStmt  : Wy R (parseDebuggerStmt) := by
  unfold parseDebuggerStmt; wy

theorem wy_parseGeneratorMark {allowGenerator : Bool} {s : Parser} {past : List Word} {w : Word} (h : Here R s past w)
    (hf : First (.name cs!"function") past) : Wp R (parseGeneratorMark allowGenerator) s past w fun _ _ past' _ =>
      First (.name cs!"function") past' ∨ ∃ n more, past' = ⟨.punct .star, n⟩ :: more ∧ First (.name cs!"function") more := by
  unfold parseGeneratorMark
  refine Wp.cur (Wp.ite (fun hs => Wp.ite (fun _ => Wp.errorCurrent h ⟨h.cur.isP hs, hf⟩) fun _ => Wp.advance h fun s1 w1 h1 _ =>
    Wp.pure h1 (.inr ⟨w.nl, past, ?_, hf⟩)) fun _ => Wp.pure h (.inl hf))
  rw [← h.cur.isP hs]

theorem wy_parseFunctionName {s : Parser} {past : List Word} {w : Word} (h : Here R s past w)
    (hf : First (.name cs!"function") past ∨ ∃ n more, past = ⟨.punct .star, n⟩ :: more ∧ First (.name cs!"function") more) :
    Wp R parseFunctionName s past w fun _ _ _ _ => True := by
  unfold parseFunctionName
  exact Wp.get (Wp.ite (fun hs => Wp.ite (fun _ => Wp.errorCurrent h ⟨h.cur.isP hs, hf⟩) fun _ => Wp.last h) fun _ =>
    (by wy : Wy R _).out _ _ _ h)

instance wy_parseFunctionDclrRest {async allowGenerator : Bool} [RecWy R r] : Wy R (parseFunctionDclrRest r async allowGenerator) := by
  unfold parseFunctionDclrRest
  constructor
  intro s past w h
  exact Wp.still h fun _ s1 _ _ _ h1 => Wp.consumeKw h1 fun _ s2 w2 hw h2 _ =>
    (wy_parseGeneratorMark h2 ⟨w.nl, past, by rw [← hw]⟩).bind fun _ s3 p3 w3 h3 _ hf =>
    (wy_parseFunctionName h3 hf).bind fun _ s4 p4 w4 h4 _ _ => (by wy : Wy R _).out _ _ _ h4

instance wy_parseFunctionDclr {async allowGenerator : Bool} [RecWy R r] : Wy R (parseFunctionDclr r async allowGenerator) := by
  unfold parseFunctionDclr; wy

instance wy_parseHoistableDclr [RecWy R r] : Wy R (parseHoistableDclr r) := by
  unfold parseHoistableDclr; wy

instance wy_parseDeclaration [RecWy R r] : Wy R (parseDeclaration r) := by
  unfold parseDeclaration; wy

theorem wy_parseLabelBody [RecWy R r] {s : Parser} {past : List Word} {w : Word} (h : Here R s past w)
    (hc : First (.punct .colon) past) : Wp R (parseLabelBody r) s past w fun _ _ _ _ => True := by
  unfold parseLabelBody
  exact Wp.get (Wp.ite (fun hf => Wp.ite (fun hs => Wp.errorCurrent h ⟨h.cur.isKw hf, hc, h.strict hs⟩) fun _ => Wp.last h) fun _ =>
    Wp.last h)

instance wy_parseLabelledStmt {label : Identifier} [RecWy R r] : Wy R (parseLabelledStmt r label) := by
  unfold parseLabelledStmt
  constructor
  intro s past w h
  exact Wp.consume h fun _ s1 w1 hw h1 _ => (wy_parseLabelBody h1 ⟨w.nl, past, by rw [← hw]⟩).bind fun _ _ _ _ h2 _ _ =>
    (by wy : Wy R _).out _ _ _ h2

instance wy_parseExpressionOrLabelled [RecWy R r] : Wy R (parseExpressionOrLabelled r) := by
  unfold parseExpressionOrLabelled; wy

theorem wy_parseAsyncItem [RecWy R r] : WyLook R (parseAsyncItem r) := by
  unfold parseAsyncItem
  intro s past w h hl
  exact Wp.still h fun _ s1 _ _ _ h1 => Wp.cur (Wp.peek h1 hl fun t s2 _ _ h2 => (by wy : Wy R _).out _ _ _ h2)

instance wy_parseStmtListItem [RecWy R r] : Wy R (parseStmtListItem r) := by
  unfold parseStmtListItem
  constructor
  intro s past w h
  refine Wp.cur ?_
  iterate 8
    refine Wp.ite (fun _ => Wp.last h) fun _ => ?_
  refine Wp.ite (fun hc => wy_parseReturn h (h.cur.isKw hc)) fun _ => Wp.ite (fun hc => wy_parseWithStmt h (h.cur.isKw hc)) fun _ => ?_
  iterate 3
    refine Wp.ite (fun _ => Wp.last h) fun _ => ?_
  exact Wp.ite (fun hc => wy_parseAsyncItem s past w h ⟨_, by simp, h.cur.isId hc⟩) fun _ => (by wy : Wy R _).out _ _ _ h

instance wy_parseStatement [RecWy R r] : Wy R (parseStatement r) := by
  unfold parseStatement
  constructor
  intro s past w h
  refine Wp.cur ?_
  iterate 8
    refine Wp.ite (fun _ => Wp.last h) fun _ => ?_
  refine Wp.ite (fun hc => wy_parseReturn h (h.cur.isKw hc)) fun _ => Wp.ite (fun hc => wy_parseWithStmt h (h.cur.isKw hc)) fun _ => ?_
  exact (by wy : Wy R _).out _ _ _ h

end Why
end Giron

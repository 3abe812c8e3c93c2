import Verif.Proofs.Spell.Peek
/-
The words read by the parser methods for primary expressions.
-/
namespace Giron
open M Spec Spec.Lang
namespace Parser
variable [Env] {α β : Type} {c : Content} {R : β → List Mark → Content → Prop} {r : Rec}

theorem same_words {A : Lang} {a b : List Mark} (h : A a) (e : a = b) : A b := e ▸ h

/-! ### Templates -/

theorem _root_.Giron.IsTok.template {t : Token} {c : Content} (h : IsTok t c) (ht : t.tokentype = .template) :
    ∃ raw cooked head tail, c = .template raw cooked head tail := by
  obtain ⟨l, k, st, e, rfl⟩ := h
  cases c with
  | name v =>
    simp only [Content.token, nameToken] at ht
    split at ht
    · cases ht
    · split at ht
      · cases ht
      · split at ht <;> cases ht
  | template raw cooked head tail => exact ⟨_, _, _, _, rfl⟩
  | _ => cases ht

theorem templateElementOf_reads {raw cooked : Str} {head tail : Bool} {t : Token} (ht : IsTok t (.template raw cooked head tail)) :
    Reads c (templateElementOf t) fun q w _ => w = [] ∧ q = ⟨cooked, raw, tail⟩ := by
  obtain ⟨l, k, st, e, rfl⟩ := ht
  unfold templateElementOf
  exact .unwrap fun a ha => .unwrap fun b hb => .pure ⟨rfl, by cases ha; cases hb; rfl⟩

theorem parseTemplateHead_reads (c : Content) : Reads c parseTemplateHead fun q w _ => Spell.quasi true q w := by
  unfold parseTemplateHead
  refine .cur fun t ht => .ite (fun h => .ite (fun hh => ?_) fun _ => .fails) fun _ => .fails
  obtain ⟨raw, cooked, head, tail, rfl⟩ := ht.template h
  obtain ⟨l, k, st, e, rfl⟩ := ht
  refine .advance fun t' c' ht' => (templateElementOf_reads ht').mono ?_
  rintro q w _ ⟨rfl, rfl⟩
  exact ⟨_, rfl, head, rfl, fun _ => by cases hh; rfl⟩

theorem parseTemplateElement_reads (c : Content) : Reads c parseTemplateElement fun q w _ => Spell.quasi false q w := by
  unfold parseTemplateElement
  refine .cur fun t ht => .ite (fun h => ?_) fun _ => .fails
  obtain ⟨raw, cooked, head, tail, rfl⟩ := ht.template h
  refine .advance fun t' c' ht' => (templateElementOf_reads ht').mono ?_
  rintro q w _ ⟨rfl, rfl⟩
  exact ⟨_, rfl, head, rfl, fun h => nomatch h⟩

theorem templateLoopF_reads (hr : RecSpells r) (n : Nat) (isTail : Bool) (c : Content) : Reads c (templateLoopF r n isTail) fun x ws _ =>
    ∀ q first w, Spell.quasi first q w → Spell.template first (q :: x.1) x.2 (w ++ ws) := by
  induction n generalizing isTail c with
  | zero => exact Reads.fails (m := M.fail .fuel)
  | succ n ih =>
    unfold templateLoopF
    refine .ite (fun _ => .pure fun q first w h => ?_) fun _ => .bind (.withIn (parseExpression_reads hr c)) fun e w c he =>
      .bind (parseTemplateElement_reads c) fun q w' c hq => .bind (ih q.tail c) fun ⟨qs, es⟩ ws c h => .pure fun q' first w' h' => ?_
    · rw [List.append_nil]; exact h
    · rw [List.append_nil]; exact sq h' (sq he (h q false _ hq))

theorem parseTemplateParts_reads (hr : RecSpells r) (c : Content) : Reads c (parseTemplateParts r) fun x ws _ =>
    Spell.template true x.1 x.2.1 ws := by
  unfold parseTemplateParts
  refine .quiet fun _ => .bind (parseTemplateHead_reads c) fun q w c hq => .bind (Q := fun (x : List TemplateElement × List Node) ws _ =>
    ∀ q first w, Spell.quasi first q w → Spell.template first (q :: x.1) x.2 (w ++ ws))
    (fun s text a s' hs hm => templateLoopF_reads hr _ _ c s text a s' hs hm) fun ⟨qs, es⟩ ws c h => .quiet fun _ => .pure ?_
  rw [List.append_nil]
  exact h q true w hq

theorem parseTemplateLiteral_reads (hr : RecSpells r) : Spells (parseTemplateLiteral r) Spell.node := by
  intro c
  unfold parseTemplateLiteral
  exact .bind (parseTemplateParts_reads hr c) fun ⟨qs, es, sp⟩ w c h => .pure (last (A := Spell.template true qs es) h)

theorem parseTaggedTemplate_reads (hr : RecSpells r) {tag : Node} {w : List Mark} (hw : Spell.node tag w) (c : Content) :
    Reads c (parseTaggedTemplate r tag) fun n ws _ => Spell.node n (w ++ ws) := by
  unfold parseTaggedTemplate
  exact .bind (parseTemplateParts_reads hr c) fun ⟨qs, es, sp⟩ w' c h => .pure (sq hw (last (A := Spell.template true qs es) h))

/-! ### Functions -/

theorem _root_.Giron.IsTok.noStar {t : Token} {c : Content} (h : IsTok t c) :
    (decide (t.tokentype = .punctuator) && t.matchesStr cs!"*") = false := by
  obtain ⟨l, k, st, e, rfl⟩ := h
  cases c with
  | name v =>
    simp only [Content.token, nameToken]
    split
    · rfl
    · split
      · rfl
      · split <;> rfl
  | punct p => simp [Content.token, Token.matchesStr]
  | _ => rfl

theorem parseFunctionExpr_reads (hr : RecSpells r) {async : Bool} (c : Content) : Reads c (parseFunctionExpr r async) fun n ws _ =>
    ∀ wa, (Lang.pre async (word cs!"async" ⬝ mark .joined)) wa → Spell.node n (wa ++ ws) := by
  unfold parseFunctionExpr
  refine .quiet fun _ => .consumeKw fun _ c _ _ => .cur fun t ht => .bind (Q := fun id w _ => Spell.optNode id w)
    (.ite (fun _ => .pure rfl) fun _ => .bind (parseIdReference_spells c) fun n w c h => .pure (last (A := Spell.node n) h))
    fun id w c hid => .bind (parseFormalParams_reads hr c) fun ps wp c hp => .bind (parseFunctionBody_reads hr c) fun b wb c hb =>
    .quiet fun sp => .pure fun wa hwa => ?_
  rw [ht.noStar, List.append_nil]
  exact sq hwa (tk (nil (sq hid (params_body hp.2 hb))))

/-! ### Arguments -/

theorem argument_reads (hr : RecSpells r) (c : Content) : Reads c (argument r) fun x w c' =>
    ∀ xs ws, (xs = [] ↔ c' = .punct .rParen) → Spell.arguments xs ws → Spell.arguments (x :: xs) (w ++ ws) := by
  unfold argument
  refine .cur fun t ht => .ite (fun h => .quiet fun _ => ?_) fun _ => .bind (.withIn (hr.assignmentExpr c)) fun e w c h =>
    (element_end c h).mono ?_
  · have := ht.isP h
    subst this
    refine .advance fun _ c _ => .bind (.withIn (hr.assignmentExpr c)) fun e w c h => .quiet fun sp =>
      (element_end (A := pun .ellipsis ⬝ Spell.node e) c (tk h)).mono ?_
    rintro y w2 c2 ⟨rfl, hy⟩ xs ws he hs
    exact hy xs _ ws he hs
  · rintro y w2 c2 ⟨rfl, hy⟩ xs ws he hs
    exact hy xs _ ws he hs

theorem parseArguments_reads (hr : RecSpells r) (c : Content) : Reads c (parseArguments r) fun as ws _ =>
    c = .punct .lParen ∧ (pun .lParen ⬝ Spell.arguments as ⬝ pun .rParen) ws := by
  unfold parseArguments
  exact .consume fun _ c hc _ => .bind (untilPunc_reads (p := .rParen) (I := Spell.arguments) rfl (fun c _ => argument_reads hr c) c) fun as w c h =>
    .consume fun _ _ _ _ => .pure ⟨hc, tk (sq h.1 rfl)⟩

/-! ### Parentheses -/

/-- what is in parentheses -/
def seqWords : List Node → Lang
  | [] => eps
  | n :: more => Spell.node n ⬝ Spell.commaAfter more ⬝ seqWords more

/-- what is in parentheses, and which of it has been found to be an arrow parameter -/
def itemWords (items : List (Node × Bool)) : Lang := fun ws =>
  seqWords (items.map Prod.fst) ws ∧ (items.any Prod.snd = false → Spell.commaNodes (items.map Prod.fst) ws)

theorem seqItem_reads (hr : RecSpells r) (c : Content) (hc : c ≠ .punct .ellipsis) : Reads c (seqItem r) fun x w c' =>
    ∀ xs ws, (xs = [] ↔ c' = .punct .rParen) → itemWords xs ws → itemWords (x :: xs) (w ++ ws) := by
  unfold seqItem
  refine .cur fun t ht => .ite (fun h => absurd (ht.isP h) hc) fun _ => .bind (.withIn (hr.assignmentExpr c)) fun e w c h =>
    .cur fun t ht => .ite (fun hp => .pure fun xs ws he hs => ?_) fun _ => .consume fun _ c _ _ => .cur fun t ht => .pure fun xs ws he hs => ?_
  · have := he.2 (ht.punc hp)
    subst this
    obtain ⟨rfl, _⟩ := hs
    rw [List.append_nil, List.append_nil]
    exact ⟨element_last h rfl, fun _ => ⟨w, [], by simp, h, [], [], rfl, rfl, rfl⟩⟩
  · simp only [List.append_assoc]
    refine ⟨sq h (sq (a := [.punct .comma]) ?_ hs.1), fun hx => ?_⟩
    · unfold Spell.commaAfter
      split
      · exact .inl rfl
      · rfl
    · simp only [List.any_cons, Bool.or_eq_false_iff] at hx
      have hne : xs ≠ [] := fun h0 => ht.notPunc (by rw [hx.1]; simp) (he.1 h0)
      refine sq h (sq (a := [.punct .comma]) ?_ (hs.2 hx.2))
      unfold Spell.commaBetween
      rw [if_neg (by cases xs with | nil => exact absurd rfl hne | cons => simp)]
      rfl

theorem seqItem_rest (hr : RecSpells r) : Reads (.punct .ellipsis) (seqItem r) fun x w _ => itemWords [x] w := by
  unfold seqItem
  refine .cur fun t ht => .ite (fun _ => .quiet fun _ => rest_reads hr fun b w c' hb => .quiet fun sp => .pure ?_) fun h => absurd rfl (ht.notP h)
  rw [List.append_nil]
  exact ⟨element_last (A := Spell.node (.restElement b sp)) hb rfl, fun h => nomatch h⟩

theorem nodeToParam_reads {isLast : Bool} {e : Node} (c : Content) : Reads c (nodeToParam isLast e) fun p w _ =>
    w = [] ∧ ∀ ws, Spell.node e ws → Spell.parameter p ws := by
  unfold nodeToParam
  refine .ofExcept fun pat hp => ?_
  have := Spell.toBindingPattern_keeps e pat hp
  cases pat with
  | restElement argument sp => exact .ite (fun _ => .pure ⟨rfl, this⟩) fun _ => .fails
  | _ => first | exact .pure ⟨rfl, this⟩ | exact .fails

theorem seqToArrowParams_reads (l : List Node) (c : Content) : Reads c (seqToArrowParams l) fun ps w _ =>
    w = [] ∧ ps.isEmpty = l.isEmpty ∧ ∀ ws, seqWords l ws → Spell.parameters ps ws := by
  induction l generalizing c with
  | nil => exact .pure ⟨rfl, rfl, fun _ h => h⟩
  | cons e es ih =>
    unfold seqToArrowParams
    refine .bind (nodeToParam_reads c) fun p w c hp => .bind (ih c) fun ps w' c h => .pure ?_
    obtain ⟨rfl, hp⟩ := hp
    obtain ⟨rfl, he, h⟩ := h
    refine ⟨rfl, rfl, fun ws hw => Spell.cat_mono hw hp fun _ hw => Spell.cat_mono hw (fun _ hw => ?_) h⟩
    rwa [Spell.commaAfter_eq he]

theorem seqToArrow_reads (hr : RecSpells r) {l : List Node} {w : List Mark} (hw : seqWords l w) (c : Content) :
    Reads c (seqToArrow r l) fun n ws _ => Spell.node n (.punct .lParen :: (w ++ .punct .rParen :: ws)) := by
  unfold seqToArrow
  refine .bind (seqToArrowParams_reads l c) fun ps w' c h => .consume fun _ c _ _ => .bind (parseArrowBody_reads hr c) fun ⟨b, e⟩ wb c hb =>
    .quiet fun _ => .pure ?_
  obtain ⟨rfl, _, h⟩ := h
  rw [List.append_nil]
  have h1 : (pun .lParen ⬝ Spell.parameters ps ⬝ pun .rParen) (.punct .lParen :: (w ++ [.punct .rParen])) := tk (sq (h _ hw) rfl)
  have := sq (A := Spell.arrowParams ps (Spell.parameters ps)) (.inl h1) (tk (c := .punct .fatArrow) (B := Spell.arrowBody e (Spell.node b)) hb)
  exact same_words this (by simp)

theorem parseSeqOrArrow_reads (hr : RecSpells r) : Spells (parseSeqOrArrow r) Spell.node := by
  intro c
  unfold parseSeqOrArrow
  refine .quiet fun _ => .consume fun _ c _ _ => .bind
    (untilPuncOrRest_reads (p := .rParen) (fun h => nomatch h) (I := itemWords) ⟨rfl, fun _ => rfl⟩ (fun c _ hc => seqItem_reads hr c hc) (seqItem_rest hr) c)
    fun items w c h => .consume fun _ c _ _ => .cur fun t ht => .ite (fun _ => (seqToArrow_reads hr h.1 c).mono fun n ws _ hn => hn) fun hx =>
    .quiet fun sp => .pure (.inl (tk (sq (h.2 ?_) rfl)))
  simp only [Bool.or_eq_true, not_or, Bool.not_eq_true] at hx
  exact hx.1

/-! ### Arrays -/

theorem arrayItem_reads (hr : RecSpells r) (c : Content) : Reads c (arrayItem r) fun x w c' =>
    ∀ xs ws, (xs = [] ↔ c' = .punct .rBracket) → Spell.arrayElements xs ws → Spell.arrayElements (x :: xs) (w ++ ws) := by
  unfold arrayItem
  refine .cur fun t ht => .ite (fun h => ?_) fun _ => .ite (fun h => .quiet fun _ => ?_) fun _ =>
    .bind (.withIn (hr.assignmentExpr c)) fun e w c h => (element_end c h).mono ?_
  · have := ht.isP h
    subst this
    exact .advance fun _ c _ => .pure fun xs ws _ hs => tk hs
  · have := ht.isP h
    subst this
    refine .advance fun _ c _ => .bind (.withIn (hr.assignmentExpr c)) fun e w c h => .bind (commaUnless_reads c) fun _ w' c h' => .quiet fun sp => .pure ?_
    intro xs ws he hs
    have := sq (tk (c := .punct .ellipsis) (B := Spell.node e) h) (sq (h' xs he) hs)
    exact same_words this (by simp)
  · rintro y w2 c2 ⟨rfl, hy⟩ xs ws he hs
    exact hy xs _ ws he hs

theorem parseArrayLitExpr_reads (hr : RecSpells r) : Spells (parseArrayLitExpr r) Spell.node := by
  intro c
  unfold parseArrayLitExpr
  exact .quiet fun _ => .consume fun _ c hc _ => .bind (untilPunc_reads (p := .rBracket) (I := Spell.arrayElements) rfl (fun c _ => arrayItem_reads hr c) c) fun as w c h =>
    .consume fun _ _ _ _ => .quiet fun _ => .pure (tk (sq h.1 rfl))

/-! ### Objects -/

/-- the words before the name of a property -/
def headWords (kind : PropKind) (async generator : Bool) : Lang :=
  match kind with
  | .get => word cs!"get"
  | .set => word cs!"set"
  | .init => Lang.pre async (word cs!"async") ⬝ Lang.pre generator (pun .star)

theorem parseMethodDefinition_reads (hr : RecSpells r) {k : PropertyKey} {kind : PropKind} {async generator computed : Bool}
    {wp wk : List Mark} (hp : headWords kind async generator wp) (c : Content) (hk : c = .punct .lParen → Spell.key computed k wk) :
    Reads c (parseMethodDefinition r k kind async generator computed) fun p ws _ =>
      Spell.property p (wp ++ (wk ++ ws)) ∧ ((async = false ∨ generator = false) → Spell.isGenerator p = generator) := by
  unfold parseMethodDefinition
  cases kind with
  | get =>
    refine .consume fun _ c hc _ => .consume fun _ c _ _ => .bind (.withYieldAwait (parseFunctionBody_reads hr c)) fun b w c h =>
      .quiet fun sp => .pure ⟨sq hp (sq (hk hc) (nil (tk (nil (tk (last h)))))), fun _ => rfl⟩
  | set =>
    exact .bind (parseParamsAndBody_reads hr c) fun ⟨ps, b⟩ w c h => .quiet fun sp => .pure
      ⟨sq hp (sq (hk h.1) (nil (last (A := Spell.method (.mk none ps b generator false async)) h.2))), fun _ => rfl⟩
  | init =>
    refine .bind (parseParamsAndBody_reads hr c) fun ⟨ps, b⟩ w c h => .quiet fun sp => .pure ?_
    cases async with
    | false =>
      exact ⟨sq hp (sq (hk h.1) (nil (last (A := Spell.method (.mk none ps b generator false false)) h.2))), fun _ => rfl⟩
    | true =>
      refine ⟨sq hp (sq (hk h.1) (nil (last (A := Spell.method (.mk none ps b generator false true)) h.2))), fun hg => ?_⟩
      rcases hg with hg | hg
      · cases hg
      · subst hg; rfl

/-- What the modifiers of a property lead to. -/
def HeadWords (h : PropHead) (w : List Mark) : Prop :=
  match h with
  | .done p => ∀ xs ws, Spell.properties xs ws → Spell.properties (p :: xs) (w ++ ws)
  | .more kind async generator => generator = false ∧ headWords kind async generator w

theorem init_head : headWords .init false false [] := ⟨[], [], rfl, rfl, rfl⟩

theorem _root_.Giron.IsTok.punctuator {t : Token} {p : Punctuator} (h : IsTok t (.punct p)) : t.tokentype = .punctuator := by
  obtain ⟨l, k, st, e, rfl⟩ := h; rfl

theorem accessorHead_reads {name : Str} {kind : PropKind} (c : Content) (hk : headWords kind false false [.word c]) (hc : c ≠ .eof)
    (hl : ∃ v ∈ lookWords, c = .name v) :
    Reads c (accessorHead r name kind) fun h w _ => HeadWords h w := by
  unfold accessorHead
  refine .peek hl fun t c' ht => .ite (fun _ => Reads.peeked (.pure ⟨rfl, init_head⟩)) fun hn => .quiet fun _ => .advance fun _ c'' _ ht' =>
    .quiet fun sp => .cur fun t2 ht2 => .ite (fun h => ?_) fun _ => .pure ⟨rfl, hk⟩
  have := ht2.punc h
  subst this
  exact absurd ht'.punctuator hn

theorem asyncHead_reads : Reads (.name cs!"async") (asyncHead r) fun h w _ => HeadWords h w := by
  unfold asyncHead
  refine .peek ⟨_, by decide, rfl⟩ fun t c' ht => .ite (fun _ => Reads.peeked (.pure ⟨rfl, init_head⟩)) fun hn => .quiet fun _ => .advance fun _ c'' _ ht' =>
    .quiet fun sp => .cur fun t2 ht2 => .bind (Q := fun g w cx => g = false ∧ w = [] ∧ cx = c'') (.ite (fun h => ?_) fun _ => .pure ⟨rfl, rfl, rfl⟩) fun g w cx hg => ?_
  · have := ht2.punc h
    subst this
    exact absurd ht'.punctuator hn
  · obtain ⟨rfl, rfl, rfl⟩ := hg
    refine .cur fun t3 ht3 => .ite (fun h => ?_) fun _ => .pure ⟨rfl, ⟨[.name cs!"async"], [], rfl, rfl, rfl⟩⟩
    have := ht3.punc h
    subst this
    exact absurd ht'.punctuator hn

theorem propHead_reads (hr : RecSpells r) (c : Content) : Reads c (propHead r) fun h w _ => HeadWords h w := by
  unfold propHead
  refine .cur fun t ht => .ite (fun h => ?_) fun _ => .ite (fun h => ?_) fun _ => .ite (fun h => ?_) fun _ => .ite (fun h => ?_) fun _ =>
    .pure ⟨rfl, init_head⟩
  · have := ht.isId h
    subst this
    exact accessorHead_reads _ rfl (fun h => nomatch h) ⟨_, by decide, rfl⟩
  · have := ht.isId h
    subst this
    exact accessorHead_reads _ rfl (fun h => nomatch h) ⟨_, by decide, rfl⟩
  · have := ht.isId h
    subst this
    exact asyncHead_reads
  · have := ht.isP h
    subst this
    refine .advance fun _ c _ => .bind (parsePropertyName_reads hr c) fun ⟨k, computed⟩ wk c hk =>
      .bind (parseMethodDefinition_reads hr (kind := .init) (async := false) (generator := true) (wp := [.punct .star]) (wk := wk)
        ⟨[], [.punct .star], rfl, rfl, rfl⟩ c fun hc => ?_) fun p w c hp => .pure fun xs ws hs => ?_
    · rcases hk with hk | hk
      · exact hk.key
      · exact absurd hc (hk _)
    · have h1 : (Spell.property p ⬝ (if Spell.isGenerator p then eps else Spell.commaAfter xs) ⬝ Spell.properties xs)
          (([.punct .star] ++ (wk ++ w)) ++ ws) := by
        rw [hp.2 (.inl rfl)]
        exact sq hp.1 (nil hs)
      exact same_words h1 (by simp)

theorem _root_.Giron.IsTok.literalKey {t t' : Token} {c : Content} (h : IsTok t c) (h' : IsTok t' c)
    (ht : t.tokentype = .stringLiteral ∨ t.tokentype = .numericLiteral) {raw : Str} {sp : Span} :
    Spell.key false (.literal ⟨t'.value, raw, sp⟩) [c] := by
  obtain ⟨l, k, st, e, rfl⟩ := h'
  obtain ⟨_, h2⟩ := h.value (.inr ht)
  rcases h2 with ⟨v, rfl⟩ | ⟨v, o, rfl⟩ | ⟨n, rfl⟩
  · exfalso
    obtain ⟨l, k, st, e, rfl⟩ := h
    simp only [Content.token, nameToken] at ht
    split at ht
    · rcases ht with ht | ht <;> cases ht
    · split at ht
      · rcases ht with ht | ht <;> cases ht
      · split at ht <;> (rcases ht with ht | ht <;> cases ht)
  · exact ⟨_, rfl, .inl ⟨v, o, rfl, rfl⟩⟩
  · exact ⟨_, rfl, .inr ⟨n, rfl, rfl⟩⟩

theorem propKey_reads (hr : RecSpells r) (c : Content) : Reads c (propKey r) fun x w _ => Spell.key x.2 x.1 w := by
  unfold propKey
  refine .cur fun t ht => .ite (fun _ => .quiet fun _ => .idName fun v c' hc _ => .quiet fun sp => .pure rfl) fun _ =>
    .ite (fun h => .quiet fun _ => .advance (fun t' c' ht' => .cur fun _ _ => .quiet fun sp => .pure ?_) (ht.value_ne_eof (.inr h))) fun _ => .ite (fun _ => ?_) fun _ => .fails
  · exact ht.literalKey ht' h
  · refine .bind (parseComputedPropertyName_reads hr c) fun k w c hk => .pure ?_
    obtain ⟨n, rfl, h⟩ := hk
    exact last (A := pun .lBracket ⬝ Spell.node n ⬝ pun .rBracket) h

theorem head_prefix {kind : PropKind} {async : Bool} {w : List Mark} (h : headWords kind async false w) {v : Option PropertyValue}
    (hv : v = none ∨ ∃ n, v = some (.expression n)) : Spell.propertyPrefix kind.str v w := by
  have key : (Lang.pre async (word cs!"async") ⬝ Lang.pre false (pun .star)) w → opt (word cs!"async") w := by
    rintro ⟨a, b, rfl, h1, h2⟩
    cases h2
    rw [List.append_nil]
    cases async
    · exact .inr h1
    · exact .inl h1
  rcases hv with rfl | ⟨n, rfl⟩ <;> cases kind <;> first | exact h | exact key h

theorem propRest_reads (hr : RecSpells r) {k : PropertyKey} {kind : PropKind} {async computed : Bool}
    {wp wk : List Mark} (hp : headWords kind async false wp) (hk : Spell.key computed k wk) (c : Content) :
    Reads c (propRest r k computed kind async false) fun p ws _ => Spell.property p (wp ++ (wk ++ ws)) ∧ Spell.isGenerator p = false := by
  unfold propRest
  refine .cur fun t ht => .ite (fun h => ?_) fun _ => .ite (fun h => ?_) fun _ => .ite (fun h => ?_) fun _ => .quiet fun sp => .pure ?_
  · have := ht.isP h
    subst this
    exact .advance fun _ c _ => .bind (.withIn (hr.assignmentExpr c)) fun e w c h => .quiet fun sp => .pure
      ⟨sq (head_prefix hp (.inr ⟨e, rfl⟩)) (sq hk (tk (last (A := Spell.node e) h))), rfl⟩
  · have := ht.isP h
    subst this
    exact .advance fun _ c _ => .bind (.withIn (hr.assignmentExpr c)) fun e w c h => .quiet fun sp => .pure
      ⟨sq (head_prefix hp (.inr ⟨e, rfl⟩)) (sq hk (tk (last (A := Spell.node e) h))), rfl⟩
  · exact (parseMethodDefinition_reads hr hp c fun _ => hk).mono fun p w _ h => ⟨h.1, h.2 (.inr rfl)⟩
  · exact ⟨sq (head_prefix hp (.inl rfl)) (sq hk (nil rfl)), rfl⟩

theorem objectItem_reads (hr : RecSpells r) (c : Content) : Reads c (objectItem r) fun x w c' =>
    ∀ xs ws, (xs = [] ↔ c' = .punct .rBrace) → Spell.properties xs ws → Spell.properties (x :: xs) (w ++ ws) := by
  unfold objectItem
  refine .quiet fun _ => .cur fun t ht => .ite (fun h => ?_) fun _ => .bind (propHead_reads hr c) fun h w c hh => ?_
  · have := ht.punc h
    subst this
    refine .advance fun _ c _ => .bind (.withIn (hr.assignmentExpr c)) fun e w c h => .quiet fun sp => .bind (commaUnless_reads c) fun _ w' c h' => .pure ?_
    intro xs ws he hs
    have := sq (A := Spell.property (.spreadElement e sp)) (tk (c := .punct .ellipsis) (B := Spell.node e) h) (sq (h' xs he) hs)
    exact same_words this (by simp)
  · cases h with
    | done p => exact .pure fun xs ws _ hs => by rw [List.append_nil]; exact hh xs ws hs
    | more kind async generator =>
      obtain ⟨rfl, hh⟩ := hh
      refine .bind (propKey_reads hr c) fun ⟨k, computed⟩ wk c hk => .bind (propRest_reads hr hh hk c) fun p wr c hp =>
        .bind (commaUnless_reads c) fun _ w' c h' => .pure fun xs ws he hs => ?_
      have h1 : (Spell.property p ⬝ (if Spell.isGenerator p then eps else Spell.commaAfter xs) ⬝ Spell.properties xs)
          ((w ++ (wk ++ wr)) ++ (w' ++ ws)) := by
        rw [hp.2]
        exact sq hp.1 (sq (h' xs he) hs)
      exact same_words h1 (by simp)

theorem parseObjectLitExpr_reads (hr : RecSpells r) : Spells (parseObjectLitExpr r) Spell.node := by
  intro c
  unfold parseObjectLitExpr
  exact .quiet fun _ => .consume fun _ c hc _ => .bind (untilPunc_reads (p := .rBrace) (I := Spell.properties) rfl (fun c _ => objectItem_reads hr c) c) fun as w c h =>
    .consume fun _ _ _ _ => .quiet fun _ => .pure (tk (sq h.1 rfl))

/-! ### The rest -/

theorem parseAsyncPrimaryExpr_reads (hr : RecSpells r) : Reads (.name cs!"async") (parseAsyncPrimaryExpr r) fun n ws _ => Spell.node n ws := by
  unfold parseAsyncPrimaryExpr
  refine .quiet fun _ => .bind (parseIdReference_reads _) fun n w c h => ?_
  obtain ⟨v, a, sp, hv, rfl, rfl⟩ := h
  cases hv
  refine .getLine (fun s hs hl => ⟨none, .inl rfl, .ite (fun h => absurd (hl.symm.trans h) (fun h => nomatch h)) fun _ =>
    .quiet fun _ => .pure rfl⟩) fun s hs hl => ?_
  by_cases hx : s.current.isP .semicolon = true ∨ s.current.isP .dot = true ∨ s.current.isP .lBracket = true
  · exact ⟨none, .inl rfl, .ite (fun _ => .ite (fun _ => .pure rfl) fun h => absurd hx h) fun h => absurd hl h⟩
  refine ⟨some .joined, .inr rfl, .ite (fun _ => .ite (fun h => absurd h hx) fun _ => .ite (fun _ => .fails) fun _ =>
    .ite (fun _ => ?_) fun _ => ?_) fun h => absurd hl h⟩
  · exact (parseFunctionExpr_reads hr c).mono fun n ws _ h => h [.name cs!"async", .joined] (tk rfl)
  · refine .bind (.withAwait (parseIdReference_reads c)) fun n w c h => ?_
    obtain ⟨v, a, sp, hv, rfl, rfl⟩ := h
    refine .pureBind (.getJoined (fun s hs hl => .ite (fun hp => absurd (hl.symm.trans hp.1) (fun h => nomatch h)) fun _ => .fails)
      fun s hs hl => .ite (fun hp => ?_) fun _ => .fails)
    have := hs.punc hp.2
    subst this
    refine .advance fun _ c _ => .bind (parseArrowBody_reads hr c) fun ⟨b, e⟩ wb c hb => .quiet fun _ => .pure ?_
    exact tk (sq (a := [.joined, .name v]) (tk (.inr rfl)) (sq (a := [.joined, .punct .fatArrow]) (tk rfl)
      (last (A := Spell.arrowBody e (Spell.node b)) hb)))

theorem _root_.Giron.IsTok.literal {t t' : Token} {c : Content} (h : IsTok t c) (h' : IsTok t' c) (ht : isLiteralToken t = true) :
    Spell.literalWord t'.value t'.value.toString [c] := by
  obtain ⟨l, k, st, e, rfl⟩ := h
  obtain ⟨l', k', st', e', rfl⟩ := h'
  refine ⟨c, rfl, ?_, rfl, ?_⟩
  · cases c <;> first | rfl | cases ht
  · rintro v rfl
    simp only [Content.token, nameToken, isLiteralToken] at ht
    by_cases h1 : v = cs!"null"
    · exact .inr (.inr h1)
    · rw [if_neg h1] at ht
      by_cases h2 : v = cs!"true" ∨ v = cs!"false"
      · rcases h2 with h2 | h2
        · exact .inl h2
        · exact .inr (.inl h2)
      · rw [if_neg h2] at ht
        by_cases h3 : v ∈ keywords
        · rw [if_pos h3] at ht; cases ht
        · rw [if_neg h3] at ht; cases ht

theorem _root_.Giron.IsTok.regexp {t : Token} {c : Content} (h : IsTok t c) (ht : t.tokentype = .regularExpression) :
    ∃ p f, c = .regexp p f := by
  obtain ⟨l, k, st, e, rfl⟩ := h
  cases c with
  | name v =>
    simp only [Content.token, nameToken] at ht
    split at ht
    · cases ht
    · split at ht
      · cases ht
      · split at ht <;> cases ht
  | regexp p f => exact ⟨_, _, rfl⟩
  | _ => cases ht

theorem parsePrimaryExpr_reads (hr : RecSpells r) : Spells (parsePrimaryExpr r) Spell.node := by
  intro c
  unfold parsePrimaryExpr
  refine .cur fun t ht => .ite (fun _ => (parseFunctionExpr_reads hr c).mono fun n ws _ h => h [] rfl) fun _ => .ite (fun h => ?_) fun _ =>
    .ite (fun _ => parseClassExpr_reads hr c) fun _ => .ite (fun h => ?_) fun _ => .ite (fun _ => parseIdReference_spells c) fun _ =>
    .ite (fun h => ?_) fun _ => .ite (fun _ => parseArrayLitExpr_reads hr c) fun _ => .ite (fun _ => parseObjectLitExpr_reads hr c) fun _ =>
    .ite (fun h => ?_) fun _ => .ite (fun _ => parseTemplateLiteral_reads hr c) fun _ => .ite (fun _ => parseSeqOrArrow_reads hr c) fun _ => .fails
  · have := ht.isId h
    subst this
    exact parseAsyncPrimaryExpr_reads hr
  · have := ht.isKw h
    subst this
    unfold parseThis
    exact .quiet fun _ => .advance fun _ _ _ => .quiet fun _ => .pure rfl
  · unfold parseLiteral
    refine .quiet fun _ => .advance (fun t' _ ht' => .quiet fun _ => .pure (ht.literal ht' h)) (ht.ne_eof fun he => ?_)
    rw [isLiteralToken, he] at h
    cases h
  · obtain ⟨p, f, rfl⟩ := ht.regexp h
    unfold parseRegex
    refine .quiet fun _ => .advance fun t' _ ht' => .cur fun t2 _ => .unwrap fun p' hp => .unwrap fun f' hf => .quiet fun _ => .pure ?_
    obtain ⟨l, k, st, e, rfl⟩ := ht'
    cases hp; cases hf
    rfl

end Parser
end Giron

import Verif.Proofs.Complete.Lists
/-
Grammar completeness: identifiers, expressions with commas, directive prologues, function bodies.
-/
namespace Giron.Complete
open Giron M Spec Grammar Parser
variable [Env]

/-- start a span -/
macro "sp! " h:ident : tactic => `(tactic| (refine Sat.bind (startSpan_ok $h) ?_; clear $h; rintro _ _ $h:ident))
/-- end a span -/
macro "es! " h:ident : tactic => `(tactic| (refine Sat.bind (endSpan_ok $h) ?_; clear $h; rintro _ _ $h:ident))
/-- peek at a span -/
macro "pk! " h:ident : tactic => `(tactic| (refine Sat.bind (peekSpan_ok $h) ?_; clear $h; rintro _ _ $h:ident))
/-- look at the current token -/
macro "lk! " h:ident t:ident : tactic => `(tactic| (refine cur_ok $h fun _ $t:ident => ?_))
/-- advance -/
macro "ad! " h:ident t:ident f:term:max : tactic => `(tactic| (refine Sat.bind (advance_ok $h $f) ?_; clear $h; rintro _ _ ⟨$t:ident, $h:ident⟩))
/-- consume a punctuator -/
macro "eat! " h:ident f:term:max : tactic => `(tactic| (refine Sat.bind (consume_ok $h rfl $f) ?_; clear $h; rintro _ _ ⟨-, $h:ident⟩))
/-- consume a keyword -/
macro "kw! " h:ident f:term:max : tactic => `(tactic| (refine Sat.bind (consumeKw_ok $h rfl $f) ?_; clear $h; rintro _ _ ⟨-, $h:ident⟩))
/-- consume an identifier -/
macro "id! " h:ident f:term:max : tactic => `(tactic| (refine Sat.bind (consumeId_ok $h rfl $f) ?_; clear $h; rintro _ _ ⟨-, $h:ident⟩))
/-- run a part that reads a phrase -/
macro "rd! " t:term:max " with " a:ident h:ident : tactic =>
  `(tactic| (refine Sat.bind $t ?_; try clear $h; rintro $a:ident _ ⟨he, $h:ident⟩; subst he))
/-- run a part that reads a phrase -/
macro "rde! " t:term:max " with " a:ident e:ident h:ident : tactic =>
  `(tactic| (refine Sat.bind $t ?_; try clear $h; rintro $a:ident _ ⟨$e:ident, $h:ident⟩))
/-- sort out lists of words -/
macro "nm! " h:ident : tactic => `(tactic| simp only [List.cons_append, List.append_assoc, List.nil_append] at $h:ident)

variable {α β : Type} {c c' : Ctx} {ps : List Params} {k : Nat} {w nx : Word} {ws rest : List Word} {s : Parser} {t : Token}
  {v : Str} {n : Bool}

theorem Tok.str (h : Tok (W v n) t) (hv : wordy v = true) : t.value = .str v := by
  rw [h.value]
  rcases nameToken_cases v with ⟨-, hw, hk, e⟩ | ⟨-, hw, hk, e⟩ | ⟨hk, hw, e⟩ | ⟨hk, hw, e⟩ <;> simp_all [Content.token]

theorem Tok.toStr (h : Tok (W v n) t) (hv : wordy v = true) : t.toStr? = some v := by
  simp [Token.toStr?, h.str hv]

theorem _root_.Giron.Grammar.PropName.wordy (h : PropName v) : wordy v = true := by
  simp [Complete.wordy, h.1, h.2.1, h.2.2]

theorem _root_.Giron.Grammar.Bindable.cases (h : Bindable c v) : (v ∉ keywords ∧ wordy v = true) ∨ v = cs!"yield" ∨ v = cs!"await" := by
  rcases h.2 with h | h | h
  · left; exact ⟨h.1, by simp [wordy, h.2]⟩
  · exact .inr (.inl h)
  · exact .inr (.inr h)

theorem _root_.Giron.Grammar.Bindable.wordy (h : Bindable c v) : wordy v = true := by
  rcases h.cases with h | rfl | rfl
  · exact h.2
  · rfl
  · rfl

theorem _root_.Giron.Grammar.Ref.wordy (h : Ref c v) : wordy v = true := by
  rcases h.cases with h | ⟨rfl, -⟩ | ⟨rfl, -⟩
  · exact h.2
  · rfl
  · rfl

theorem strictReservedCheck_ok (hv : wordy v = true) (hr : c.strict = true → v ∉ strictReserved)
    (h : St c ps k (W v n :: ws) s) : Ok strictReservedCheck s (fun _ s' => s' = s) := by
  unfold strictReservedCheck
  refine get_ok ?_
  refine Sat.ite (fun hs => ?_) (fun _ => pure_ok rfl)
  rw [h.strict] at hs
  have hr := hr hs
  refine Sat.bind (P := fun b s' => b = false ∧ s' = s) (Sat.unwrapSome (a := false) ?_ ⟨rfl, rfl⟩) ?_
  · simp only [Token.isStrictReservedKw, h.tok.toStr hv, Option.some.injEq]
    simp only [strictReserved, List.mem_cons, not_or, List.not_mem_nil, not_false_eq_true, and_true] at hr
    simp [hr]
  · rintro _ _ ⟨rfl, rfl⟩
    exact pure_ok rfl

theorem advanceStr_ok {g : LexGoal} (h : St c ps k (W v n :: ws) s) (hv : wordy v = true) (hg : FitsAt g ws) :
    Ok (advanceStr g) s (fun x s' => x = v ∧ St c ps k ws s') := by
  unfold advanceStr
  ad! h ht hg
  exact Sat.unwrapSome (ht.toStr hv) ⟨rfl, h⟩

theorem parseIdName_ok {g : LexGoal} (h : St c ps k (W v n :: ws) s) (hv : PropName v) (hg : FitsAt g ws) :
    Ok (parseIdName g) s (fun x s' => x = v ∧ St c ps k ws s') := by
  unfold parseIdName
  lk! h ht
  refine ok_then (by rw [ht.isIdOrKw]; exact hv.wordy) ?_
  ad! h ht hg
  exact Sat.unwrapSome (by rw [ht.str (hv.wordy)]; rfl) ⟨rfl, h⟩

theorem idAtt_eq : idAtt c.strict v = nameTarget c v := by
  unfold idAtt nameTarget
  simp

theorem parseIdReference_ok (hv : Ref c v) :
    Reads parseIdReference bareNode c 0 0 [W v n] (.identifier v (nameTarget c v) sp) (fun nx => nx.c.fits .div = true) := by
  intro ps k nx rest s hnx h
  nm! h
  unfold parseIdReference
  sp! h
  refine Sat.bind (strictReservedCheck_ok hv.wordy hv.1 h) ?_
  rintro _ _ rfl
  refine get_ok ?_
  have ht := h.tok
  rcases hv.cases with ⟨hk, hw⟩ | ⟨rfl, hy⟩ | ⟨rfl, ha⟩
  · refine ok_then (by rw [ht.ident]; simp [isIdent, plain, hk, hw]) ?_
    have hst := h.strict
    rd! (advanceStr_ok h hw hnx) with x h
    es! h
    refine pure_ok ⟨?_, h⟩
    rw [hst, idAtt_eq]; rfl
  · refine ok_else (by rw [ht.ident]; simp [isIdent]) ?_
    refine ok_then (by tk ht) ?_
    refine ok_else (by rw [h.params.yld, hy]; simp) ?_
    rd! (advanceStr_ok h rfl hnx) with x h
    es! h
    refine pure_ok ⟨?_, h⟩
    simp [bareNode, nameTarget]
  · refine ok_else (by rw [ht.ident]; simp [isIdent]) ?_
    refine ok_else (by tk ht) ?_
    refine ok_then (by tk ht) ?_
    refine ok_else (by rw [h.params.awt, ha]; simp) ?_
    rd! (advanceStr_ok h rfl hnx) with x h
    es! h
    refine pure_ok ⟨?_, h⟩
    simp [bareNode, nameTarget]

theorem parseBindingId_ok (hv : Bindable c v) :
    Reads parseBindingId bareBinding c 0 0 [W v n] (.bindingIdentifier v sp) (fun nx => nx.c.fits .div = true) := by
  intro ps k nx rest s hnx h
  nm! h
  unfold parseBindingId
  sp! h
  refine Sat.bind (strictReservedCheck_ok hv.wordy hv.1 h) ?_
  rintro _ _ rfl
  lk! h ht
  refine ok_then ?_ ?_
  · rcases hv.cases with ⟨hk, hw⟩ | rfl | rfl
    · left; rw [ht.ident]; simp [isIdent, plain, hk, hw]
    · right; left; tk ht
    · right; right; tk ht
  · rd! (advanceStr_ok h hv.wordy hnx) with x h
    es! h
    exact pure_ok ⟨rfl, h⟩

/-! ### The entry points -/

/-- The parser reads the words as a phrase that is followed by `nx`. -/
def ReadsBefore (m : PM α) (bare : α → β) (c : Ctx) (ws : List Word) (nx : Word) (b : β) : Prop :=
  nx.c.fits .regExp = true → ∀ ps k rest s, St c ps k (ws ++ nx :: rest) s →
    Ok m s (fun a s' => bare a = b ∧ St c ps k (nx :: rest) s')

/-- The number of start positions that are left. -/
def left (f : Bool) : Nat := if f then 1 else 0

/-- A chain of operators of the same precedence `q` with right operands. -/
inductive Chain (q : Nat) (c : Ctx) : Node → List Word → Node → Prop
  | nil {a} : Chain q c a [] a
  | cons {a b t w ws} : BinStep (true, q, c) a w b → Chain q c b ws t → Chain q c a (w ++ ws) t

/-- A follower of a pattern. -/
structure SPat (w : Word) : Prop where
  div : w.c.fits .div = true
  regExp : w.c.fits .regExp = true

/-- The entry points do what they should. -/
structure RecOk (r : Rec) : Prop where
  assign : ∀ {c ws t}, Assign c ws t → Reads r.assignmentExpr bareNode c 0 0 ws t (SAssign c.inn)
  item : ∀ {c ws nx t}, Item c ws nx t → ReadsBefore r.stmtListItem bareNode c ws nx t
  stmt : ∀ {c ws nx t}, Stmt c ws nx t → ReadsBefore r.statement bareNode c ws nx t
  unary : ∀ {f c ws t}, Unary f c ws t → Reads r.unaryExpr bareNode c 0 (left f) ws t SPost
  exp : ∀ {f c ws t}, Exp f c ws t → Reads r.exponentiationExpr bareNode c 0 (left f) ws t SPow
  climb : ∀ {q c a w b ws t a'}, 0 < q → bareNode a' = a → BinStep (true, q, c) a w b → Chain q c b ws t →
    Reads (r.precedenceClimbing a' q) bareNode c 0 0 (w ++ ws) t (SBin c.inn q)
  pat : ∀ {c ws b}, Pat c ws b → Reads r.bindingIdOrPat bareBinding c 0 0 ws b SPat
  lhs : ∀ {c ws t}, LHS true c ws t → Reads r.leftHandSideExpr bareNode c 0 0 ws t SCall

variable {r : Rec} {t : Node}

theorem isP_of {p : Punctuator} {x : Content} (h : x = .punct p) : isP x p = true := by subst h; simp [isP]

/-- Expressions with commas. -/
theorem parseExpression_ok (hr : RecOk r) (he : Expr c ws t) :
    Reads (parseExpression r) bareNode c 0 0 ws t (SExpr c.inn) := by
  intro ps k nx rest s hnx h
  unfold parseExpression
  sp! h
  cases he with
  | assign he =>
    rd! (hr.assign he _ _ _ _ _ hnx.toSAssign h) with a h
    lk! h ht
    refine ok_else (by rw [ht.matchesPunc, hnx.comma]; simp) ?_
    exact pure_ok ⟨rfl, h.mono (Nat.le_succ k)⟩
  | comma he hl =>
    nm! h
    rd! (hr.assign he _ _ _ _ _ (.punct _ (by decide)) h) with a h
    lk! h ht
    refine ok_then (by rw [ht.matchesPunc]; rfl) ?_
    refine Sat.bind (whilePunc_sep (R := Assign) (F := SAssign c.inn) (bare := bareNode) (fun n => .punct n (by decide))
      (fun _ _ h => (assign_begins h).mono fun _ => startsExpr_fits) ?_ hnx.toSAssign hnx.comma hl h) ?_
    · intro w a hw ps k n nx rest s hF h
      unfold commaExpr
      eat! h ((assign_begins hw).append.mono fun _ => startsExpr_fits).fits
      exact hr.assign hw _ _ _ _ _ hF h
    · rintro bs _ ⟨hb, h⟩
      es! h
      refine pure_ok ⟨?_, h⟩
      cases bs with
      | nil => cases hl <;> simp at hb
      | cons b bs =>
        simp [bareNode, bareListNode_eq, ← hb, sp]

theorem isUseStrict_bare (a : Node) : isUseStrict (bareNode a) = isUseStrictLiteral a := by
  cases a <;> simp [bareNode, isUseStrict, isUseStrictLiteral]

theorem prologue_fits (h : Prologue Expr c ws nx c' ts) (hnx : nx.c.fits .regExp = true) :
    (first ws nx).c.fits .regExp = true := by
  cases h with
  | nil => exact hnx
  | cons _ _ _ => rfl

theorem first_cons (ws : List Word) (nx : Word) (rest : List Word) :
    ∃ l, ws ++ nx :: rest = first ws nx :: l := by
  cases ws with
  | nil => exact ⟨rest, rfl⟩
  | cons w ws => exact ⟨ws ++ nx :: rest, rfl⟩

/-- Expression followed by an optional semicolon. -/
theorem expr_semi (hr : RecOk r) (he : Expr c ws t) {semi : List Word} (hs : ExprSemi semi nx)
    (h : St c ps k (ws ++ (semi ++ nx :: rest)) s) :
    Ok (parseExpression r) s (fun a s' => bareNode a = t ∧ St c ps k (semi ++ nx :: rest) s') := by
  obtain ⟨l, hl⟩ := first_cons semi nx rest
  rw [hl] at h ⊢
  exact parseExpression_ok hr he _ _ _ _ _ hs.follow h

theorem prologue_strict {ts : List Node} (h : Prologue Expr c ws nx c' ts) : c' = { c with strict := c'.strict } := by
  induction h with
  | nil => rfl
  | cons _ _ _ ih => rw [ih]

/-- A directive. -/
theorem parseDirective_ok (hr : RecOk r) (he : Expr c ws t) {semi : List Word} (hs : ExprSemi semi nx)
    (hnx : nx.c.fits .regExp = true) (h : St c ps k (ws ++ (semi ++ nx :: rest)) s) :
    Ok (parseDirective r) s (fun a s' => bareNode a = .expressionStatement t sp ∧
      St { c with strict := c.strict || isUseStrict t } ps k (nx :: rest) s') := by
  unfold parseDirective
  sp! h
  rd! (expr_semi hr he hs h) with a h
  refine Sat.bind (P := fun _ s' => St { c with strict := c.strict || isUseStrict (bareNode a) } ps (k + 1) (semi ++ nx :: rest) s') ?_ ?_
  rotate_left
  · rintro _ _ h
    refine Sat.bind (consumeSemicolon_ok hs.toSemi hnx h) ?_
    rintro _ _ h
    es! h
    exact pure_ok ⟨rfl, h⟩
  · rw [isUseStrict_bare]
    refine Sat.whenT (fun hu => ?_) (fun hu => ?_)
    · rw [hu]
      refine Sat.modify ?_
      exact ⟨by simp, h.loop, h.switch, ⟨h.params.1, h.params.2, h.params.3, h.params.4, h.params.5⟩, h.stack, h.markers,
        h.here, h.clash⟩
    · simp only [Bool.not_eq_true] at hu
      rw [hu]
      simpa using h

/-- Directive prologues. -/
theorem prologueF_ok (hr : RecOk r) (hnx : nx.c.fits .regExp = true) (hs : isString nx.c = false) (m : Nat) :
    ∀ {c c' ws ts s}, Prologue Expr c ws nx c' ts → St c ps k (ws ++ nx :: rest) s →
    Ok (directiveProloguesF r m) s (fun xs s' => xs.map bareNode = ts ∧ St c' ps k (nx :: rest) s') := by
  induction m with
  | zero => intro _ _ _ _ _ _ _; exact rfl
  | succ m ih =>
    intro c c' ws ts s hp h
    unfold directiveProloguesF
    cases hp with
    | nil =>
      lk! h ht
      exact ok_else (by rw [ht.string, hs]; simp) (pure_ok ⟨rfl, h⟩)
    | @cons _ _ w semi ws _ v o n e es he hse hp =>
      nm! h
      lk! h ht
      refine ok_then (by rw [ht.string]; rfl) ?_
      obtain ⟨l, hl⟩ := first_cons ws nx rest
      rw [hl] at h
      rde! (parseDirective_ok hr he hse (prologue_fits hp hnx) h) with a ea h
      rw [← hl] at h
      rde! (ih hp h) with xs exs h
      exact pure_ok ⟨by simp [ea, exs], h⟩

theorem parseDirectivePrologues_ok (hr : RecOk r) (hnx : nx.c.fits .regExp = true) (hs : isString nx.c = false)
    {ts : List Node} (hp : Prologue Expr c ws nx c' ts) (h : St c ps k (ws ++ nx :: rest) s) :
    Ok (parseDirectivePrologues r) s (fun xs s' => xs.map bareNode = ts ∧ St c' ps k (nx :: rest) s') :=
  prologueF_ok hr hnx hs _ hp h

/-! ### Statement lists -/

/-- The word may begin a statement or a declaration. -/
def startsItem (x : Content) : Bool :=
  startsExpr x || isP x .semicolon || kwOf x [cs!"var", cs!"if", cs!"for", cs!"while", cs!"do", cs!"switch", cs!"continue",
    cs!"break", cs!"return", cs!"with", cs!"throw", cs!"try", cs!"debugger", cs!"const"]

theorem startsItem_cases {x : Content} (h : startsItem x = true) : startsExpr x = true ∨ x = .punct .semicolon ∨
    ∃ u, x = .name u ∧ u ∈ keywords ∧ u ∈ [cs!"var", cs!"if", cs!"for", cs!"while", cs!"do", cs!"switch", cs!"continue",
    cs!"break", cs!"return", cs!"with", cs!"throw", cs!"try", cs!"debugger", cs!"const"] := by
  simp only [startsItem, Bool.or_eq_true] at h
  rcases h with (h | h) | h
  · exact .inl h
  · right; left
    cases x <;> simp_all [isP]
  · right; right
    cases x <;> simp_all [kwOf]

theorem startsItem_fits {x : Content} (h : startsItem x = true) : x.fits .regExp = true := by
  rcases startsItem_cases h with h | rfl | ⟨u, rfl, -, -⟩
  · exact startsExpr_fits h
  · rfl
  · rfl

theorem startsItem_rBrace {x : Content} (h : startsItem x = true) : isP x .rBrace = false := by
  rcases startsItem_cases h with h | rfl | ⟨u, rfl, -, -⟩
  · exact startsExpr_isP h
  · rfl
  · rfl

theorem startsItem_eof {x : Content} (h : startsItem x = true) : isEof x = false := by
  rcases startsItem_cases h with h | rfl | ⟨u, rfl, -, -⟩
  · exact startsExpr_eof h
  · rfl
  · rfl

theorem startsItem_kw {x : Content} (h : startsItem x = true) {v : Str} (hv : v = cs!"case" ∨ v = cs!"default") :
    isKw x v = false := by
  rcases startsItem_cases h with h | rfl | ⟨u, rfl, hk, hu⟩
  · rcases hv with rfl | rfl <;> exact startsExpr_isKw h
  · rfl
  · simp only [isKw, Bool.and_eq_false_iff, decide_eq_false_iff_not]
    right; rintro rfl
    rcases hv with rfl | rfl <;> simp at hu

section
variable {ws : List Word} {nx : Word} {t : Node}

theorem function_begins {g : Bool} (h : Function c g ws t) : Begins (fun x => startsItem x = true) ws := by
  cases h <;> exact .cons rfl

theorem block_begins (h : Block c ws t) : Begins (fun x => startsItem x = true) ws := by
  cases h; exact .cons rfl

theorem stmt_begins (h : Stmt c ws nx t) : Begins (fun x => startsItem x = true) ws := by
  cases h with
  | block h => exact block_begins h
  | expr h _ _ => exact (expr_begins h).append.mono fun _ h => by simp [startsItem, h]
  | label h _ _ => exact .cons (by simp [startsItem, (ref_start h).start])
  | labelFunction h _ _ _ => exact .cons (by simp [startsItem, (ref_start h).start])
  | _ => exact .cons rfl

theorem item_begins (h : Item c ws nx t) : Begins (fun x => startsItem x = true) ws := by
  cases h with
  | stmt h => exact stmt_begins h
  | function h => exact function_begins h
  | «class» _ => exact .cons rfl
  | lexical h _ _ => rcases h with rfl | rfl <;> exact .cons rfl

theorem items_fits {ts : List Node} (h : Items Item c ws nx ts) (hnx : nx.c.fits .regExp = true) :
    (first ws nx).c.fits .regExp = true := by
  cases h with
  | nil => exact hnx
  | cons h _ =>
    obtain ⟨x, l, rfl, hx⟩ := item_begins h
    exact startsItem_fits hx

end

/-- A list of statements that ends before `nx`. -/
theorem untilPuncF_items (hr : RecOk r) {p : Bool} (m : Nat) :
    ∀ {ws ts s}, Items Item c ws (P .rBrace p) ts → St c ps k (ws ++ P .rBrace p :: rest) s →
    Ok (untilPuncF .rBrace r.stmtListItem m) s (fun xs s' => xs.map bareNode = ts ∧ St c ps k (P .rBrace p :: rest) s') := by
  induction m with
  | zero => intro _ _ _ _ _; exact rfl
  | succ m ih =>
    intro ws ts s hl h
    unfold untilPuncF
    cases hl with
    | nil =>
      lk! h ht
      exact ok_then (by tk ht) (pure_ok ⟨rfl, h⟩)
    | @cons _ w ws _ a as hi hl =>
      obtain ⟨x, w', rfl, hx⟩ := item_begins hi
      nm! h
      lk! h ht
      refine ok_else (by rw [ht.isP, startsItem_rBrace hx]; simp) ?_
      obtain ⟨l, e⟩ := first_cons ws (P .rBrace p) rest
      rw [e] at h
      rde! (hr.item hi (items_fits hl rfl) _ _ _ _ h) with a ea h
      rw [← e] at h
      rde! (ih hl h) with xs exs h
      exact pure_ok ⟨by simp [ea, exs], h⟩

theorem parseStatementList_ok (hr : RecOk r) {p : Bool} {ts : List Node} (hl : Items Item c ws (P .rBrace p) ts)
    (h : St c ps k (ws ++ P .rBrace p :: rest) s) :
    Ok (parseStatementList r) s (fun xs s' => xs.map bareNode = ts ∧ St c ps k (P .rBrace p :: rest) s') :=
  untilPuncF_items hr _ hl h

/-- Function bodies. -/
theorem parseFunctionBodyBlock_ok (hr : RecOk r) (hb : Body c ws t) :
    Reads (parseFunctionBodyBlock r) bareNode c 0 0 ws t (fun _ => True) := by
  intro ps k nx rest s hnx h
  cases hb with
  | @mk _ ws ws' m c' ds ts n hp hl hstr =>
    unfold parseFunctionBodyBlock
    nm! h
    sp! h
    have hf : (first ws' (P .rBrace m)).c.fits .regExp = true := items_fits hl rfl
    obtain ⟨l, e⟩ := first_cons ws' (P .rBrace m) (nx :: rest)
    have hf' : FitsAt .regExp (ws ++ (ws' ++ P .rBrace m :: nx :: rest)) := by
      obtain ⟨l', e'⟩ := first_cons ws (first ws' (P .rBrace m)) l
      rw [e, e']
      exact prologue_fits hp hf
    eat! h hf'
    refine get_ok ?_
    have hs0 := h.strict
    rw [e] at h
    have hs : isString (first ws' (P .rBrace m)).c = false := by
      cases ws' with
      | nil => rfl
      | cons x ws' =>
        obtain ⟨x, k⟩ := x
        cases x with
        | string v o => exact absurd rfl (hstr v o k ws')
        | _ => rfl
    rde! (parseDirectivePrologues_ok hr hf hs hp h) with xs exs h
    rw [← e] at h
    refine get_ok ?_
    have hi := h.loop
    rde! (parseStatementList_ok hr hl h) with ys eys h
    refine Sat.bind (P := fun _ s' => St c' ps (k + 0 + 1) (P .rBrace m :: nx :: rest) s') (Sat.modify ?_) ?_
    · exact ⟨h.strict, hi, h.switch, h.params, h.stack, h.markers, h.here, h.clash⟩
    clear h
    rintro _ _ h
    eat! h (fits_rBrace h.clash2)
    refine Sat.bind (P := fun _ s' => St c ps (k + 0 + 1) (nx :: rest) s') (Sat.modify ?_) ?_
    · have hc := prologue_strict hp
      have := h.params
      rw [hc] at h
      exact ⟨hs0, h.loop, h.switch, ⟨h.params.1, h.params.2, h.params.3, h.params.4, h.params.5⟩, h.stack, h.markers,
        h.here, h.clash⟩
    clear h
    rintro _ _ h
    es! h
    exact pure_ok ⟨by simp [bareNode, bareListNode_eq, exs, eys], h⟩

theorem parseFunctionBody_ok (hr : RecOk r) (hb : Body { c with ret := true } ws t) :
    Reads (parseFunctionBody r) bareNode c 0 0 ws t (fun _ => True) := by
  intro ps k nx rest s hnx h
  unfold parseFunctionBody
  refine get_ok ?_
  refine Sat.bind (P := fun _ s' => St c ps (k + 0) (ws ++ nx :: rest) s') (Sat.modify ?_) ?_
  · exact ⟨h.strict, h.loop, h.switch, h.params, h.stack, h.markers, h.here, h.clash⟩
  clear h
  rintro _ _ h
  rde! (withReturn_ok (fun ps s h => parseFunctionBodyBlock_ok hr hb ps k nx rest s hnx h) h) with a ea h
  refine Sat.bind (P := fun _ s' => St c ps (k + 0) (nx :: rest) s') (Sat.modify ?_) ?_
  · exact ⟨h.strict, h.loop, h.switch, h.params, h.stack, h.markers, h.here, h.clash⟩
  rintro _ _ h
  exact pure_ok ⟨ea, h⟩

theorem body_begins (hb : Body c ws t) : Begins (fun x => x = .punct .lBrace) ws := by
  cases hb; exact .cons rfl

theorem SAssign.regExp {inn : Bool} (h : SAssign inn nx) : nx.c.fits .regExp = true := by
  obtain ⟨x, n⟩ := nx
  cases x with
  | punct p => cases p <;> first | rfl | (have := h.opAssign; simp [isOpAssign, assignPuncts] at this; done) | (have := h.prec; simp [Complete.prec, binPrec] at this; done)
  | _ => rfl

/-- Bodies of arrow functions. -/
theorem parseArrowBody_ok (hr : RecOk r) {e : Bool} (hb : ArrowBody { c with yld := false, awt := true } ws t e) :
    Reads (parseArrowBody r) (fun p => (bareNode p.1, p.2)) c 0 0 ws (t, e) (SAssign c.inn) := by
  intro ps k nx rest s hnx h
  unfold parseArrowBody
  cases hb with
  | expr ha hne =>
    obtain ⟨⟨x, n⟩, w', rfl, hx⟩ := assign_begins ha
    lk! h ht
    have : isP x .lBrace = false := by
      cases x <;> first | rfl | skip
      simp only [isP, decide_eq_false_iff_not]
      rintro rfl; exact hne _ _ rfl
    refine ok_else (by rw [ht.isP, this]; simp) ?_
    rd! (withYieldAwait_ok (fun ps s h => hr.assign ha ps k nx rest s hnx h) h) with a h
    exact pure_ok ⟨rfl, h⟩
  | block hb =>
    have h1 := h
    obtain ⟨⟨x, n⟩, w', e, ex⟩ := body_begins hb
    rw [e] at h1
    subst ex
    have ht := h1.tok
    refine get_ok ?_
    refine ok_then (by tk ht) ?_
    rd! (withYieldAwait_ok (fun ps s h => parseFunctionBody_ok (c := { c with yld := false, awt := true }) hr hb ps k nx rest s trivial h) h) with a h
    exact pure_ok ⟨rfl, h⟩

end Giron.Complete

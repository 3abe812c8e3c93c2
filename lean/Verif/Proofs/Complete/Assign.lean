import Verif.Proofs.Complete.Binary
/-
Grammar completeness: conditional expressions, assignments and arrow functions.
-/
namespace Giron.Complete
open Giron M Spec Grammar Parser
variable [Env]

/-- The last parameter in parentheses. -/
inductive RestNode : Ctx → List Word → Node → Prop
  | mk {c ws b n} : Pat c ws b → RestNode c (P .ellipsis n :: ws) (.restElement b sp)

/-- The expression `x` becomes the parameter `p`. -/
def ParamOk (last : Bool) (x : Node) (p : FunctionParameter) : Prop :=
  ∀ a s, bareNode a = x → Ok (nodeToParam last a) s (fun y s' => bareFunctionParameter y = p ∧ s' = s)

/-- The expressions become the parameters. -/
inductive ToParams : List Node → List FunctionParameter → Prop
  | nil : ToParams [] []
  | last {x p} : ParamOk true x p → ToParams [x] [p]
  | cons {x p xs ps} : (∀ b, ParamOk b x p) → ToParams xs ps → ToParams (x :: xs) (p :: ps)

variable {α β : Type} {c c' : Ctx} {ps : List Giron.Params} {k : Nat} {w nx : Word} {ws rest l l' : List Word} {s : Parser}
  {v : Str} {n f g nst : Bool} {r : Rec} {t o a b : Node} {p q lo hi : Nat}

/-! ### Conditional expressions -/

theorem parseConditionalExpr_bin (hr : RecOk r) (hb : Bin (false, 1) f c ws t) :
    Reads (parseConditionalExpr r) bareNode c 0 (1 + left f) ws t (SCond c.inn) := by
  intro ps k nx rest s hnx h
  unfold parseConditionalExpr
  sp! h
  rde! (parseBinaryExpr_ok hr hb _ _ _ _ _ hnx.toSBin h) with a ea h
  lk! h ht
  refine ok_else (by rw [ht.matchesPunc, hnx.quest]; simp) ?_
  exact pure_ok ⟨ea, h.mono (by omega)⟩

theorem sBin_question {inn : Bool} : SBin inn 1 (P .question n) := ⟨⟨⟨⟨⟨rfl, rfl, rfl, rfl, rfl⟩, rfl⟩, fun _ => rfl⟩, rfl⟩, Nat.zero_lt_one⟩

theorem parseConditionalExpr_ok (hr : RecOk r) (hc : Cond c ws t) :
    Reads (parseConditionalExpr r) bareNode c 0 0 ws t (SAssign c.inn) := by
  intro ps k nx rest s hnx h
  cases hc with
  | bin hb =>
    refine Sat.mono (parseConditionalExpr_bin hr hb _ _ _ _ _ hnx.toSCond h) ?_
    rintro a s ⟨h1, h2⟩
    exact ⟨h1, h2.mono (by omega)⟩
  | cond hb h1 h2 =>
    unfold parseConditionalExpr
    nm! h
    sp! h
    rde! (parseBinaryExpr_ok hr hb _ _ _ _ _ sBin_question h) with a ea h
    lk! h ht
    refine ok_then (by tk ht) ?_
    eat! h (assign_fits h1).append.fits
    rde! (init_ok hr h1 _ _ _ _ _ (.punct _ (by decide)) h) with b eb h
    eat! h (assign_fits h2).append.fits
    rde! (hr.assign h2 _ _ _ _ _ hnx h) with d ed h
    have h : St c ps (k + 1) (nx :: rest) _ := h.mono (Nat.le_add_right _ _)
    es! h
    exact pure_ok ⟨by simp [bareNode, ea, eb, ed], h⟩

/-- A conditional expression that is a mere primary expression, for any follower. -/
theorem cond_of_primary (hr : RecOk r) (hb : Begins (PStart c) ws) (hnx : Stop c.inn nx)
    (hp : ∀ ps k s, St c ps k (ws ++ nx :: rest) s → Ok (parsePrimaryExpr r) s (fun a s' => bareNode a = t ∧ St c ps k (nx :: rest) s'))
    (h : St c ps k (ws ++ nx :: rest) s) :
    Ok (parseConditionalExpr r) s (fun a s' => bareNode a = t ∧ St c ps (k + 2) (nx :: rest) s') := by
  unfold parseConditionalExpr
  sp! h
  refine Sat.bind (P := fun a s' => bareNode a = t ∧ St c ps (k + 2) (nx :: rest) s') ?_ ?_
  · unfold parseBinaryExpr
    sp! h
    refine Sat.bind (P := fun a s' => bareNode a = t ∧ St c ps (k + 3) (nx :: rest) s') ?_ ?_
    · unfold parseExponentiationExpr
      refine get_ok ?_
      have h' := h
      obtain ⟨⟨x, n⟩, w', ew, hx⟩ := hb
      rw [ew] at h'
      have ht := h'.tok
      refine Sat.bind (P := fun b s' => b = false ∧ s' = _) (Sat.unwrapSome (isUnaryOp_ok h') ⟨hx.unary, rfl⟩) ?_
      rintro _ _ ⟨rfl, rfl⟩
      refine ok_else (by simp) ?_
      unfold parsePow
      sp! h
      clear h' ht
      refine Sat.bind (P := fun a s' => bareNode a = t ∧ St c ps (k + 4) (nx :: rest) s') ?_ ?_
      · unfold parseUpdateExpr
        have h' := h
        rw [ew] at h'
        have ht := h'.tok
        refine get_ok (ok_else (by rw [ht.isUpdateOp, hx.update]; simp) ?_)
        clear h' ht
        unfold parsePostfix
        sp! h
        refine get_ok ?_
        refine Sat.bind (P := fun a s' => bareNode a = t ∧ St c ps (k + 4) (nx :: rest) s') ?_ ?_
        · unfold parseLeftHandSideExpr
          have h' := h
          rw [ew] at h'
          have ht := h'.tok
          refine get_ok (ok_else (by rw [ht.isKw, hx.new]; simp) ?_)
          clear h' ht
          unfold parseCallExpr
          sp! h
          refine Sat.bind (P := fun a s' => bareNode a = t ∧ St c ps (k + 5) (nx :: rest) s') ?_ ?_
          · unfold parseCallHead
            have h' := h
            rw [ew] at h'
            have ht := h'.tok
            refine get_ok (ok_else (by rw [ht.isKw, hx.super]; simp) ?_)
            exact member_of_primary ⟨_, _, ew, hx⟩ hnx.noCall.toNoMember hp h
          · clear h
            rintro a _ ⟨ea, h⟩
            exact parseCallExprTail_ok hr hnx.noCall ea .nil h
        · clear h
          rintro a _ ⟨ea, h⟩
          refine get_ok ?_
          have ht := h.tok
          refine ok_else ?_ (pure_ok ⟨ea, h⟩)
          rw [h.nl, ht.isUpdateOp]
          rintro ⟨h1, h2⟩
          rw [hnx.upd h1] at h2
          cases h2
      · clear h
        rintro a _ ⟨ea, h⟩
        lk! h ht
        refine ok_else (by rw [ht.isP, hnx.pow]; simp) ?_
        es! h
        exact pure_ok ⟨ea, h⟩
    · clear h
      rintro a _ ⟨ea, h⟩
      unfold precedenceClimbing
      refine Sat.bind (P := fun a s' => bareNode a = t ∧ St c ps (k + 3) (nx :: rest) s') ?_ ?_
      · refine loop_ok (f := fun n => climbF r 1 n a) fun m => ?_
        cases m with
        | zero => exact rfl
        | succ m =>
          unfold climbF
          refine get_ok ?_
          have ht := h.tok
          refine ok_else ?_ (pure_ok ⟨ea, h⟩)
          rw [ht.precedence, h.params.inn, hnx.prec]
          omega
      · clear h ea a
        rintro a _ ⟨ea, h⟩
        es! h
        exact pure_ok ⟨ea, h⟩
  · clear h
    rintro a _ ⟨ea, h⟩
    lk! h ht
    refine ok_else (by rw [ht.matchesPunc, hnx.quest]; simp) ?_
    exact pure_ok ⟨ea, h⟩

/-! ### Phrases as other phrases -/

theorem bin_of_exp (h : Exp f c ws t) : ∀ {p}, p ≤ 12 → Bin (nst, p) f c ws t := by
  have : ∀ d p, p + d = 12 → Bin (nst, p) f c ws t := by
    intro d
    induction d with
    | zero => intro p hp; obtain rfl : p = 12 := by omega
              exact .operand h
    | succ d ih =>
      intro p hp
      have := Bin.chain (by omega) (ih (p + 1) (by omega)) (.nil (R := BinStep) (i := (nst, p, c)) (b := t))
      rwa [List.append_nil] at this
  intro p hp
  exact this (12 - p) p (by omega)

theorem bin_of_lhs (h : LHS f c ws t) : Bin (nst, 1) f c ws t := bin_of_exp (.unary (.update (.lhs h))) (by decide)

theorem lhs_of_primary (h : Primary c ws t) : LHS true c ws t := by
  have := LHS.mk (.primary h) (.nil (R := CallSuffix) (i := c) (b := t))
  rwa [List.append_nil] at this

theorem assign_of_primary (h : Primary c ws t) : Assign c ws t := .cond (.bin (bin_of_lhs (lhs_of_primary h)))

/-! ### Targets -/

/-- What can be assigned to is a variable, a member or in parentheses. -/
def Targets (t : Node) : Prop := t.assignTargetType = .simple → isTarget t = true

theorem primary_targets (h : Primary c ws t) : Targets t := by
  cases h with
  | «class» h => cases h; intro h; cases h
  | name _ _ => intro h; simpa [isTarget, Node.assignTargetType] using h
  | paren _ => intro h; simpa [isTarget, Node.assignTargetType] using h
  | _ => intro h; cases h

theorem head_targets (h : Head c ws t) : Targets t := by
  cases h with
  | primary h => exact primary_targets h
  | superDot _ => intro _; rfl
  | superIndex _ => intro _; rfl

theorem suffix_targets (h : CallSuffix c o ws t) : Targets t := by
  cases h with
  | member h =>
    cases h with
    | dot _ => intro _; rfl
    | index _ => intro _; rfl
    | tagged _ => intro h; cases h
  | call _ => intro h; cases h

theorem suffixes_targets (h : Many CallSuffix c o ws t) (ho : Targets o) : Targets t := by
  induction h with
  | nil => exact ho
  | cons h _ ih => exact ih (suffix_targets h)

theorem lhs_targets (h : LHS f c ws t) : Targets t := by
  cases h with
  | mk hh hl => exact suffixes_targets hl (head_targets hh)
  | superCall _ hl => exact suffixes_targets hl (fun h => by cases h)
  | new _ _ _ hl => exact suffixes_targets hl (fun h => by cases h)
  | newBare _ _ => intro h; cases h
  | newTarget => intro h; cases h

/-! ### Arrow functions -/

theorem arrowBody_fits {e : Bool} (h : ArrowBody c ws t e) : Begins (fun x => x.fits .regExp = true) ws := by
  cases h with
  | expr h _ => exact assign_fits h
  | block h => exact body_fits h

theorem parseSingleParamArrow_ok (hr : RecOk r) {e : Bool} (hb : ArrowBody { c with yld := false, awt := true } ws t e) :
    Reads (parseSingleParamArrow r v) bareNode c 1 0 (P .fatArrow n :: ws)
      (.arrowFunctionExpression none [.bindingIdentifier v] t false e false .invalid sp) (SAssign c.inn) := by
  intro ps k nx rest s hnx h
  unfold parseSingleParamArrow
  nm! h
  eat! h (arrowBody_fits hb).append.fits
  refine Sat.bind (parseArrowBody_ok hr hb _ _ _ _ _ hnx h) ?_
  clear h
  rintro ⟨b, e'⟩ _ ⟨eb, h⟩
  simp only [Prod.mk.injEq] at eb
  obtain ⟨rfl, rfl⟩ := eb
  dsimp only
  es! h
  exact pure_ok ⟨by simp [bareNode, bareOptNode, bareListFunctionParameter, bareFunctionParameter], h⟩

theorem seqToArrowParams_ok {xs : List Node} {ps : List FunctionParameter} (h : ToParams xs ps) : ∀ {as : List Node} {s},
    as.map bareNode = xs → Ok (seqToArrowParams as) s (fun ys s' => ys.map bareFunctionParameter = ps ∧ s' = s) := by
  induction h with
  | nil =>
    intro as s e
    cases as with
    | nil => exact ⟨rfl, rfl⟩
    | cons _ _ => cases e
  | last hp =>
    intro as s e
    match as, e with
    | [a], e =>
      cases e
      unfold seqToArrowParams
      refine Sat.bind (hp _ _ rfl) ?_
      rintro y _ ⟨rfl, rfl⟩
      exact ⟨rfl, rfl⟩
  | cons hp _ ih =>
    intro as s e
    cases as with
    | nil => cases e
    | cons a as =>
      simp only [List.map_cons, List.cons.injEq] at e
      unfold seqToArrowParams
      refine Sat.bind (hp _ _ _ e.1) ?_
      rintro y _ ⟨rfl, rfl⟩
      refine Sat.bind (ih e.2) ?_
      rintro ys _ ⟨rfl, rfl⟩
      exact ⟨rfl, rfl⟩

/-- The other ones. -/
def ArgNode (c : Ctx) (ws : List Word) (x : Node) : Prop := Assign { c with inn := true } ws x

theorem nodeToParam_bind {x : Node} {b : Binding} {p : FunctionParameter} (hb : BindPat x b)
    (hp : (∃ v s, b = .bindingIdentifier v s ∧ p = .bindingIdentifier v) ∨ (∃ es s, b = .arrayPattern es s ∧ p = .arrayPattern es) ∨
      (∃ es s, b = .objectPattern es s ∧ p = .objectPattern es)) (l : Bool) : ParamOk l x p := by
  intro a s ha
  obtain ⟨q, b', e1, e2, e3⟩ := bindPat_ok hb a ha
  unfold nodeToParam
  rw [e1]
  refine Sat.bind (P := fun y s' => y = q ∧ s' = s) ⟨rfl, rfl⟩ ?_
  rintro _ _ ⟨rfl, rfl⟩
  rcases hp with ⟨v, s, rfl, rfl⟩ | ⟨es, s, rfl, rfl⟩ | ⟨es, s, rfl, rfl⟩
  · cases b' <;> simp [bareBinding] at e3
    simp [Binding.toNode] at e2
    subst e2
    refine ⟨?_, rfl⟩
    simp [bareFunctionParameter, e3]
  · obtain ⟨es', s', rfl, rfl⟩ := bare_bArray e3
    simp [Binding.toNode] at e2
    subst e2
    exact ⟨by simp [bareFunctionParameter, bareHolesArrayPatternElement_eq], rfl⟩
  · obtain ⟨es', s', rfl, rfl⟩ := bare_bObject e3
    simp [Binding.toNode] at e2
    subst e2
    exact ⟨by simp [bareFunctionParameter, bareListObjectPatternProperty_eq], rfl⟩

theorem arrowParam_node {p : FunctionParameter} (h : ArrowParam c ws p) : ∃ x, ArgNode c ws x ∧ ∀ b, ParamOk b x p := by
  cases h with
  | @name _ v n hv hne =>
    exact ⟨_, assign_of_primary (c := { c with inn := true }) (.name (n := n) hv hne), nodeToParam_bind .name (.inl ⟨_, _, rfl, rfl⟩)⟩
  | array hp hb => exact ⟨_, assign_of_primary hp, nodeToParam_bind hb (.inr (.inl ⟨_, _, rfl, rfl⟩))⟩
  | object hp hb => exact ⟨_, assign_of_primary hp, nodeToParam_bind hb (.inr (.inr ⟨_, _, rfl, rfl⟩))⟩
  | @default _ v ws e n m hv hne hs ha =>
    refine ⟨_, .assign (lhs_of_primary (c := { c with inn := true }) (.name (n := n) hv hne)) hs ha, ?_⟩
    intro l a s ea
    obtain ⟨b', r', s', e1, e2, e3⟩ := bndDefault (bindPat_ok .name) ea
    unfold nodeToParam
    rw [e1]
    refine ⟨?_, rfl⟩
    simp [bareFunctionParameter, e2, e3]

theorem arrowParams_nodes {ps : List FunctionParameter} (h : CommasRest ArrowParam ParamRest c ws ps) :
    ∃ xs, CommasRest ArgNode RestNode c ws xs ∧ ToParams xs ps := by
  induction h with
  | nil => exact ⟨[], .nil, .nil⟩
  | last h =>
    obtain ⟨x, h1, h2⟩ := arrowParam_node h
    exact ⟨[x], .last h1, .last (h2 _)⟩
  | rest h =>
    cases h with
    | @mk _ _ b n hp =>
      refine ⟨[.restElement b sp], .rest (.mk hp), .last ?_⟩
      intro a s ha
      cases a <;> simp [bareNode] at ha
      unfold nodeToParam
      refine ⟨?_, rfl⟩
      simp [bareFunctionParameter, ha]
  | cons h _ ih =>
    obtain ⟨x, h1, h2⟩ := arrowParam_node h
    obtain ⟨xs, h3, h4⟩ := ih
    exact ⟨x :: xs, .cons h1 h3, .cons h2 h4⟩

theorem seqItem_arg (hr : RecOk r) : ReadsItem .rParen (seqItem r) (fun x => bareNode x.1) c (ArgNode c) := by
  intro w a ha ps k l l' s hl h
  unfold seqItem
  refine get_ok ?_
  obtain ⟨⟨x, n⟩, hx, ht⟩ := begins_tok (assign_begins ha) h
  refine ok_else (by rw [ht.isP, startsExpr_isP hx]; simp) ?_
  rcases hl with ⟨n, rfl, hf⟩ | ⟨n, X, rfl, rfl⟩
  · rd! (init_ok hr ha _ _ _ _ _ (.punct _ (by decide)) h) with a h
    lk! h ht
    refine ok_else (by tk ht) ?_
    eat! h hf
    refine get_ok ?_
    exact pure_ok ⟨rfl, h⟩
  · rd! (init_ok hr ha _ _ _ _ _ (.punct _ (by decide)) h) with a h
    lk! h ht
    exact ok_then (by tk ht) (pure_ok ⟨rfl, h⟩)

theorem seqItem_rest (hr : RecOk r) {x : Node} (hx : RestNode c ws x) :
    Reads (seqItem r) (fun x => bareNode x.1) c 0 0 ws x (fun nx => ∃ n, nx = P .rParen n) := by
  rintro ps k _ rest s ⟨n, rfl⟩ h
  cases hx with
  | mk hp =>
    unfold seqItem
    nm! h
    lk! h ht
    refine ok_then (by tk ht) ?_
    sp! h
    ad! h ht (pat_fits _ hp).append.fits
    rde! (hr.pat hp _ _ _ _ _ ⟨rfl, rfl⟩ h) with a ea h
    es! h
    exact pure_ok ⟨by simp [bareNode, ea], h⟩

/-- Arrow functions with parameters in parentheses. -/
theorem parseSeqOrArrow_arrow (hr : RecOk r) {ps : List FunctionParameter} {m j e : Bool} {ws' : List Word}
    (hp : CommasRest ArrowParam ParamRest c ws ps) (hb : ArrowBody { c with yld := false, awt := true } ws' b e) :
    Reads (parseSeqOrArrow r) bareNode c 0 0 (P .lParen n :: (ws ++ P .rParen m :: P .fatArrow j :: ws'))
      (.arrowFunctionExpression none ps b false e false .invalid sp) (SAssign c.inn) := by
  intro pst k nx rest s hnx h
  obtain ⟨xs, h1, h2⟩ := arrowParams_nodes hp
  have hR : ∀ w a, ArgNode c w a → Begins (ItemStart' .rParen) w := fun w a h => (assign_begins h).mono fun _ h => ItemStart.of_expr h
  have hS : ∀ w a, RestNode c w a → Begins (fun x => x = .punct .ellipsis) w := fun w a h => by cases h; exact .cons rfl
  unfold parseSeqOrArrow
  nm! h
  sp! h
  eat! h (commasRest_fits rfl hR hS h1)
  rde! (untilPuncOrRest_commas rfl (by decide) hR hS (seqItem_arg hr) (fun _ _ h => seqItem_rest hr h) h1 h) with ys ey h
  eat! h rfl
  lk! h ht
  refine ok_then (by rw [ht.matchesPunc]; simp [isP]) ?_
  unfold seqToArrow
  refine Sat.bind (seqToArrowParams_ok h2 (as := ys.map Prod.fst) (by rw [← ey]; simp [Function.comp_def])) ?_
  rintro qs _ ⟨eq, rfl⟩
  eat! h (arrowBody_fits hb).append.fits
  refine Sat.bind (parseArrowBody_ok hr hb _ _ _ _ _ hnx h) ?_
  clear h
  rintro ⟨b, e'⟩ _ ⟨eb, h⟩
  simp only [Prod.mk.injEq] at eb
  obtain ⟨rfl, rfl⟩ := eb
  dsimp only
  es! h
  exact pure_ok ⟨by simp [bareNode, bareOptNode, bareListFunctionParameter_eq, eq], h⟩

/-! ### Assignments -/

theorem arrowIfIdentifier_no (ha : isP nx.c .fatArrow = false) (h : St c ps k (nx :: rest) s) :
    Ok (arrowIfIdentifier r a) s (fun x s' => x = a ∧ s' = s) := by
  unfold arrowIfIdentifier
  split
  · lk! h ht
    refine ok_else (by rw [ht.isP, ha]; simp) ?_
    exact pure_ok ⟨rfl, rfl⟩
  · exact pure_ok ⟨rfl, rfl⟩

theorem sCond_assign {inn : Bool} : SCond inn (P .assign n) :=
  ⟨⟨⟨⟨⟨⟨rfl, rfl, rfl, rfl, rfl⟩, rfl⟩, fun _ => rfl⟩, rfl⟩, Nat.zero_lt_one⟩, rfl⟩

theorem sCond_opAssign {inn : Bool} {p : Punctuator} (hp : p ∈ assignPuncts) : SCond inn (P p n) := by
  simp only [assignPuncts, List.mem_cons, List.not_mem_nil, or_false] at hp
  rcases hp with rfl | rfl | rfl | rfl | rfl | rfl | rfl | rfl | rfl | rfl | rfl | rfl <;>
  exact ⟨⟨⟨⟨⟨⟨rfl, rfl, rfl, rfl, rfl⟩, rfl⟩, fun _ => rfl⟩, rfl⟩, Nat.zero_lt_one⟩, rfl⟩

/-- Not a `yield` expression. -/
theorem notYield {Q : Node → Parser → Prop} {m m' : PM Node} (hb : Begins (noYield c) ws) (h : St c ps k (ws ++ l) s) (hm : Ok m' s Q) :
    Ok (if s.params.hasYield && s.current.matchesStr cs!"yield" then m else m') s Q := by
  obtain ⟨⟨x, n⟩, hx, ht⟩ := begins_tok hb h
  refine ok_else ?_ hm
  rw [h.params.yld, ht.matchesStr]
  intro hy
  simp only [Bool.and_eq_true] at hy
  rw [hx hy.1] at hy
  cases hy.2

/-- Plain assignment. -/
theorem parseAssignTail_ok (hr : RecOk r) {p a' : Node} (ha : ∃ q, toAssignmentPattern a' = .ok q ∧ bareNode q = p) (hs : p.assignTargetType = .simple)
    (hb : Assign c ws b) : Reads (parseAssignTail r a') bareNode c 1 0 (P .assign n :: ws) (.assignmentExpression cs!"=" p b .invalid sp) (SAssign c.inn) := by
  intro ps k nx rest s hnx h
  unfold parseAssignTail
  nm! h
  ad! h ht (assign_fits hb).append.fits
  obtain ⟨q, e1, rfl⟩ := ha
  refine Sat.bind (P := fun y s' => y = q ∧ s' = _) (by rw [e1]; exact ⟨rfl, rfl⟩) ?_
  rintro _ _ ⟨rfl, rfl⟩
  rw [att_bare] at hs
  refine ok_else (by rw [hs]; simp) ?_
  rde! (hr.assign hb _ _ _ _ _ hnx h) with x ex h
  es! h
  exact pure_ok ⟨by simp [bareNode, ex], h⟩

/-- Compound assignment. -/
theorem parseOpAssignTail_ok (hr : RecOk r) {a' : Node} {p : Punctuator} (ha : bareNode a' = a) (hs : a.assignTargetType = .simple)
    (hb : Assign c ws b) : Reads (parseOpAssignTail r a') bareNode c 1 0 (P p n :: ws) (.assignmentExpression p.toStr a b .invalid sp) (SAssign c.inn) := by
  intro ps k nx rest s hnx h
  unfold parseOpAssignTail
  nm! h
  refine Sat.bind (advance_ok h (assign_fits hb).append.fits) ?_
  clear h
  rintro t _ ⟨ht, h⟩
  refine Sat.bind (P := fun y s' => y = p ∧ s' = _) (Sat.unwrapSome (by rw [ht.value]; rfl) ⟨rfl, rfl⟩) ?_
  rintro _ _ ⟨rfl, rfl⟩
  rw [← ha, att_bare] at hs
  refine ok_else (by rw [hs]; simp) ?_
  rde! (hr.assign hb _ _ _ _ _ hnx h) with x ex h
  es! h
  exact pure_ok ⟨by simp [bareNode, ha, ex], h⟩

/-- After the left-hand side, if no assignment follows. -/
theorem assign_done (hnx : SAssign c.inn nx) {a' : Node} (ha : bareNode a' = t) (h : St c ps (k + 1) (nx :: rest) s) :
    Ok (do
      let t ← cur
      if t.isP .assign then parseAssignTail r a'
      else if t.tokentype = .punctuator ∧ t.isAssignOp then parseOpAssignTail r a'
      else do
        let _ ← endSpan
        pure a') s (fun x s' => bareNode x = t ∧ St c ps k (nx :: rest) s') := by
  lk! h ht
  refine ok_else (by rw [ht.isP, hnx.assign]; simp) ?_
  refine ok_else (by rw [ht.isAssignOp, hnx.opAssign]; simp) ?_
  es! h
  exact pure_ok ⟨ha, h⟩

theorem yld_eta (h : c.yld = true) : { c with yld := true } = c := by
  cases c; simp_all

theorem parseAssignmentExpr_ok (hr : RecOk r) (ha : Assign c ws t) :
    Reads (parseAssignmentExpr r) bareNode c 0 0 ws t (SAssign c.inn) := by
  intro ps k nx rest s hnx h
  unfold parseAssignmentExpr
  refine get_ok ?_
  cases ha with
  | cond hc =>
    refine notYield ((cond_begins hc).mono fun _ h => h.yld) h ?_
    sp! h
    rde! (parseConditionalExpr_ok hr hc _ _ _ _ _ hnx h) with a ea h
    refine Sat.bind (arrowIfIdentifier_no hnx.arrow h) ?_
    rintro _ _ ⟨rfl, rfl⟩
    exact assign_done hnx ea h
  | assign hl hs hb =>
    refine notYield ((lhs_begins hl).append.mono fun _ h => h.yld) h ?_
    nm! h
    sp! h
    rde! (parseConditionalExpr_bin hr (bin_of_lhs hl) _ _ _ _ _ sCond_assign h) with a ea h
    refine Sat.bind (arrowIfIdentifier_no rfl h) ?_
    rintro a _ ⟨rfl, rfl⟩
    lk! h ht
    refine ok_then (by tk ht) ?_
    have htg : isTarget (bareNode a) = true := by rw [ea]; exact lhs_targets hl hs
    exact parseAssignTail_ok hr ⟨_, toAssign_self htg, ea⟩ hs hb _ _ _ _ _ hnx (h.mono (k' := k + 1) (by omega))
  | @opAssign _ _ _ _ p _ _ _ hl hs hp hb =>
    refine notYield ((lhs_begins hl).append.mono fun _ h => h.yld) h ?_
    nm! h
    sp! h
    rde! (parseConditionalExpr_bin hr (bin_of_lhs hl) _ _ _ _ _ (sCond_opAssign hp) h) with a ea h
    have hno : isP (.punct p) .fatArrow = false ∧ isP (.punct p) .assign = false := by
      simp only [assignPuncts, List.mem_cons, List.not_mem_nil, or_false] at hp
      rcases hp with rfl | rfl | rfl | rfl | rfl | rfl | rfl | rfl | rfl | rfl | rfl | rfl <;> exact ⟨rfl, rfl⟩
    refine Sat.bind (arrowIfIdentifier_no hno.1 h) ?_
    rintro _ _ ⟨rfl, rfl⟩
    lk! h ht
    refine ok_else (by rw [ht.isP, hno.2]; simp) ?_
    refine ok_then ⟨by rw [ht.punctuator]; exact ⟨_, rfl⟩, by rw [ht.isAssignOp]; simp [isOpAssign, hp]⟩ ?_
    exact parseOpAssignTail_ok hr ea hs hb _ _ _ _ _ hnx (h.mono (k' := k + 1) (by omega))
  | pattern hp hpat hb =>
    have hl := lhs_of_primary hp
    refine notYield ((lhs_begins hl).append.mono fun _ h => h.yld) h ?_
    nm! h
    sp! h
    rde! (parseConditionalExpr_bin hr (bin_of_lhs hl) _ _ _ _ _ sCond_assign h) with a ea h
    refine Sat.bind (arrowIfIdentifier_no rfl h) ?_
    rintro a _ ⟨rfl, rfl⟩
    lk! h ht
    refine ok_then (by tk ht) ?_
    obtain ⟨q, e1, e2, -⟩ := assignPat_ok hpat a ea
    have hs : (bareNode q).assignTargetType = .simple := by rw [e2]; cases hpat <;> rfl
    exact parseAssignTail_ok hr ⟨_, e1, e2⟩ (e2 ▸ hs) hb _ _ _ _ _ hnx (h.mono (k' := k + 1) (by omega))
  | @arrow _ v _ b e n m hv hne hb =>
    have hpr : ∀ ps k rest s, St c ps k ([W v n] ++ P .fatArrow m :: rest) s → Ok (parsePrimaryExpr r) s
        (fun a s' => bareNode a = .identifier v (nameTarget c v) sp ∧ St c ps k (P .fatArrow m :: rest) s') := by
      intro ps k rest s h
      unfold parsePrimaryExpr
      refine get_ok ?_
      have ht := h.tok
      have h1 : ∀ {u}, u = cs!"function" ∨ u = cs!"class" ∨ u = cs!"this" → s.current.isKw u = false := by
        intro u hu
        rw [ht.isKw]
        rw [isKw, Bool.and_eq_false_iff, decide_eq_false_iff_not, decide_eq_false_iff_not]
        rcases hv.cases with ⟨hk', -⟩ | ⟨rfl, -⟩ | ⟨rfl, -⟩
        · exact .inl hk'
        · rcases hu with rfl | rfl | rfl <;> exact .inr (by decide)
        · rcases hu with rfl | rfl | rfl <;> exact .inr (by decide)
      refine ok_else (by rw [h1 (.inl rfl)]; simp) (ok_else (by rw [ht.isId]; simp [isId, hne])
        (ok_else (by rw [h1 (.inr (.inl rfl))]; simp) (ok_else (by rw [h1 (.inr (.inr rfl))]; simp) (ok_then ?_ ?_))))
      · rw [ht.isIdOrKw]; exact hv.wordy
      · exact parseIdReference_ok hv _ _ _ _ _ rfl h
    refine notYield (.cons (ref_start hv).yld) h ?_
    nm! h
    sp! h
    have h : St c ps (k + 1) ([W v n] ++ P .fatArrow m :: _) _ := h
    rde! (cond_of_primary hr (.cons (ref_start hv)) ⟨rfl, rfl, rfl, rfl, rfl, fun _ => rfl, rfl, rfl, rfl⟩ (hpr · · _ ·) h) with a ea h
    obtain ⟨s', rfl⟩ := bare_identifier ea
    refine Sat.bind (P := fun a s' => bareNode a = .arrowFunctionExpression none [.bindingIdentifier v] b false e false .invalid sp ∧
      St c ps (k + 1) (nx :: rest) s') ?_ ?_
    · unfold arrowIfIdentifier
      lk! h ht
      refine ok_then (by tk ht) ?_
      exact parseSingleParamArrow_ok hr hb _ _ _ _ _ hnx (h.mono (k' := k + 1 + 1) (by omega))
    · clear h
      rintro x _ ⟨ex, h⟩
      exact assign_done hnx ex h
  | @arrowParen _ w qs w' b e n m j hp hb =>
    refine notYield (.cons (fun _ => rfl)) h ?_
    sp! h
    have hpr : ∀ ps k s, St c ps k (P .lParen n :: (w ++ P .rParen m :: P .fatArrow j :: w') ++ nx :: rest) s →
        Ok (parsePrimaryExpr r) s (fun a s' =>
          bareNode a = .arrowFunctionExpression none qs b false e false .invalid sp ∧ St c ps k (nx :: rest) s') := by
      intro ps k s h
      unfold parsePrimaryExpr
      have ht := h.tok
      refine get_ok ?_
      br ht
      exact parseSeqOrArrow_arrow hr hp hb _ _ _ _ _ hnx h
    rde! (cond_of_primary hr (.cons (.punct (.inl rfl))) hnx.toSCond.stop hpr h) with a ea h
    refine Sat.bind (arrowIfIdentifier_no hnx.arrow h) ?_
    rintro _ _ ⟨rfl, rfl⟩
    exact assign_done hnx ea (h.mono (by omega))
  | @asyncArrow _ v w b e n hv hb =>
    refine notYield (.cons (fun _ => rfl)) h ?_
    sp! h
    have hpr : ∀ ps k s, St c ps k (W cs!"async" n :: W v false :: P .fatArrow false :: w ++ nx :: rest) s →
        Ok (parsePrimaryExpr r) s (fun a s' =>
          bareNode a = .asyncArrowFunctionExpression none [.bindingIdentifier v] b false e true .invalid sp ∧
            St c ps k (nx :: rest) s') := by
      intro ps k s h
      unfold parsePrimaryExpr
      have ht := h.tok
      refine get_ok ?_
      br ht
      nm! h
      unfold parseAsyncPrimaryExpr
      sp! h
      rde! (parseIdReference_ok async_ref _ _ _ _ _ rfl h) with a ea h
      refine get_ok ?_
      have ht := h.tok
      have hvf : isKw (.name v) cs!"function" = false := by
        rw [isKw, Bool.and_eq_false_iff, decide_eq_false_iff_not, decide_eq_false_iff_not]
        rcases hv.cases with ⟨hk', -⟩ | ⟨rfl, -⟩ | ⟨rfl, -⟩
        · exact .inl hk'
        · exact .inr (by decide)
        · exact .inr (by decide)
      refine ok_then h.nl (ok_else (by tk ht) (ok_else (by tk ht) (ok_else (by rw [ht.isKw, hvf]; simp) ?_)))
      refine Sat.bind (withParams_ok (c := c) (c' := { c with awt := true }) (ws := [W v false] ++ P .fatArrow false :: (w ++ nx :: rest))
        (Q := fun a => bareNode a = .identifier v (nameTarget c v) sp) ⟨rfl, rfl, rfl⟩ (fun _ h => { h with awt := rfl })
        (fun ps s h => parseIdReference_ok hv ps (k + 1) _ _ _ (by rfl) h) h) ?_
      clear h
      rintro a' _ ⟨ea', h⟩
      obtain ⟨s', rfl⟩ := bare_identifier ea'
      refine Sat.bind (P := fun x s1 => x = v ∧ St c ps (k + 1) (P .fatArrow false :: (w ++ nx :: rest)) s1) (pure_ok ⟨rfl, h⟩) ?_
      clear h
      rintro x _ ⟨ex, h⟩
      refine get_ok ?_
      have ht := h.tok
      refine ok_then ⟨h.nl, by tk ht⟩ ?_
      ad! h ht (arrowBody_fits hb).append.fits
      refine Sat.bind (parseArrowBody_ok hr hb _ _ _ _ _ hnx h) ?_
      clear h
      rintro ⟨b, e'⟩ _ ⟨eb, h⟩
      simp only [Prod.mk.injEq] at eb
      obtain ⟨rfl, rfl⟩ := eb
      dsimp only
      es! h
      exact pure_ok ⟨by simp [bareNode, bareOptNode, bareListFunctionParameter, bareFunctionParameter, ex], h⟩
    have hst : PStart c (.name cs!"async") := ref_start async_ref
    rde! (cond_of_primary hr (.cons hst) hnx.toSCond.stop hpr h) with a ea h
    refine Sat.bind (arrowIfIdentifier_no hnx.arrow h) ?_
    rintro _ _ ⟨rfl, rfl⟩
    exact assign_done hnx ea (h.mono (by omega))
  | «yield» hy hb hl =>
    nm! h
    have ht := h.tok
    refine ok_then (by rw [h.params.yld, hy]; tk ht) ?_
    unfold parseYieldExpr
    sp! h
    kw! h (assign_fits hb).append.fits
    refine get_ok ?_
    have h' := h
    obtain ⟨⟨x, n⟩, w', rfl, hx⟩ := assign_begins hb
    have ht := h.tok
    refine ok_then (by rw [h.nl]; exact hl) ?_
    refine ok_else (by rw [ht.isP, startsExpr_isP hx]; simp) (ok_else (by rw [ht.isP, startsExpr_isP hx]; simp) ?_)
    rde! (withYield_ok (fun ps s h => hr.assign (by rw [yld_eta hy]; exact hb) ps (k + 1) nx rest s hnx h) h) with a ea h
    es! h
    exact pure_ok ⟨by simp [bareNode, bareOptNode, ea], h⟩
  | yieldAll hy hb =>
    nm! h
    have ht := h.tok
    refine ok_then (by rw [h.params.yld, hy]; tk ht) ?_
    unfold parseYieldExpr
    sp! h
    kw! h rfl
    refine get_ok ?_
    have ht := h.tok
    refine ok_then (by rw [h.nl]) ?_
    refine ok_then (by tk ht) ?_
    ad! h ht (assign_fits hb).append.fits
    rde! (withYield_ok (fun ps s h => hr.assign (by rw [yld_eta hy]; exact hb) ps (k + 1) nx rest s hnx h) h) with a ea h
    es! h
    exact pure_ok ⟨by simp [bareNode, bareOptNode, ea], h⟩

end Giron.Complete

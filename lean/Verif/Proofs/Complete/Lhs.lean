import Verif.Proofs.Complete.Convert
/-
Grammar completeness: member and call expressions, update and unary expressions.
-/
namespace Giron.Complete
open Giron M Spec Grammar Parser
variable [Env]
variable {α β : Type} {c c' : Ctx} {ps : List Giron.Params} {k : Nat} {w nx : Word} {ws rest l l' : List Word} {s : Parser}
  {v : Str} {n f : Bool} {r : Rec} {t o : Node}

/-! ### Members and calls -/

/-- Nothing that goes on with a member expression. -/
structure NoMember (w : Word) : Prop where
  fit : w.c.fits .div = true
  lbr : isP w.c .lBracket = false
  dot : isP w.c .dot = false
  head : isHead w.c = false

/-- Nothing that goes on with a call. -/
structure NoCall (w : Word) : Prop extends NoMember w where
  paren : isP w.c .lParen = false

theorem SMember.noMember (h : SMember nx) : NoMember nx := ⟨h.fit, h.lbr, h.dot, h.head⟩
theorem SCall.noCall (h : SCall nx) : NoCall nx := ⟨h.noMember, h.paren⟩
theorem Stop.noCall {inn : Bool} (h : Stop inn nx) : NoCall nx := ⟨⟨h.fit, h.lbr, h.dot, h.head⟩, h.paren⟩

theorem parseComputedMemberExpr_ok (hr : RecOk r) {m : Bool} (he : Expr { c with inn := true } ws t) (a : Node) :
    Reads (parseComputedMemberExpr r a) bareNode c 0 0 (P .lBracket n :: (ws ++ [P .rBracket m]))
      (.computedMemberExpression true (bareNode a) t .simple sp) (fun nx => nx.c.fits .div = true) := by
  intro ps k nx rest s hnx h
  unfold parseComputedMemberExpr
  nm! h
  sp! h
  eat! h (expr_fits he).append.fits
  rd! (withExpr_ok hr he _ _ _ _ _ (.punct _ (by decide)) h) with e h
  es! h
  eat! h hnx
  exact pure_ok ⟨rfl, h⟩

theorem parseStaticMemberExpr_ok {m : Bool} (hv : PropName v) (a : Node) :
    Reads (parseStaticMemberExpr a) bareNode c 0 0 [P .dot n, W v m]
      (.staticMemberExpression false (bareNode a) (.identifier v .invalid sp) .simple sp) (fun nx => nx.c.fits .div = true) := by
  intro ps k nx rest s hnx h
  unfold parseStaticMemberExpr
  nm! h
  sp! h
  eat! h rfl
  sp! h
  rd! (parseIdName_ok h hv hnx) with x h
  es! h
  es! h
  exact pure_ok ⟨rfl, h⟩

/-- How steps to members begin. -/
structure SuffixStart (x : Content) : Prop where
  fit : x.fits .div = true
  arrow : isP x .fatArrow = false
  paren : isP x .lParen = false

theorem suffix_cases (hr : RecOk r) (hs : Suffix c o ws t) :
    (Begins (fun x => x = .punct .lBracket) ws ∧ ∀ a, bareNode a = o →
      Reads (parseComputedMemberExpr r a) bareNode c 0 0 ws t (fun nx => nx.c.fits .div = true)) ∨
    (Begins (fun x => x = .punct .dot) ws ∧ ∀ a, bareNode a = o →
      Reads (parseStaticMemberExpr a) bareNode c 0 0 ws t (fun nx => nx.c.fits .div = true)) ∨
    (Begins (fun x => isHead x = true) ws ∧ ∀ a, bareNode a = o →
      Reads (parseTaggedTemplate r a) bareNode c 0 0 ws t (fun _ => True)) := by
  cases hs with
  | dot hv => exact .inr (.inl ⟨.cons rfl, fun a ha => by subst ha; exact parseStaticMemberExpr_ok hv a⟩)
  | index he => exact .inl ⟨.cons rfl, fun a ha => by subst ha; exact parseComputedMemberExpr_ok hr he a⟩
  | tagged ht =>
    exact .inr (.inr ⟨(template_begins ht).mono fun _ h => h.2, fun a ha => by subst ha; exact parseTaggedTemplate_ok hr ht a⟩)

theorem suffix_begins (hs : Suffix c o ws t) : Begins SuffixStart ws := by
  cases hs with
  | dot hv => exact .cons ⟨rfl, rfl, rfl⟩
  | index he => exact .cons ⟨rfl, rfl, rfl⟩
  | tagged ht =>
    refine (template_begins ht).mono fun x h => ?_
    cases x <;> simp [isHead] at h
    exact ⟨rfl, rfl, rfl⟩

theorem args_begins {es : List ArgumentListElement} (h : Args c ws es) : Begins (fun x => x = .punct .lParen) ws := by
  cases h; exact .cons rfl

theorem callSuffix_begins (hs : CallSuffix c o ws t) : Begins (fun x => x.fits .div = true ∧ isP x .fatArrow = false) ws := by
  cases hs with
  | member h => exact (suffix_begins h).mono fun _ h => ⟨h.fit, h.arrow⟩
  | call h => exact (args_begins h).mono fun _ h => by subst h; exact ⟨rfl, rfl⟩

theorem suffixes_prim (hs : Many Suffix c o ws t) (hnx : SPrim nx) : SPrim (first ws nx) := by
  cases hs with
  | nil => exact hnx
  | cons h _ =>
    obtain ⟨x, w', rfl, hx⟩ := suffix_begins h
    exact ⟨hx.fit, hx.arrow⟩

theorem callSuffixes_prim (hs : Many CallSuffix c o ws t) (hnx : SPrim nx) : SPrim (first ws nx) := by
  cases hs with
  | nil => exact hnx
  | cons h _ =>
    obtain ⟨x, w', rfl, hx⟩ := callSuffix_begins h
    exact ⟨hx.1, hx.2⟩

theorem suffixes_fits (hs : Many Suffix c o ws t) (hnx : nx.c.fits .div = true) : (first ws nx).c.fits .div = true := by
  cases hs with
  | nil => exact hnx
  | cons h _ =>
    obtain ⟨x, w', rfl, hx⟩ := suffix_begins h
    exact hx.fit

theorem callSuffixes_fits (hs : Many CallSuffix c o ws t) (hnx : nx.c.fits .div = true) : (first ws nx).c.fits .div = true := by
  cases hs with
  | nil => exact hnx
  | cons h _ =>
    obtain ⟨x, w', rfl, hx⟩ := callSuffix_begins h
    exact hx.1

theorem memberLoopF_ok (hr : RecOk r) (hnx : NoMember nx) (m : Nat) : ∀ {ws o t s a}, bareNode a = o → Many Suffix c o ws t →
    St c ps k (ws ++ nx :: rest) s →
    Ok (memberLoopF r m a) s (fun a s' => bareNode a = t ∧ St c ps k (nx :: rest) s') := by
  induction m with
  | zero => intro _ _ _ _ _ _ _ _; exact rfl
  | succ m ih =>
    intro ws o t s a ha hl h
    unfold memberLoopF
    cases hl with
    | nil =>
      lk! h ht
      refine ok_else (by rw [ht.isP, hnx.lbr]; simp) (ok_else (by rw [ht.isP, hnx.dot]; simp)
        (ok_else (by rw [ht.templateHead, hnx.head]; simp) ?_))
      exact pure_ok ⟨ha, h⟩
    | @cons _ _ _ _ w ws hs hl =>
      nm! h
      obtain ⟨l, e⟩ := first_cons ws nx rest
      have hf := suffixes_fits hl hnx.fit
      refine get_ok ?_
      rw [e] at h
      rcases suffix_cases hr hs with ⟨hb, hp⟩ | ⟨hb, hp⟩ | ⟨hb, hp⟩
      · obtain ⟨⟨x, n⟩, rfl, ht⟩ := begins_tok hb h
        refine ok_then (by tk ht) ?_
        rde! (hp a ha _ _ _ _ _ hf h) with a' ha' h
        rw [← e] at h
        exact ih ha' hl h
      · obtain ⟨⟨x, n⟩, rfl, ht⟩ := begins_tok hb h
        refine ok_else (by tk ht) (ok_then (by tk ht) ?_)
        rde! (hp a ha _ _ _ _ _ hf h) with a' ha' h
        rw [← e] at h
        exact ih ha' hl h
      · obtain ⟨⟨x, n⟩, hx, ht⟩ := begins_tok hb h
        refine ok_else ?_ (ok_else ?_ (ok_then (by rw [ht.templateHead]; exact hx) ?_))
        · rw [ht.isP]; cases x <;> simp [isHead, isP] at hx ⊢
        · rw [ht.isP]; cases x <;> simp [isHead, isP] at hx ⊢
        rde! (hp a ha _ _ _ _ _ trivial h) with a' ha' h
        rw [← e] at h
        exact ih ha' hl h

theorem callLoopF_ok (hr : RecOk r) (hnx : NoCall nx) (m : Nat) : ∀ {ws o t s a}, bareNode a = o → Many CallSuffix c o ws t →
    St c ps (k + 1) (ws ++ nx :: rest) s →
    Ok (callLoopF r m a) s (fun a s' => bareNode a = t ∧ St c ps (k + 1) (nx :: rest) s') := by
  induction m with
  | zero => intro _ _ _ _ _ _ _ _; exact rfl
  | succ m ih =>
    intro ws o t s a ha hl h
    unfold callLoopF
    cases hl with
    | nil =>
      lk! h ht
      refine ok_else (by rw [ht.isP, hnx.paren]; simp) (ok_else (by rw [ht.isP, hnx.lbr]; simp) (ok_else (by rw [ht.isP, hnx.dot]; simp)
        (ok_else (by rw [ht.templateHead, hnx.head]; simp) ?_)))
      exact pure_ok ⟨ha, h⟩
    | @cons _ _ _ _ w ws hs hl =>
      nm! h
      obtain ⟨l, e⟩ := first_cons ws nx rest
      have hf := callSuffixes_fits hl hnx.fit
      refine get_ok ?_
      rw [e] at h
      cases hs with
      | call hs =>
        obtain ⟨⟨x, n⟩, rfl, ht⟩ := begins_tok (args_begins hs) h
        refine ok_then (by tk ht) ?_
        rde! (parseArguments_ok hr hs _ _ _ _ _ hf h) with xs exs h
        pk! h
        rw [← e] at h
        exact ih (by simp [bareNode, bareListArgumentListElement_eq, ha, exs]) hl h
      | member hs =>
        rcases suffix_cases hr hs with ⟨hb, hp⟩ | ⟨hb, hp⟩ | ⟨hb, hp⟩
        · obtain ⟨⟨x, n⟩, rfl, ht⟩ := begins_tok hb h
          refine ok_else (by tk ht) (ok_then (by tk ht) ?_)
          rde! (hp a ha _ _ _ _ _ hf h) with a' ha' h
          rw [← e] at h
          exact ih ha' hl h
        · obtain ⟨⟨x, n⟩, rfl, ht⟩ := begins_tok hb h
          refine ok_else (by tk ht) (ok_else (by tk ht) (ok_then (by tk ht) ?_))
          rde! (hp a ha _ _ _ _ _ hf h) with a' ha' h
          rw [← e] at h
          exact ih ha' hl h
        · obtain ⟨⟨x, n⟩, hx, ht⟩ := begins_tok hb h
          refine ok_else ?_ (ok_else ?_ (ok_else ?_ (ok_then (by rw [ht.templateHead]; exact hx) ?_)))
          · rw [ht.isP]; cases x <;> simp [isHead, isP] at hx ⊢
          · rw [ht.isP]; cases x <;> simp [isHead, isP] at hx ⊢
          · rw [ht.isP]; cases x <;> simp [isHead, isP] at hx ⊢
          rde! (hp a ha _ _ _ _ _ trivial h) with a' ha' h
          rw [← e] at h
          exact ih ha' hl h

/-- Calls and members after a callee. -/
theorem parseCallExprTail_ok (hr : RecOk r) (hnx : NoCall nx) {a : Node} (ha : bareNode a = o) (hl : Many CallSuffix c o ws t)
    (h : St c ps (k + 1) (ws ++ nx :: rest) s) :
    Ok (parseCallExprTail r a) s (fun a s' => bareNode a = t ∧ St c ps k (nx :: rest) s') := by
  unfold parseCallExprTail
  rde! (loop_ok (f := fun n => callLoopF r n a) fun n => callLoopF_ok hr hnx n ha hl h) with a ea h
  es! h
  exact pure_ok ⟨ea, h⟩

/-- The steps to members that come first. -/
theorem split_suffixes (h : Many CallSuffix c o ws t) : ∃ w1 w2 m, ws = w1 ++ w2 ∧ Many Suffix c o w1 m ∧ Many CallSuffix c m w2 t ∧
    (w2 = [] ∨ Begins (fun x => x = .punct .lParen) w2) := by
  induction h with
  | nil => exact ⟨[], [], _, rfl, .nil, .nil, .inl rfl⟩
  | @cons i o o' t w ws hs hl ih =>
    cases hs with
    | call ha => exact ⟨[], w ++ ws, o, rfl, .nil, .cons (.call ha) hl, .inr (args_begins ha).append⟩
    | member hs =>
      obtain ⟨w1, w2, m, rfl, h1, h2, h3⟩ := ih
      exact ⟨w ++ w1, w2, m, by simp, .cons hs h1, h2, h3⟩

/-- The step of `parse_super` -/
theorem parseSuper_ok {p : Punctuator} {m : Bool} (hp : p = .lBracket ∨ p = .dot ∨ p = .lParen)
    (h : St c ps k (W cs!"super" n :: P p m :: l) s) :
    Ok parseSuper s (fun a s' => bareNode a = .super .simple sp ∧ St c ps k (P p m :: l) s') := by
  unfold parseSuper
  sp! h
  kw! h (by rcases hp with rfl | rfl | rfl <;> rfl)
  lk! h ht
  refine ok_then ?_ ?_
  · rcases hp with rfl | rfl | rfl
    · exact .inl (by tk ht)
    · exact .inr (.inl (by tk ht))
    · exact .inr (.inr (by tk ht))
  es! h
  exact pure_ok ⟨rfl, h⟩

/-- A member expression that is a mere primary expression, for any follower. -/
theorem member_of_primary (hb : Begins (PStart c) ws) (hnx : NoMember nx)
    (hp : ∀ ps k s, St c ps k (ws ++ nx :: rest) s → Ok (parsePrimaryExpr r) s (fun a s' => bareNode a = t ∧ St c ps k (nx :: rest) s'))
    (h : St c ps k (ws ++ nx :: rest) s) :
    Ok (parseMemberExpr r) s (fun a s' => bareNode a = t ∧ St c ps k (nx :: rest) s') := by
  unfold parseMemberExpr
  refine Sat.bind (P := fun a s' => bareNode a = t ∧ St c ps k (nx :: rest) s') ?_ ?_
  · unfold parseMemberHead
    obtain ⟨⟨x, n⟩, hx, ht⟩ := begins_tok hb h
    refine get_ok (ok_else (by rw [ht.isKw, hx.super]; simp) ?_)
    exact hp _ _ _ h
  · clear h
    rintro a s ⟨ha, h⟩
    refine loop_ok (f := fun n => memberLoopF r n a) fun n => ?_
    cases n with
    | zero => exact rfl
    | succ n =>
      unfold memberLoopF
      lk! h ht
      refine ok_else (by rw [ht.isP, hnx.lbr]; simp) (ok_else (by rw [ht.isP, hnx.dot]; simp)
        (ok_else (by rw [ht.templateHead, hnx.head]; simp) ?_))
      exact pure_ok ⟨ha, h⟩

theorem parseMemberHead_ok (hr : RecOk r) (hh : Head c ws t) : Reads (parseMemberHead r) bareNode c 0 0 ws t SPrim := by
  intro ps k nx rest s hnx h
  unfold parseMemberHead
  refine get_ok ?_
  cases hh with
  | primary hp =>
    obtain ⟨⟨x, n⟩, hx, ht⟩ := begins_tok (primary_begins hp) h
    refine ok_else (by rw [ht.isKw, hx.super]; simp) ?_
    exact parsePrimaryExpr_ok hr hp _ _ _ _ _ hnx h
  | superDot hv =>
    nm! h
    have ht := h.tok
    refine ok_then (by tk ht) ?_
    rde! (parseSuper_ok (.inr (.inl rfl)) h) with a ha h
    lk! h ht
    refine ok_else (by tk ht) (ok_then (by tk ht) ?_)
    have := parseStaticMemberExpr_ok (n := _) (m := _) hv a _ _ _ _ _ hnx.fit h
    rw [ha] at this
    exact this
  | superIndex he =>
    nm! h
    have ht := h.tok
    refine ok_then (by tk ht) ?_
    rde! (parseSuper_ok (.inl rfl) h) with a ha h
    lk! h ht
    refine ok_then (by tk ht) ?_
    have := parseComputedMemberExpr_ok (n := _) (m := _) hr he a _ _ _ _ _ hnx.fit (by simpa using h)
    rw [ha] at this
    exact this

theorem parseMemberExpr_ok (hr : RecOk r) {w' : List Word} (hh : Head c ws o) (hl : Many Suffix c o w' t) :
    Reads (parseMemberExpr r) bareNode c 0 0 (ws ++ w') t SMember := by
  intro ps k nx rest s hnx h
  unfold parseMemberExpr
  nm! h
  obtain ⟨l, e⟩ := first_cons w' nx rest
  rw [e] at h
  rde! (parseMemberHead_ok hr hh _ _ _ _ _ (suffixes_prim hl hnx.prim) h) with a ha h
  rw [← e] at h
  exact loop_ok (f := fun n => memberLoopF r n a) fun n => memberLoopF_ok hr hnx.noMember n ha hl h

theorem sMember_lParen : SMember (P .lParen n) := ⟨rfl, rfl, rfl, rfl, rfl⟩

theorem parseCallExpr_ok (hr : RecOk r) (hl : LHS true c ws t) (hn : Begins (fun x => isKw x cs!"new" = false) ws) :
    Reads (parseCallExpr r) bareNode c 0 0 ws t SCall := by
  intro ps k nx rest s hnx h
  unfold parseCallExpr
  sp! h
  cases hl with
  | @mk _ w1 o w2 _ hh hl =>
    cases hh with
    | primary hp =>
      obtain ⟨w1, w2, m, rfl, h1, h2, h3⟩ := split_suffixes hl
      nm! h
      refine Sat.bind (P := fun a s' => bareNode a = m ∧ St c ps (k + 1) (w2 ++ nx :: rest) s') ?_ ?_
      · unfold parseCallHead
        obtain ⟨⟨x, n⟩, hx, ht⟩ := begins_tok (primary_begins hp) h
        refine get_ok (ok_else (by rw [ht.isKw, hx.super]; simp) ?_)
        obtain ⟨l, e⟩ := first_cons w2 nx rest
        rw [e] at h ⊢
        rw [← List.append_assoc] at h
        refine parseMemberExpr_ok hr (.primary hp) h1 _ _ _ _ _ ?_ h
        rcases h3 with rfl | ⟨⟨x, _⟩, l', rfl, rfl⟩
        · exact hnx.toSMember
        · exact sMember_lParen
      · clear h
        rintro a _ ⟨ha, h⟩
        exact parseCallExprTail_ok hr hnx.noCall ha h2 h
    | @superDot v _ n m j hv =>
      nm! h
      obtain ⟨l, e⟩ := first_cons w2 nx rest
      have hf := callSuffixes_fits hl hnx.fit
      rw [e] at h
      refine Sat.bind (P := fun a s' => bareNode a = .staticMemberExpression false (.super .simple sp) (.identifier v .invalid sp) .simple sp ∧
        St c ps (k + 1) (w2 ++ nx :: rest) s') ?_ ?_
      · unfold parseCallHead
        lk! h ht
        refine ok_then (by tk ht) ?_
        rde! (parseSuper_ok (.inr (.inl rfl)) h) with a ha h
        lk! h ht
        refine ok_else (by tk ht) (ok_else (by tk ht) (ok_then (by tk ht) ?_))
        have := parseStaticMemberExpr_ok (n := m) (m := j) hv a _ _ _ _ _ hf h
        rw [ha, ← e] at this
        exact this
      · clear h
        rintro a _ ⟨ha, h⟩
        exact parseCallExprTail_ok hr hnx.noCall ha hl h
    | @superIndex _ ws e' n m j he =>
      nm! h
      obtain ⟨l, e⟩ := first_cons w2 nx rest
      have hf := callSuffixes_fits hl hnx.fit
      rw [e] at h
      refine Sat.bind (P := fun a s' => bareNode a = .computedMemberExpression true (.super .simple sp) e' .simple sp ∧
        St c ps (k + 1) (w2 ++ nx :: rest) s') ?_ ?_
      · unfold parseCallHead
        lk! h ht
        refine ok_then (by tk ht) ?_
        rde! (parseSuper_ok (.inl rfl) h) with a ha h
        lk! h ht
        refine ok_else (by tk ht) (ok_then (by tk ht) ?_)
        have := parseComputedMemberExpr_ok (n := m) (m := j) hr he a _ _ _ _ _ hf (by simpa using h)
        rw [ha, ← e] at this
        exact this
      · clear h
        rintro a _ ⟨ha, h⟩
        exact parseCallExprTail_ok hr hnx.noCall ha hl h
  | @superCall _ w1 args w2 _ n ha hl =>
    nm! h
    obtain ⟨l, e⟩ := first_cons w2 nx rest
    have hf := callSuffixes_fits hl hnx.fit
    rw [e] at h
    refine Sat.bind (P := fun a s' => bareNode a = .callExpression (.super .simple sp) args .invalid sp ∧
      St c ps (k + 1) (w2 ++ nx :: rest) s') ?_ ?_
    · unfold parseCallHead
      lk! h ht
      refine ok_then (by tk ht) ?_
      obtain ⟨⟨x, n'⟩, w', ew, ex⟩ := args_begins ha
      simp only at ex
      subst ex
      refine Sat.bind (parseSuper_ok (p := .lParen) (m := n') (l := w' ++ first w2 nx :: l) (.inr (.inr rfl)) (by rw [ew] at h; exact h)) ?_
      clear h
      rintro a _ ⟨ea, h⟩
      lk! h ht
      refine ok_then (by tk ht) ?_
      rw [← List.cons_append, ← ew] at h
      rde! (parseArguments_ok hr ha _ _ _ _ _ hf h) with xs exs h
      pk! h
      rw [← e] at h
      exact pure_ok ⟨by simp [bareNode, bareListArgumentListElement_eq, ea, exs], h⟩
    · clear h
      rintro a _ ⟨ha, h⟩
      exact parseCallExprTail_ok hr hnx.noCall ha hl h
  | newTarget =>
    obtain ⟨x, l, e, hx⟩ := hn
    cases e
    simp [isKw] at hx

theorem parseNewCallee_ok (hr : RecOk r) {w1 w2 w3 w4 : List Word} {h' o : Node} {args : List ArgumentListElement}
    (hh : Head c w1 h') (hl : Many Suffix c h' w2 o) (ha : Args c w3 args) (hm : Many CallSuffix c (.newExpression o args .invalid sp) w4 t)
    (hnx : NoCall nx) (h : St c ps (k + 2) (w1 ++ (w2 ++ (w3 ++ (w4 ++ nx :: rest)))) s) :
    Ok (parseNewCallee r) s (fun a s' => bareNode a = t ∧ St c ps k (nx :: rest) s') := by
  unfold parseNewCallee
  obtain ⟨⟨x, n⟩, w', ew, ex⟩ := args_begins ha
  simp only at ex
  subst ex
  rw [ew] at h
  have h1 : St c ps (k + 2) ((w1 ++ w2) ++ P .lParen n :: (w' ++ (w4 ++ nx :: rest))) s := by simpa using h
  rde! (parseMemberExpr_ok hr hh hl _ _ _ _ _ sMember_lParen h1) with a ea h
  lk! h ht
  rw [if_pos (by tk ht)]
  obtain ⟨l, e⟩ := first_cons w4 nx rest
  rw [e, ← List.cons_append, ← ew] at h
  rde! (parseArguments_ok hr ha _ _ _ _ _ (callSuffixes_fits hm hnx.fit) h) with xs exs h
  es! h
  rw [← e] at h
  exact parseCallExprTail_ok hr hnx (by simp [bareNode, bareListArgumentListElement_eq, ea, exs]) hm h

theorem parseNewCallee_bare (hr : RecOk r) {w1 w2 : List Word} {h' o : Node}
    (hh : Head c w1 h') (hl : Many Suffix c h' w2 o)
    (hnx : SCall nx) (h : St c ps (k + 2) (w1 ++ (w2 ++ nx :: rest)) s) :
    Ok (parseNewCallee r) s (fun a s' => bareNode a = .newExpression o [] .invalid sp ∧ St c ps k (nx :: rest) s') := by
  unfold parseNewCallee
  rw [← List.append_assoc] at h
  rde! (parseMemberExpr_ok hr hh hl _ _ _ _ _ hnx.toSMember h) with a ea h
  lk! h ht
  rw [if_neg (by rw [ht.isP, hnx.paren]; simp)]
  refine Sat.bind (P := fun xs s' => xs = [] ∧ St c ps (k + 2) (nx :: rest) s') (pure_ok ⟨rfl, h⟩) ?_
  clear h
  rintro _ _ ⟨rfl, h⟩
  es! h
  exact parseCallExprTail_ok hr hnx.noCall (by simp [bareNode, bareListArgumentListElement, ea]) .nil h

theorem head_new (hh : Head c ws t) : Begins (fun x => x.fits .regExp = true ∧ isP x .dot = false ∧ isKw x cs!"new" = false) ws := by
  cases hh with
  | primary hp => exact (primary_begins hp).mono fun _ h => ⟨startsExpr_fits h.start, startsExpr_isP h.start, h.new⟩
  | superDot hv => exact .cons ⟨rfl, rfl, rfl⟩
  | superIndex he => exact .cons ⟨rfl, rfl, rfl⟩

/-- `new.target`, after the position of its start has been pushed. -/
theorem newTarget_ok {m j : Bool} (hnx : SCall nx) (h : St c ps (k + 1) (W cs!"new" n :: P .dot m :: W cs!"target" j :: nx :: rest) s) :
    Ok (do
      let newTok ← consumeKw cs!"new"
      let span ← peekSpan
      let t ← cur
      if t.isP .dot then parseNewTarget newTok span
      else if t.isKw cs!"new" then do
        let callee ← r.newExpr
        let span ← endSpan
        pure (.newExpression callee [] .invalid span)
      else parseNewCallee r) s
      (fun a s' => bareNode a = .metaProperty (.identifier cs!"new" .invalid sp) (.identifier cs!"target" .invalid sp) .invalid sp ∧
        St c ps k (nx :: rest) s') := by
  refine Sat.bind (consumeKw_ok h rfl rfl) ?_
  clear h
  rintro tn _ ⟨htn, h⟩
  pk! h
  lk! h ht
  refine ok_then (by tk ht) ?_
  unfold parseNewTarget
  ad! h ht rfl
  lk! h ht
  refine ok_then (by tk ht) ?_
  refine Sat.bind (advance_ok h hnx.fit) ?_
  clear h ht
  rintro t _ ⟨ht, h⟩
  refine Sat.bind (P := fun x s' => x = cs!"target" ∧ St c ps (k + 1) (nx :: rest) s') (Sat.unwrapSome (by rw [ht.str rfl]; rfl) ⟨rfl, h⟩) ?_
  clear h
  rintro _ _ ⟨rfl, h⟩
  refine Sat.bind (P := fun x s' => x = cs!"new" ∧ St c ps (k + 1) (nx :: rest) s') (Sat.unwrapSome (by rw [htn.str rfl]; rfl) ⟨rfl, h⟩) ?_
  clear h
  rintro _ _ ⟨rfl, h⟩
  es! h
  exact pure_ok ⟨rfl, h⟩

/-- Left-hand-side expressions that begin with `new`. -/
theorem parseNewExpr_ok (hr : RecOk r) {ws' : List Word} (hl : LHS f c (W cs!"new" n :: ws') t) :
    Reads (parseNewExpr r) bareNode c 1 (left f) (W cs!"new" n :: ws') t SCall := by
  intro ps k nx rest s hnx h
  unfold parseNewExpr
  nm! h
  sp! h
  generalize hw : W cs!"new" n :: ws' = l at hl
  cases hl with
  | mk hh _ =>
    obtain ⟨x, w', rfl, hx⟩ := head_new hh
    cases hw
    simp [isKw] at hx
  | superCall _ _ => cases hw
  | new hh hl ha hm =>
    cases hw
    nm! h
    obtain ⟨x, hx⟩ := head_new hh
    kw! h ((head_new hh).append.mono fun _ h => h.1).fits
    pk! h
    obtain ⟨⟨x, n⟩, hx, ht⟩ := begins_tok (head_new hh) h
    refine get_ok (ok_else (by rw [ht.isP, hx.2.1]; simp) (ok_else (by rw [ht.isKw, hx.2.2]; simp) ?_))
    exact parseNewCallee_ok hr hh hl ha hm hnx.noCall h
  | newBare hh hl =>
    cases hw
    nm! h
    kw! h ((head_new hh).append.mono fun _ h => h.1).fits
    pk! h
    obtain ⟨⟨x, n⟩, hx, ht⟩ := begins_tok (head_new hh) h
    refine get_ok (ok_else (by rw [ht.isP, hx.2.1]; simp) (ok_else (by rw [ht.isKw, hx.2.2]; simp) ?_))
    exact parseNewCallee_bare hr hh hl hnx h
  | newTarget =>
    cases hw
    nm! h
    exact newTarget_ok hnx h

/-- How left-hand-side expressions begin. -/
theorem lhs_new (hl : LHS f c ws t) : Begins (fun x => isKw x cs!"new" = false) ws ∧ f = true ∨ ∃ n ws', ws = W cs!"new" n :: ws' := by
  cases hl with
  | mk hh _ => exact .inl ⟨(head_new hh).append.mono fun _ h => h.2.2, rfl⟩
  | superCall _ _ => exact .inl ⟨.cons rfl, rfl⟩
  | new _ _ _ _ => exact .inr ⟨_, _, rfl⟩
  | newBare _ _ => exact .inr ⟨_, _, rfl⟩
  | newTarget => exact .inr ⟨_, _, rfl⟩

/-- Firm left-hand-side expressions leave the stack of start positions as it is. -/
theorem lhs_firm (hr : RecOk r) (hl : LHS true c ws t) : Reads (parseLeftHandSideExpr r) bareNode c 0 0 ws t SCall := by
  intro ps k nx rest s hnx h
  unfold parseLeftHandSideExpr
  rcases lhs_new hl with ⟨hb, -⟩ | ⟨n, ws', rfl⟩
  · obtain ⟨⟨x, n⟩, hx, ht⟩ := begins_tok hb h
    refine get_ok (ok_else (by rw [ht.isKw, hx]; simp) ?_)
    exact parseCallExpr_ok hr hl hb _ _ _ _ _ hnx h
  · have ht := h.tok
    refine get_ok (ok_then (by tk ht) ?_)
    unfold parseNewExpr
    generalize hw : W cs!"new" n :: ws' = l at hl
    cases hl with
    | mk hh _ =>
      obtain ⟨x, w', rfl, hx⟩ := head_new hh
      cases hw
      simp [isKw] at hx
    | superCall _ _ => cases hw
    | newTarget =>
      cases hw
      nm! h
      sp! h
      exact newTarget_ok hnx h

theorem lhs_ok (hr : RecOk r) (hl : LHS f c ws t) : Reads (parseLeftHandSideExpr r) bareNode c 1 (left f) ws t SCall := by
  intro ps k nx rest s hnx h
  rcases lhs_new hl with ⟨hb, rfl⟩ | ⟨n, ws', rfl⟩
  · exact lhs_firm hr hl _ _ _ _ _ hnx h
  · have ht := h.tok
    unfold parseLeftHandSideExpr
    refine get_ok (ok_then (by tk ht) ?_)
    exact parseNewExpr_ok hr hl _ _ _ _ _ hnx h

end Giron.Complete

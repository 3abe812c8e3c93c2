import Verif.Proofs.Cause.Basic
/-
The causes of panics, method by method.  (Partly generated: one instance per method.)
-/
namespace Giron
namespace Cause
open M Giron.Parser Layout Spec
variable [Env] {α β : Type}

/-- the recursive entry points -/
class RecAl (R : Src) (r : Rec) : Prop extends Why.RecWy R r where
  al_assignmentExpr : Al R r.assignmentExpr
  al_stmtListItem : Al R r.stmtListItem
  al_statement : Al R r.statement
  al_unaryExpr : Al R r.unaryExpr
  al_exponentiationExpr : Al R r.exponentiationExpr
  al_newExpr : Al R r.newExpr
  al_precedenceClimbing : ∀ n k, Al R (r.precedenceClimbing n k)
  al_bindingIdOrPat : Al R r.bindingIdOrPat
  al_leftHandSideExpr : Al R r.leftHandSideExpr

variable {R : Src} {r : Rec} {s : Parser}
instance [h : RecAl R r] : Al R r.assignmentExpr := h.al_assignmentExpr
instance [h : RecAl R r] : Al R r.stmtListItem := h.al_stmtListItem
instance [h : RecAl R r] : Al R r.statement := h.al_statement
instance [h : RecAl R r] : Al R r.unaryExpr := h.al_unaryExpr
instance [h : RecAl R r] : Al R r.exponentiationExpr := h.al_exponentiationExpr
instance [h : RecAl R r] : Al R r.newExpr := h.al_newExpr
instance [h : RecAl R r] {n k} : Al R (r.precedenceClimbing n k) := h.al_precedenceClimbing n k
instance [h : RecAl R r] : Al R r.bindingIdOrPat := h.al_bindingIdOrPat
instance [h : RecAl R r] : Al R r.leftHandSideExpr := h.al_leftHandSideExpr

theorem nx_toNode {b : Binding} : Nx b.toNode := by cases b <;> first | exact nx_ok | exact nx_err (fun h => h)
theorem nx_toId {b : Binding} : Nx b.toId := by cases b <;> first | exact nx_ok | exact nx_err (fun h => h)

/-- a conversion -/
macro "nxs" : tactic => `(tactic| first
  | exact nx_toNode | exact nx_toId | exact nx_toAssignmentPattern _ | exact nx_toBindingPattern _
  | exact nx_forTarget _ | exact nx_toBinding _ | exact nx_toStrictBinding _ _)

/-- one step -/
macro "al1" : tactic => `(tactic| first
  | exact inferInstance
  | with_reducible assumption
  | (with_reducible exact al_panic (by simp [Watched]))
  | (with_reducible exact al_fail (by simp [Watched]))
  | (with_reducible exact al_unwrap (by simp [Watched]))
  | (with_reducible refine al_ofExcept ?_; nxs)
  | (with_reducible refine al_bind ?_ (fun _ => ?_))
  | (with_reducible refine al_ite ?_ ?_)
  | (with_reducible refine al_when ?_)
  | exact ⟨fun _ => Al.out _⟩
  | (refine al_bind ?_ (fun _ => ?_))
  | (refine al_ite ?_ ?_)
  | split)

macro "al" : tactic => `(tactic| repeat al1)

/-! ### Only the panics -/

/-- there is a cause for a panic -/
class Bd (R : Src) (m : PM α) : Prop where
  out : ∀ s, Near R s → ∀ p, m s = .error (.panic p) → Watched (.panic p) → Owed R p
  mind : ∀ s, Near R s → ∀ a s', m s = .ok (a, s') → Mind R.source s'.scanner

theorem Near.mind (h : Near R s) : Mind R.source s.scanner := let ⟨_, _, h⟩ := h; h.mind

instance bd_al {m : PM α} [h : Al R m] : Bd R m :=
  ⟨fun s hs => (h.out s hs).bad, fun s hs a s' e => ((h.out s hs).ok a s' e).mind⟩
theorem quiet_bind {m : PM α} {k : α → PM β} (h : Quiet m) (hk : ∀ x, Quiet (k x)) : Quiet (m >>= k) := by
  refine ⟨fun s b s' e => ?_⟩
  obtain ⟨a, s1, hm, e⟩ := bind_ok_inv e
  obtain ⟨e1, e2, e3⟩ := h.out s a s1 hm
  obtain ⟨f1, f2, f3⟩ := (hk a).out s1 b s' e
  exact ⟨f1.trans e1, f2.trans e2, f3.trans e3⟩
theorem bd_bind {m : PM α} {k : α → PM β} [h : Al R m] (hk : ∀ x, Bd R (k x)) : Bd R (m >>= k) := by
  refine ⟨fun s hs p e hp => ?_, fun s hs b s' e => ?_⟩
  · cases hm : m s with
    | error f => rw [M.bind_err hm] at e; cases e; exact (h.out s hs).bad p hm hp
    | ok x => obtain ⟨a, s1⟩ := x; exact (hk a).out s1 ((h.out s hs).ok a s1 hm) p ((M.bind_ok hm).symm.trans e) hp
  · obtain ⟨a, s1, hm, e⟩ := bind_ok_inv e
    exact (hk a).mind s1 ((h.out s hs).ok a s1 hm) b s' e
theorem bd_tail {m : PM α} {k : α → PM β} [h : Al R m] (hk : ∀ x, Tl R (k x)) : Bd R (m >>= k) := by
  refine ⟨fun s hs p e hp => ?_, fun s hs b s' e => ?_⟩
  · cases hm : m s with
    | error f => rw [M.bind_err hm] at e; cases e; exact (h.out s hs).bad p hm hp
    | ok x => obtain ⟨a, s1⟩ := x; exact (hk a).out s1 ((h.out s hs).ok a s1 hm).placed p ((M.bind_ok hm).symm.trans e) hp
  · obtain ⟨a, s1, hm, e⟩ := bind_ok_inv e
    exact (hk a).mind s1 ((h.out s hs).ok a s1 hm).mind b s' e
theorem al_wy {m : PM α} [hw : Why.Wy R m] (h : Bd R m) : Al R m := by
  refine ⟨fun s hs => ⟨fun a s' e => ?_, h.out s hs⟩⟩
  have hm := h.mind s hs a s' e
  obtain ⟨past, w, hh⟩ := hs
  obtain ⟨p, v, h1, -⟩ := (hw.out s past w hh.toHere).out a s' e
  exact ⟨p, v, h1, hm⟩

instance nop_startSpan : Nop startSpan := ⟨fun s f e => by cases e⟩
instance nop_cur : Nop cur := ⟨fun s f e => by cases e⟩
instance nop_endSpan : Nop endSpan := by
  refine ⟨fun s f e => ?_⟩
  unfold endSpan at e
  split at e <;> cases e
  exact fun h => h
instance nop_error {t : Token} {k : ErrorType} : Nop (Parser.error t k : PM α) := ⟨fun s f e => by cases e; exact fun h => h⟩
instance nop_unexpected {t : Token} : Nop (unexpected t : PM α) := ⟨fun s f e => by cases e; exact fun h => h⟩
instance tl_unexpectedCurrent : Tl R (unexpectedCurrent : PM α) := by
  unfold unexpectedCurrent
  exact tl_end inferInstance fun _ => inferInstance
instance tl_consume {p : Punctuator} {g : LexGoal} : Tl R (consume p g) := by
  unfold consume; exact tl_quiet inferInstance fun _ => tl_ite inferInstance inferInstance
instance tl_consumeSemicolon {goal : LexGoal} : Tl R (consumeSemicolon goal) := by
  unfold consumeSemicolon
  exact tl_quiet inferInstance fun _ => tl_ite (tl_end inferInstance fun _ => inferInstance)
    (tl_ite (tl_ite (tl_nop ns_pure) (tl_ite (tl_nop ns_pure) inferInstance)) (tl_nop ns_pure))

/-! ### Tokens -/

theorem str_of {t : Token} {c : Content} (h : IsTok t c) (hn : ¬ (c = .eof ∨ (∃ n, c = .number n) ∨ c = .name cs!"null")) :
    t.toStr?.isSome = true := by
  obtain ⟨l, k, st, e, rfl⟩ := h
  cases c with
  | name v =>
    have hv : v ≠ cs!"null" := fun e => hn (.inr (.inr (by rw [e])))
    show (Token.toStr? ⟨(nameToken v).1, (nameToken v).2, _, _, _, _, _, _, _, _, _, _⟩).isSome = true
    unfold nameToken
    rw [if_neg hv]
    repeat' split
    all_goals rfl
  | eof => exact absurd (.inl rfl) hn
  | number n => exact absurd (.inr (.inl ⟨n, rfl⟩)) hn
  | _ => rfl

theorem str_of_type {t : Token} {c : Content} (h : IsTok t c)
    (ht : t.tokentype = .identifier ∨ t.tokentype = .keyword ∨ t.tokentype = .punctuator) : t.toStr?.isSome = true := by
  refine str_of h fun hn => ?_
  obtain ⟨l, k, st, e, rfl⟩ := h
  rcases hn with rfl | ⟨n, rfl⟩ | rfl
  · rcases ht with h | h | h <;> cases h
  · rcases ht with h | h | h <;> cases h
  · rcases ht with h | h | h <;> exact absurd h (by show (nameToken cs!"null").1 ≠ _; decide)

theorem Near.str (hs : Near R s) (ht : s.current.tokentype = .identifier ∨ s.current.tokentype = .keyword ∨
    s.current.tokentype = .punctuator) : s.current.toStr?.isSome = true :=
  let ⟨_, _, h⟩ := hs
  str_of_type h.cur ht

theorem Near.unary (hs : Near R s) {b : Bool} : (s.current.isUnaryOp b).isSome = true := by
  unfold Token.isUnaryOp Token.isUnaryKeyword
  split
  · next h =>
    split at h
    · next hk =>
      have := hs.str (.inr (.inl hk))
      split at h
      · next hn => rw [hn] at this; cases this
      · cases h
    · cases h
  · rfl

theorem isKw_type {t : Token} {v : Str} (h : t.isKw v = true) : t.tokentype = .keyword := by
  unfold Token.isKw at h
  simp only [Bool.and_eq_true, decide_eq_true_eq] at h
  exact h.1

theorem isBinOp_type {t : Token} (h : t.isBinOp = true) : t.tokentype = .keyword ∨ t.tokentype = .punctuator := by
  unfold Token.isBinOp at h
  split at h
  · exact .inr ‹_›
  · exact .inl ‹_›
  · cases h

theorem isP_str {t : Token} {p : Punctuator} (h : t.isP p = true) : t.toStr?.isSome = true := by
  unfold Token.isP Token.matchesPunc at h
  simp only [Bool.and_eq_true, decide_eq_true_eq] at h
  unfold Token.toStr?
  rw [h.2]
  rfl

theorem isUpdateOp_str {t : Token} (h : t.isUpdateOp = true) : t.toStr?.isSome = true := by
  unfold Token.isUpdateOp at h
  unfold Token.toStr?
  split at h
  · next hv => rw [hv]; rfl
  · next hv => rw [hv]; rfl
  · cases h

theorem advance_val {g : LexGoal} {t : Token} {s' : Parser} (h : advance g s = .ok (t, s')) : t = s.current := by
  unfold advance at h
  split at h <;> cases h
  rfl

theorem Al1.advanceStr {g : LexGoal} (hs : Near R s) (h : s.current.toStr?.isSome = true) : Al1 R (advanceStr g) s := by
  unfold Parser.advanceStr
  refine Al1.bind (al_advance.out s hs) fun t s' hm hs' => ?_
  have := advance_val hm
  subst this
  exact (al_some h).out s' hs'

instance al_strictReservedCheck : Al R (strictReservedCheck) := by
  unfold strictReservedCheck
  refine ⟨fun s hs => Al1.get (Al1.ite (fun hc => ?_) fun _ => al_pure.out s hs)⟩
  refine Al1.bind ?_ fun b s' _ hs' => (by al : Al R _).out s' hs'
  unfold Token.isStrictReservedKw
  obtain ⟨past, w, h⟩ := hs
  split
  · next hn =>
    refine ⟨fun a s' e => (by cases e), fun p e hp => ?_⟩
    cases e
    refine Caused.of h ⟨?_, h.strict hc⟩
    refine Classical.byContradiction fun hx => ?_
    have := str_of h.cur hx
    rw [hn] at this
    cases this
  · exact al_pure.out s ⟨past, w, h⟩

instance tl_consumeKw {v : Str} {g : LexGoal} : Tl R (consumeKw v g) := by
  unfold consumeKw; exact tl_quiet inferInstance fun _ => tl_ite inferInstance inferInstance
theorem al_consumeKw' {v : Str} {g : LexGoal} : Al R (consumeKw v g) := al_placed inferInstance

theorem al_budget {m : Nat → PM α} {f : Parser → Nat} (h : ∀ n, Al R (m n)) : Al R (fun s => m (f s) s) :=
  ⟨fun s hs => let h := (h (f s)).out s hs; ⟨h.ok, h.bad⟩⟩
/-! ### Steps where the word matters -/

theorem Here.same {s' : Parser} {past : List Word} {w : Word} (h : Here R s past w) (h1 : s'.current = s.current)
    (h2 : s'.scanner = s.scanner) (h3 : s'.hasLineTerminator = s.hasLineTerminator) (h4 : s'.ctx = s.ctx) : Here R s' past w := by
  obtain ⟨⟨⟨text, k1, k2⟩, k3⟩, k4⟩ := h
  exact ⟨⟨⟨text, k1.of_eq h1 h2 h3, k2⟩, fun h => k3 (by rw [← h4]; exact h)⟩, by rw [h2]; exact k4⟩

theorem endSpan_same {sp : Span} {s' : Parser} (h : endSpan s = .ok (sp, s')) : s'.current = s.current ∧ s'.scanner = s.scanner ∧
    s'.hasLineTerminator = s.hasLineTerminator ∧ s'.ctx = s.ctx := by
  unfold endSpan at h
  split at h <;> cases h
  exact ⟨rfl, rfl, rfl, rfl⟩

theorem unwrap_same {p : PanicSite} {v : Option α} {a : α} {s' : Parser} (h : (M.unwrap p v : PM α) s = .ok (a, s')) : s' = s := by
  cases v <;> cases h
  rfl

theorem Al1.wp {m : PM α} {k : α → PM β} {past : List Word} {w : Word} {Q : α → Parser → List Word → Word → Prop}
    (hw : Why.Wp R m s past w Q) (hm : Al1 R m s)
    (hk : ∀ x s' p v, m s = .ok (x, s') → Here R s' p v → Why.Later past w p v → Q x s' p v → Al1 R (k x) s') : Al1 R (m >>= k) s := by
  refine Al1.bind hm fun x s' e hs' => ?_
  obtain ⟨p, v, h1, h2, h3⟩ := hw.out x s' e
  exact hk x s' p v e ⟨h1, hs'.mind⟩ h2 h3

theorem _root_.Giron.Why.Wp.of_pure {m : PM α} {past : List Word} {w : Word} {Q : α → Parser → List Word → Word → Prop}
    (h : Why.Wp R (m >>= Pure.pure) s past w Q) : Why.Wp R m s past w Q :=
  ⟨fun a s' e => h.out a s' ((M.bind_ok e).trans rfl), fun e he => h.bad e (M.bind_err he)⟩

theorem wp_unexpectedCurrent {past : List Word} {w : Word} {Q : α → Parser → List Word → Word → Prop} (h : Why.Here R s past w) :
    Why.Wp R (unexpectedCurrent : PM α) s past w Q :=
  ⟨fun a s' e => absurd e (fails_unexpectedCurrent.out _ _ _), (Why.wy_unexpectedCurrent.out s past w h).bad⟩

theorem wp_consumeKw {past : List Word} {w : Word} {v : Str} {g : LexGoal} (h : Why.Here R s past w) :
    Why.Wp R (consumeKw v g) s past w fun _ _ p _ => p = w :: past ∧ w.c = .name v :=
  Why.Wp.of_pure (Why.Wp.consumeKw h fun _ s2 w2 hw h2 _ => Why.Wp.pure h2 ⟨rfl, hw⟩)

theorem wp_strictReservedCheck {past : List Word} {w : Word} (h : Why.Here R s past w) :
    Why.Wp R strictReservedCheck s past w fun _ _ p v => p = past ∧ v = w := by
  refine ⟨fun a s' e => ⟨past, w, ?_, List.suffix_refl _, rfl, rfl⟩, (Why.wy_strictReservedCheck.out s past w h).bad⟩
  have he : s' = s := by
    unfold strictReservedCheck at e
    obtain ⟨x, s1, h1, e⟩ := bind_ok_inv e
    cases h1
    split at e
    · obtain ⟨b, s2, h2, e⟩ := bind_ok_inv e
      cases unwrap_same h2
      split at e
      · exact absurd e (fails_errorCurrent.out _ _ _)
      · cases e; rfl
    · cases e; rfl
  rw [he]
  exact h

theorem al_bind_fails {m : PM α} {k : α → PM β} [hf : Fails m] (h : Al R m) : Al R (m >>= k) :=
  ⟨fun s hs => (h.out s hs).bind fun x s' e _ => absurd e (hf.out _ _ _)⟩

theorem punct_word {t : Token} {c : Content} (h : IsTok t c) (ht : t.tokentype = .punctuator) : ∃ p, c = .punct p := by
  obtain ⟨l, k, st, e, rfl⟩ := h
  cases c with
  | punct p => exact ⟨p, rfl⟩
  | name v =>
    have ht : (nameToken v).1 = .punctuator := ht
    unfold nameToken at ht
    repeat' split at ht
    all_goals cases ht
  | _ => cases ht

theorem string_word {t : Token} {c : Content} (h : IsTok t c) (ht : t.tokentype = .stringLiteral) : ∃ v o, c = .string v o := by
  obtain ⟨l, k, st, e, rfl⟩ := h
  cases c with
  | string v o => exact ⟨v, o, rfl⟩
  | name v =>
    have ht : (nameToken v).1 = .stringLiteral := ht
    unfold nameToken at ht
    repeat' split at ht
    all_goals cases ht
  | _ => cases ht

/-- the code of a class is strict from the start -/
theorem bd_class {k : Parser → PM α} {g : LexGoal} (hk : ∀ s0, Bd R (k s0)) : Bd R (do
      let s0 ← M.get
      M.modify fun s => { s with ctx := { s.ctx with strict := true } }
      startSpan
      let _ ← consumeKw cs!"class" g
      k s0 : PM α) := by
  have key : ∀ s s1 past w, Here R s past w →
      ({ s with ctx := { s.ctx with strict := true }, markerStack := ⟨s.current.lineNum, s.current.col, s.current.start⟩ :: s.markerStack } : Parser) = s1 →
      Placed R s1 ∧ ∀ t s2, consumeKw cs!"class" g s1 = .ok (t, s2) → Near R s2 := by
    intro s s1 past w h hs1
    constructor
    · obtain ⟨text, k1, k2⟩ := h.place
      subst hs1
      exact ⟨⟨past, w, text, k1.of_eq rfl rfl rfl, k2⟩, h.mind⟩
    intro t s2 hm
    have hc : w.c = .name cs!"class" := by
      have hm : (if s1.current.isKw cs!"class" = true then advance g else unexpectedCurrent) s1 = .ok (t, s2) := hm
      split at hm
      · next hk =>
        rw [← hs1] at hk
        exact h.cur.isKw hk
      · exact absurd hm (fails_unexpectedCurrent.out _ _ _)
    have h1 : Here R s1 past w := by
      obtain ⟨text, k1, k2⟩ := h.place
      subst hs1
      exact ⟨⟨⟨text, k1.of_eq rfl rfl rfl, k2⟩, fun _ => .inr (.inl ⟨w, List.mem_cons_self, hc⟩)⟩, h.mind⟩
    exact (al_consumeKw' (R := R)).out s1 ⟨past, w, h1⟩ |>.ok t s2 hm
  refine ⟨fun s hs p e hp => ?_, fun s hs b s' e => ?_⟩ <;> obtain ⟨past, w, h⟩ := hs <;>
    generalize hs1 : ({ s with ctx := { s.ctx with strict := true }, markerStack := ⟨s.current.lineNum, s.current.col, s.current.start⟩ :: s.markerStack } : Parser) = s1
  · have e : (consumeKw cs!"class" g >>= fun _ => k s) s1 = .error (.panic p) := by rw [← hs1]; exact e
    obtain ⟨k1, k2⟩ := key s s1 past w h hs1
    cases hm : consumeKw cs!"class" g s1 with
    | error f =>
      rw [M.bind_err hm] at e
      cases e
      exact tl_consumeKw.out _ k1 _ hm hp
    | ok x =>
      obtain ⟨t, s2⟩ := x
      exact (hk s).out s2 (k2 t s2 hm) p ((M.bind_ok hm).symm.trans e) hp
  · have e : (consumeKw cs!"class" g >>= fun _ => k s) s1 = .ok (b, s') := by rw [← hs1]; exact e
    obtain ⟨k1, k2⟩ := key s s1 past w h hs1
    obtain ⟨t, s2, hm, e⟩ := bind_ok_inv e
    exact (hk s).mind s2 (k2 t s2 hm) b s' e

instance al_consume {p : Punctuator} {goal : LexGoal} : Al R (consume p goal) := by
  unfold consume; al

instance al_consumeKw {kw : Str} {goal : LexGoal} : Al R (consumeKw kw goal) := by
  unfold consumeKw; al

instance al_consumeId {id : Str} {goal : LexGoal} : Al R (consumeId id goal) := by
  unfold consumeId; al

instance al_consumeSemicolon {goal : LexGoal} : Al R (consumeSemicolon goal) := by
  unfold consumeSemicolon; al

instance al_whilePuncF {p : Punctuator} {m : PM α} [Al R m] {n : Nat} : Al R (whilePuncF p m n) := by
  induction n with
  | zero => exact al_fail (fun h => h)
  | succ n ih => unfold whilePuncF; al

instance al_whilePuncF' {p : Punctuator} {m : PM α} [Al R m] : Al R (fun s => whilePuncF p m (s.size + 1) s) :=
  al_budget fun _ => inferInstance

instance al_whilePunc {p : Punctuator} {m : PM α} [Al R m] : Al R (whilePunc p m) := by
  unfold whilePunc; al

instance al_untilPuncF {p : Punctuator} {m : PM α} [Al R m] {n : Nat} : Al R (untilPuncF p m n) := by
  induction n with
  | zero => exact al_fail (fun h => h)
  | succ n ih => unfold untilPuncF; al

instance al_untilPuncF' {p : Punctuator} {m : PM α} [Al R m] : Al R (fun s => untilPuncF p m (s.size + 1) s) :=
  al_budget fun _ => inferInstance

instance al_untilPunc {p : Punctuator} {m : PM α} [Al R m] : Al R (untilPunc p m) := by
  unfold untilPunc; al

instance al_untilPuncOrRestF {p : Punctuator} {m : PM α} [Al R m] {n : Nat} : Al R (untilPuncOrRestF p m n) := by
  induction n with
  | zero => exact al_fail (fun h => h)
  | succ n ih => unfold untilPuncOrRestF; al

instance al_untilPuncOrRestF' {p : Punctuator} {m : PM α} [Al R m] : Al R (fun s => untilPuncOrRestF p m (s.size + 1) s) :=
  al_budget fun _ => inferInstance

instance al_untilPuncOrRest {p : Punctuator} {m : PM α} [Al R m] : Al R (untilPuncOrRest p m) := by
  unfold untilPuncOrRest; al

instance al_untilEofF {m : PM Node} [Al R m] {n : Nat} : Al R (untilEofF m n) := by
  induction n with
  | zero => exact al_fail (fun h => h)
  | succ n ih => unfold untilEofF; al

instance al_untilEofF' {m : PM Node} [Al R m] : Al R (fun s => untilEofF m (s.size + 1) s) :=
  al_budget fun _ => inferInstance

instance al_untilEof {m : PM Node} [Al R m] : Al R (untilEof m) := by
  unfold untilEof; al

instance al_parseIdName {goal : LexGoal} : Al R (parseIdName goal) := by
  unfold parseIdName; al

instance al_parseIdReference : Al R (parseIdReference) := by
  unfold parseIdReference
  refine al_bind inferInstance fun _ => al_bind inferInstance fun _ => ⟨fun s hs => Al1.get (Al1.ite (fun hc => ?_) fun _ =>
    Al1.ite (fun hc => ?_) fun _ => Al1.ite (fun hc => ?_) fun _ => al_unexpectedCurrent.out s hs)⟩
  · exact Al1.bind (Al1.advanceStr hs (hs.str (.inl hc))) fun _ s' _ hs' => (by al : Al R _).out s' hs'
  · exact Al1.ite (fun _ => al_errorCurrent.out s hs) fun _ =>
      Al1.bind (Al1.advanceStr hs (hs.str (.inr (.inl (isKw_type hc))))) fun _ s' _ hs' => (by al : Al R _).out s' hs'
  · exact Al1.ite (fun _ => al_errorCurrent.out s hs) fun _ =>
      Al1.bind (Al1.advanceStr hs (hs.str (.inr (.inl (isKw_type hc))))) fun _ s' _ hs' => (by al : Al R _).out s' hs'

instance al_parseBindingId : Al R (parseBindingId) := by
  unfold parseBindingId
  refine al_bind inferInstance fun _ => al_bind inferInstance fun _ => ⟨fun s hs => Al1.cur (Al1.ite (fun hc => ?_) fun _ =>
    (by al : Al R _).out s hs)⟩
  refine Al1.bind (Al1.advanceStr hs (hs.str ?_)) fun _ s' _ hs' => (by al : Al R _).out s' hs'
  rcases hc with h | h | h
  · exact .inl h
  · exact .inr (.inl (isKw_type h))
  · exact .inr (.inl (isKw_type h))

instance al_commaExpr [RecAl R r] : Al R (commaExpr r) := by
  unfold commaExpr; al

instance al_parseExpression [RecAl R r] : Al R (parseExpression r) := by
  unfold parseExpression; al

instance al_parseDirective [RecAl R r] : Al R (parseDirective r) := by
  refine al_wy ?_
  unfold parseDirective
  refine bd_bind fun _ => bd_tail fun _ => tl_quiet (hq := quiet_when (h := quiet_ctx)) (ns_when ⟨fun s f e => by cases e⟩) fun _ =>
    tl_end inferInstance (hq := fun _ => quiet_bind inferInstance fun _ => inferInstance) fun _ => ns_bind inferInstance fun _ => ns_pure

instance al_directiveProloguesF [RecAl R r] {n : Nat} : Al R (directiveProloguesF r n) := by
  induction n with
  | zero => exact al_fail (fun h => h)
  | succ n ih => unfold directiveProloguesF; al

instance al_directiveProloguesF' [RecAl R r] : Al R (fun s => directiveProloguesF r (s.size + 1) s) :=
  al_budget fun _ => inferInstance

instance al_parseDirectivePrologues [RecAl R r] : Al R (parseDirectivePrologues r) := by
  unfold parseDirectivePrologues; al

instance al_parseStatementList [RecAl R r] : Al R (parseStatementList r) := by
  unfold parseStatementList; al

instance al_parseFunctionBodyBlock [RecAl R r] : Al R (parseFunctionBodyBlock r) := by
  refine al_wy ?_
  unfold parseFunctionBodyBlock
  refine bd_bind fun _ => bd_bind fun _ => bd_bind fun _ => bd_bind fun _ => bd_bind fun _ => bd_bind fun _ => bd_bind fun _ =>
    bd_tail fun _ => tl_quiet (hq := quiet_ctx) ⟨fun s f e => by cases e⟩ fun _ => tl_quiet inferInstance fun _ => tl_nop ns_pure

instance al_parseFunctionBody [RecAl R r] : Al R (parseFunctionBody r) := by
  unfold parseFunctionBody; al

instance al_parseArrowBody [RecAl R r] : Al R (parseArrowBody r) := by
  unfold parseArrowBody; al

instance al_commaUnless {close : Punctuator} : Al R (commaUnless close) := by
  unfold commaUnless; al

theorem al_valueToKey_value {v : Value} {literal : Bool} {span : Span} : Al R (valueToKey (.value v) literal span) := by
  unfold valueToKey; al
theorem al_valueToKey_true {v : ValueOrExpr} {span : Span} : Al R (valueToKey v true span) := by
  cases v <;> exact al_pure

instance al_objPatName [RecAl R r] : Al R (objPatName r) := by
  unfold objPatName; al

instance al_shorthandName {v : ValueOrExpr} : Al R (shorthandName v) := by
  unfold shorthandName; al

instance al_bindingToPropertyValue {line : Nat} {col : Nat} {z : Binding} : Al R (bindingToPropertyValue line col z) := by
  unfold bindingToPropertyValue; al

instance al_objPatValue [RecAl R r] : Al R (objPatValue r) := by
  unfold objPatValue; al

theorem wp_objPatName [RecAl R r] {past : List Word} {w : Word} (h : Why.Here R s past w) :
    Why.Wp R (objPatName r) s past w fun v _ p _ => ∀ e, v = .expr e → First (.punct .rBracket) p := by
  unfold objPatName
  refine Why.Wp.cur (Why.Wp.ite (fun _ => ?_) fun _ => Why.Wp.ite (fun _ => ?_) fun _ => ?_)
  · exact Why.Wp.advance h fun s' w' h' _ => Why.Wp.pure h' fun e he => by cases he
  · refine Why.Wp.step h fun _ s1 p1 w1 h1 _ => Why.Wp.step h1 fun _ s2 p2 w2 h2 _ => ?_
    exact Why.Wp.consume h2 fun _ s3 w3 hw h3 _ => Why.Wp.pure h3 fun _ _ => ⟨w2.nl, p2, by rw [← hw]⟩
  · exact wp_unexpectedCurrent h

instance al_objPatItem [RecAl R r] : Al R (objPatItem r) := by
  unfold objPatItem
  refine al_bind inferInstance fun _ => al_ite (by al) (al_bind inferInstance fun _ => ⟨fun s hs => ?_⟩)
  obtain ⟨past, w, h⟩ := hs
  refine Al1.wp (wp_objPatName h.toHere) (al_objPatName.out s ⟨past, w, h⟩) fun v s1 p1 w1 _ h1 _ hv => ?_
  refine Al1.bind (al_endSpan.out s1 ⟨_, _, h1⟩) fun sp s2 hm hs2 => ?_
  obtain ⟨e1, e2, e3, e4⟩ := endSpan_same hm
  have h2 := Here.same h1 e1 e2 e3 e4
  refine Al1.cur (Al1.bind (Al1.ite (fun _ => (al_bind inferInstance fun _ => ?_ : Al R _).out s2 hs2) fun hn1 => Al1.ite
    (fun _ => (al_bind inferInstance fun _ => al_bind al_valueToKey_true fun _ => by al : Al R _).out s2 hs2)
    fun hn2 => ?_) fun _ s3 _ hs3 => (by al : Al R _).out s3 hs3)
  · cases v with
    | value v => exact al_bind inferInstance fun _ => al_bind al_valueToKey_value fun _ => by al
    | expr e => exact al_bind_fails (m := shorthandName (.expr e)) (hf := by unfold shorthandName; infer_instance) al_shorthandName
  · cases v with
    | value v => exact (al_bind al_valueToKey_value fun _ => by al : Al R _).out s2 hs2
    | expr e =>
      refine ⟨fun a s' he => (by cases he), fun p he hp => ?_⟩
      cases he
      exact Caused.of h2 ⟨rfl, hv e rfl, h2.cur.notP hn2, h2.cur.notP hn1⟩

instance al_parseObjBindingPat [RecAl R r] : Al R (parseObjBindingPat r) := by
  unfold parseObjBindingPat; al

instance al_bindingToElement {line : Nat} {col : Nat} {z : Binding} : Al R (bindingToElement line col z) := by
  unfold bindingToElement; al

instance al_arrPatItem [RecAl R r] : Al R (arrPatItem r) := by
  unfold arrPatItem; al

instance al_parseArrBindingPat [RecAl R r] : Al R (parseArrBindingPat r) := by
  unfold parseArrBindingPat; al

instance al_parseBindingIdOrPat [RecAl R r] : Al R (parseBindingIdOrPat r) := by
  unfold parseBindingIdOrPat; al

instance al_bindingToParam {line : Nat} {col : Nat} {z : Binding} : Al R (bindingToParam line col z) := by
  cases z <;> unfold bindingToParam <;> al

instance al_formalParam [RecAl R r] : Al R (formalParam r) := by
  unfold formalParam; al

instance al_parseFormalParams [RecAl R r] : Al R (parseFormalParams r) := by
  unfold parseFormalParams; al

instance al_parseParamsAndBody [RecAl R r] {generator : Bool} {async : Bool} : Al R (parseParamsAndBody r generator async) := by
  unfold parseParamsAndBody; al

instance al_parseComputedPropertyName [RecAl R r] : Al R (parseComputedPropertyName r) := by
  unfold parseComputedPropertyName; al

instance al_parsePropertyName [RecAl R r] : Al R (parsePropertyName r) := by
  unfold parsePropertyName; al

instance al_classGetter [RecAl R r] {isStatic : Bool} : Al R (classGetter r isStatic) := by
  unfold classGetter; al

instance al_classSetter [RecAl R r] {isStatic : Bool} : Al R (classSetter r isStatic) := by
  unfold classSetter; al

instance al_classAsync [RecAl R r] {isStatic : Bool} : Al R (classAsync r isStatic) := by
  unfold classAsync; al

instance al_classGenerator [RecAl R r] {isStatic : Bool} : Al R (classGenerator r isStatic) := by
  unfold classGenerator; al

instance al_classMethod [RecAl R r] {isStatic : Bool} : Al R (classMethod r isStatic) := by
  unfold classMethod; al

instance al_classItem [RecAl R r] : Al R (classItem r) := by
  unfold classItem; al

instance al_parseClassBody [RecAl R r] : Al R (parseClassBody r) := by
  unfold parseClassBody; al

instance al_parseClassTail [RecAl R r] {id : Option Node} : Al R (parseClassTail r id) := by
  unfold parseClassTail; al

instance al_bindingIdNode {z : Binding} : Al R (bindingIdNode z) := by
  unfold bindingIdNode; al

instance al_parseClassDclr [RecAl R r] : Al R (parseClassDclr r) := by
  refine al_wy ?_
  unfold parseClassDclr
  exact bd_class fun _ => bd_bind fun _ => bd_bind fun _ => bd_tail fun _ => tl_quiet (hq := quiet_ctx) ⟨fun s f e => by cases e⟩ fun _ => tl_nop ns_pure

instance al_parseClassExpr [RecAl R r] : Al R (parseClassExpr r) := by
  refine al_wy ?_
  unfold parseClassExpr
  have h1 : ∀ c : Parser, Al R (if c.current.isIdOrKw = true then do
      let b ← parseBindingId
      let n ← bindingIdNode b
      Pure.pure (some n)
    else if c.params.hasDefault = true then Pure.pure none
    else unexpectedCurrent) := fun c => by al
  exact bd_class fun _ => bd_bind fun c => by
    have := h1 c
    exact bd_bind fun _ => bd_tail fun _ => tl_quiet (hq := quiet_ctx) ⟨fun s f e => by cases e⟩ fun _ => tl_nop ns_pure

instance al_templateElementOf {t : Token} : Al R (templateElementOf t) := by
  unfold templateElementOf; al

instance al_parseTemplateHead : Al R (parseTemplateHead) := by
  unfold parseTemplateHead; al

instance al_parseTemplateElement : Al R (parseTemplateElement) := by
  unfold parseTemplateElement; al

instance al_templateLoopF [RecAl R r] {n : Nat} {z : Bool} : Al R (templateLoopF r n z) := by
  induction n generalizing z with
  | zero => exact al_fail (fun h => h)
  | succ n ih => unfold templateLoopF; al

instance al_templateLoopF' [RecAl R r] {isTail : Bool} : Al R (fun s => templateLoopF r (s.size + 1) isTail s) :=
  al_budget (m := fun n => templateLoopF r n isTail) fun _ => inferInstance

instance al_parseTemplateParts [RecAl R r] : Al R (parseTemplateParts r) := by
  unfold parseTemplateParts; al

instance al_parseTemplateLiteral [RecAl R r] : Al R (parseTemplateLiteral r) := by
  unfold parseTemplateLiteral; al

instance al_parseTaggedTemplate [RecAl R r] {tag : Node} : Al R (parseTaggedTemplate r tag) := by
  unfold parseTaggedTemplate; al

instance al_parseFunctionExpr [RecAl R r] : Al R (parseFunctionExpr r false) := by
  unfold parseFunctionExpr; al
instance al_parseFunctionExpr' [RecAl R r] : Al R (parseFunctionExpr r true) := by
  unfold parseFunctionExpr; al

instance al_argument [RecAl R r] : Al R (argument r) := by
  unfold argument; al

instance al_parseArguments [RecAl R r] : Al R (parseArguments r) := by
  unfold parseArguments; al

instance al_seqItem [RecAl R r] : Al R (seqItem r) := by
  unfold seqItem; al

instance al_nodeToParam {isLast : Bool} {expr : Node} : Al R (nodeToParam isLast expr) := by
  unfold nodeToParam; al

instance al_seqToArrowParams {z : List Node} : Al R (seqToArrowParams z) := by
  induction z with
  | nil => unfold seqToArrowParams; al
  | cons a l ih => unfold seqToArrowParams; cases l <;> al

instance al_seqToArrow [RecAl R r] {seq : List Node} : Al R (seqToArrow r seq) := by
  unfold seqToArrow; al

instance al_parseSeqOrArrow [RecAl R r] : Al R (parseSeqOrArrow r) := by
  unfold parseSeqOrArrow; al

instance al_arrayItem [RecAl R r] : Al R (arrayItem r) := by
  unfold arrayItem; al

instance al_parseArrayLitExpr [RecAl R r] : Al R (parseArrayLitExpr r) := by
  unfold parseArrayLitExpr; al

instance al_parseMethodDefinition [RecAl R r] {key : PropertyKey} {kind : Parser.PropKind} {async : Bool} {generator : Bool} {computed : Bool} : Al R (parseMethodDefinition r key kind async generator computed) := by
  unfold parseMethodDefinition; al

theorem al_accessorHead [RecAl R r] {name : Str} {kind : PropKind} : AlLook R (accessorHead r name kind) := by
  unfold accessorHead
  exact look_peek fun t => by al
theorem al_asyncHead [RecAl R r] : AlLook R (asyncHead r) := by
  unfold asyncHead
  exact look_peek fun t => by al

instance al_propHead [RecAl R r] : Al R (propHead r) := by
  unfold propHead
  refine ⟨fun s hs => ?_⟩
  have ⟨past, w, hw⟩ := hs
  exact Al1.cur (Al1.ite (fun hi => al_accessorHead s past w hw ⟨_, by simp, hw.cur.isId hi⟩) fun _ => Al1.ite
    (fun hi => al_accessorHead s past w hw ⟨_, by simp, hw.cur.isId hi⟩) fun _ => Al1.ite
    (fun hi => al_asyncHead s past w hw ⟨_, by simp, hw.cur.isId hi⟩) fun _ => (by al : Al R _).out s hs)

instance al_propKey [RecAl R r] : Al R (propKey r) := by
  unfold propKey; al

instance al_propRest [RecAl R r] {key : PropertyKey} {computed : Bool} {kind : Parser.PropKind} {async : Bool} {generator : Bool} : Al R (propRest r key computed kind async generator) := by
  unfold propRest; al

instance al_objectItem [RecAl R r] : Al R (objectItem r) := by
  unfold objectItem; al

instance al_parseObjectLitExpr [RecAl R r] : Al R (parseObjectLitExpr r) := by
  unfold parseObjectLitExpr; al

instance al_identName {z : Node} : Al R (identName z) := by
  unfold identName; al

theorem wp_idRef {past : List Word} {w : Word} (h : Why.Here R s past w) :
    Why.Wp R parseIdReference s past w fun _ _ p _ => p = w :: past := by
  unfold parseIdReference
  refine Why.Wp.still h fun _ s1 _ _ _ h1 => (wp_strictReservedCheck h1).bind fun _ s2 p2 w2 h2 _ e2 => ?_
  obtain ⟨rfl, rfl⟩ := e2
  have hr : ∀ {k : Str → PM Node}, (∀ v s3 w3, Why.Here R s3 (w2 :: p2) w3 → Why.Wp R (k v) s3 (w2 :: p2) w3 fun _ _ p _ => p = w2 :: p2) →
      Why.Wp R (advanceStr .div >>= k) s2 p2 w2 fun _ _ p _ => p = w2 :: p2 := by
    intro k hk
    refine Why.Wp.bind (Q := fun _ _ p _ => p = w2 :: p2) ?_ fun v s3 p3 w3 h3 _ e3 => ?_
    · unfold advanceStr
      exact Why.Wp.advance h2 fun s3 w3 h3 _ => Why.Wp.of_pure (Why.Wp.still h3 fun _ _ _ _ _ h4 => Why.Wp.pure h4 rfl)
    · subst e3
      exact hk v s3 w3 h3
  refine Why.Wp.get (Why.Wp.ite (fun _ => ?_) fun _ => Why.Wp.ite (fun hy => Why.Wp.ite (fun _ => Why.Wp.errorCurrent h2 (h2.cur.isKw hy))
    fun _ => ?_) fun _ => Why.Wp.ite (fun ha => Why.Wp.ite (fun _ => Why.Wp.errorCurrent h2 (h2.cur.isKw ha)) fun _ => ?_)
    fun _ => wp_unexpectedCurrent h2)
  all_goals exact hr fun _ s3 w3 h3 => Why.Wp.still h3 fun _ _ _ _ _ h4 => Why.Wp.pure h4 rfl

theorem al_parseAsyncPrimaryExpr [RecAl R r] {past : List Word} {w : Word} (h : Here R s past w) (hc : w.c = .name cs!"async") :
    Al1 R (parseAsyncPrimaryExpr r) s := by
  unfold parseAsyncPrimaryExpr
  refine Al1.bind (al_startSpan.out s ⟨past, w, h⟩) fun _ s1 hm _ => ?_
  cases hm
  have h1 : Here R { s with markerStack := ⟨s.current.lineNum, s.current.col, s.current.start⟩ :: s.markerStack } past w :=
    Here.same h rfl rfl rfl rfl
  refine Al1.wp (wp_idRef h1.toHere) (al_parseIdReference.out _ ⟨past, w, h1⟩) fun id s2 p2 w2 _ h2 _ e2 => ?_
  subst e2
  have hs2 : Near R s2 := ⟨_, _, h2⟩
  refine Al1.get (Al1.ite (fun hl => Al1.ite (fun _ => al_pure.out s2 hs2) fun hn => Al1.ite (fun hp => ?_) fun _ =>
    (by al : Al R _).out s2 hs2) fun _ => (by al : Al R _).out s2 hs2)
  refine ⟨fun a s' he => (by cases he), fun p he _ => ?_⟩
  cases he
  obtain ⟨text, k1, _⟩ := h2.place
  refine Caused.of h2 ⟨⟨w.nl, past, by rw [← hc]⟩, k1.no hl, ?_⟩
  obtain ⟨q, hq⟩ := punct_word h2.cur hp.1
  refine ⟨q, hq, ?_, ?_, ?_⟩
  · rintro rfl; exact h2.cur.notP (fun hx => hn (.inl hx)) hq
  · rintro rfl; exact h2.cur.notP (fun hx => hn (.inr (.inl hx))) hq
  · rintro rfl; exact h2.cur.notP (fun hx => hn (.inr (.inr hx))) hq

instance al_parseLiteral : Al R (parseLiteral) := by
  unfold parseLiteral; al

instance al_parseRegex : Al R (parseRegex) := by
  unfold parseRegex; al

instance al_parseThis : Al R (parseThis) := by
  unfold parseThis; al

instance al_parsePrimaryExpr [RecAl R r] : Al R (parsePrimaryExpr r) := by
  unfold parsePrimaryExpr
  refine ⟨fun s hs => Al1.cur (Al1.ite (fun _ => al_parseFunctionExpr.out s hs) fun _ => Al1.ite (fun hc => ?_) fun _ =>
    (by al : Al R _).out s hs)⟩
  obtain ⟨past, w, h⟩ := hs
  exact al_parseAsyncPrimaryExpr h (h.cur.isId hc)

instance al_parseComputedMemberExpr [RecAl R r] {object : Node} : Al R (parseComputedMemberExpr r object) := by
  unfold parseComputedMemberExpr; al

instance al_parseStaticMemberExpr {object : Node} : Al R (parseStaticMemberExpr object) := by
  unfold parseStaticMemberExpr; al

instance al_parseSuper : Al R (parseSuper) := by
  unfold parseSuper; al

instance al_memberLoopF [RecAl R r] {n : Nat} {z : Node} : Al R (memberLoopF r n z) := by
  induction n generalizing z with
  | zero => exact al_fail (fun h => h)
  | succ n ih => unfold memberLoopF; al

instance al_memberLoopF' [RecAl R r] {e : Node} : Al R (fun s => memberLoopF r (s.size + 1) e s) :=
  al_budget (m := fun n => memberLoopF r n e) fun _ => inferInstance

instance al_parseMemberHead [RecAl R r] : Al R (parseMemberHead r) := by
  unfold parseMemberHead; al

instance al_parseMemberExpr [RecAl R r] : Al R (parseMemberExpr r) := by
  unfold parseMemberExpr; al

instance al_callLoopF [RecAl R r] {n : Nat} {z : Node} : Al R (callLoopF r n z) := by
  induction n generalizing z with
  | zero => exact al_fail (fun h => h)
  | succ n ih => unfold callLoopF; al

instance al_callLoopF' [RecAl R r] {e : Node} : Al R (fun s => callLoopF r (s.size + 1) e s) :=
  al_budget (m := fun n => callLoopF r n e) fun _ => inferInstance

instance al_parseCallExprTail [RecAl R r] {callee : Node} : Al R (parseCallExprTail r callee) := by
  unfold parseCallExprTail; al

instance al_parseCallHead [RecAl R r] : Al R (parseCallHead r) := by
  unfold parseCallHead; al

instance al_parseCallExpr [RecAl R r] : Al R (parseCallExpr r) := by
  unfold parseCallExpr; al

instance al_parseNewTarget {t : Token} {sp : Span} : Al R (parseNewTarget t sp) := by
  unfold parseNewTarget; al
instance al_parseNewCallee [RecAl R r] : Al R (parseNewCallee r) := by
  unfold parseNewCallee; al
instance al_parseNewExpr [RecAl R r] : Al R (parseNewExpr r) := by
  unfold parseNewExpr; al

instance al_parseLeftHandSideExpr [RecAl R r] : Al R (parseLeftHandSideExpr r) := by
  unfold parseLeftHandSideExpr; al

theorem startSpan_then {k : PM α} (hk : ∀ s', s'.current = s.current → Near R s' → Al1 R k s') (hs : Near R s) :
    Al1 R (startSpan >>= fun _ => k) s := by
  refine Al1.bind (al_startSpan.out s hs) fun _ s1 hm h1 => hk s1 ?_ h1
  cases hm
  rfl

theorem al_parsePrefixUpdate [RecAl R r] (hs : Near R s) (h : s.current.toStr?.isSome = true) : Al1 R (parsePrefixUpdate r) s := by
  unfold parsePrefixUpdate
  refine startSpan_then (fun s1 e1 h1 => ?_) hs
  exact Al1.bind (Al1.advanceStr h1 (by rw [e1]; exact h)) fun _ s2 _ h2 => (by al : Al R _).out s2 h2

instance al_parsePostfix [RecAl R r] : Al R (parsePostfix r) := by
  unfold parsePostfix
  refine al_bind inferInstance fun _ => al_bind inferInstance fun _ => al_bind inferInstance fun _ => ⟨fun s hs =>
    Al1.get (Al1.ite (fun hc => Al1.ite (fun _ => al_err.out s hs) fun _ => ?_) fun _ => al_pure.out s hs)⟩
  exact Al1.bind (Al1.advanceStr hs (isUpdateOp_str hc.2)) fun _ s2 _ h2 => (by al : Al R _).out s2 h2

instance al_parseUpdateExpr [RecAl R r] : Al R (parseUpdateExpr r) := by
  unfold parseUpdateExpr
  exact ⟨fun s hs => Al1.cur (Al1.ite (fun hc => al_parsePrefixUpdate hs (isUpdateOp_str hc)) fun _ => al_parsePostfix.out s hs)⟩

theorem al_parseUnaryOp [RecAl R r] (hs : Near R s) (h : s.current.toStr?.isSome = true) : Al1 R (parseUnaryOp r) s := by
  unfold parseUnaryOp
  refine startSpan_then (fun s1 e1 h1 => ?_) hs
  exact Al1.bind (Al1.advanceStr h1 (by rw [e1]; exact h)) fun _ s2 _ h2 => (by al : Al R _).out s2 h2

instance al_parseUnaryExpr [RecAl R r] : Al R (parseUnaryExpr r) := by
  unfold parseUnaryExpr
  refine ⟨fun s hs => Al1.get (Al1.ite (fun hc => ?_) fun _ => al_parseUpdateExpr.out s hs)⟩
  refine Al1.bind ((al_some hs.unary).out s hs) fun b s1 hm _ => ?_
  have hs1 : s1 = s := unwrap_same hm
  subst hs1
  refine Al1.ite (fun _ => al_parseUnaryOp hs (hs.str ?_)) fun _ => al_parseUpdateExpr.out s1 hs
  rcases hc with h | h
  · exact .inr (.inr h)
  · exact .inr (.inl h)

instance al_parsePow [RecAl R r] : Al R (parsePow r) := by
  unfold parsePow
  refine al_bind inferInstance fun _ => al_bind inferInstance fun _ => ⟨fun s hs => Al1.cur (Al1.ite (fun hc => ?_) fun _ =>
    (by al : Al R _).out s hs)⟩
  refine Al1.bind (al_consume.out s hs) fun t s1 hm h1 => ?_
  have : t = s.current := by
    unfold consume at hm
    have hm : (if s.current.matchesPunc .pow = true then advance .regExp else unexpectedCurrent) s = .ok (t, s1) := hm
    split at hm
    · exact advance_val hm
    · exact absurd hm (fails_unexpectedCurrent.out _ _ _)
  subst this
  exact (al_bind (al_some (isP_str hc)) fun _ => by al : Al R _).out s1 h1

instance al_parseExponentiationExpr [RecAl R r] : Al R (parseExponentiationExpr r) := by
  unfold parseExponentiationExpr
  exact ⟨fun s hs => Al1.get (Al1.bind ((al_some hs.unary).out s hs) fun _ s1 _ h1 => (by al : Al R _).out s1 h1)⟩

instance al_climbInnerF [RecAl R r] {opPrec : Nat} {n : Nat} {z : Node} : Al R (climbInnerF r opPrec n z) := by
  induction n generalizing z with
  | zero => exact al_fail (fun h => h)
  | succ n ih => unfold climbInnerF; al

instance al_climbInnerF' [RecAl R r] {o : Nat} {e : Node} : Al R (fun s => climbInnerF r o (s.size + 1) e s) :=
  al_budget (m := fun n => climbInnerF r o n e) fun _ => inferInstance

theorem al_climbStep [RecAl R r] {lhs : Node} (hs : Near R s) (h : s.current.isBinOp = true) : Al1 R (climbStep r lhs) s := by
  unfold climbStep
  refine Al1.bind (al_advance.out s hs) fun op s1 hm h1 => ?_
  have := advance_val hm
  subst this
  have hstr : s.current.toStr?.isSome = true := by
    rcases isBinOp_type h with h | h
    · exact hs.str (.inr (.inl h))
    · exact hs.str (.inr (.inr h))
  exact (al_bind inferInstance fun _ => al_bind inferInstance fun _ => al_bind inferInstance fun _ => al_bind (al_some hstr) fun _ => by al :
    Al R _).out s1 h1

instance al_climbF [RecAl R r] {prec : Nat} {n : Nat} {z : Node} : Al R (climbF r prec n z) := by
  induction n generalizing z with
  | zero => exact al_fail (fun h => h)
  | succ n ih =>
    unfold climbF
    exact ⟨fun s hs => Al1.get (Al1.ite (fun hc => Al1.bind (al_climbStep hs hc.1) fun x s' _ hs' => ih.out s' hs') fun _ => al_pure.out s hs)⟩

instance al_climbF' [RecAl R r] {o : Nat} {e : Node} : Al R (fun s => climbF r o (s.size + 1) e s) :=
  al_budget (m := fun n => climbF r o n e) fun _ => inferInstance

instance al_precedenceClimbing [RecAl R r] {prec : Nat} {z : Node} : Al R (precedenceClimbing r z prec) := by
  unfold precedenceClimbing; al

instance al_parseBinaryExpr [RecAl R r] : Al R (parseBinaryExpr r) := by
  unfold parseBinaryExpr; al

instance al_parseConditionalExpr [RecAl R r] : Al R (parseConditionalExpr r) := by
  unfold parseConditionalExpr; al

instance al_parseSingleParamArrow [RecAl R r] {name : Str} : Al R (parseSingleParamArrow r name) := by
  unfold parseSingleParamArrow; al

instance al_parseYieldExpr [RecAl R r] : Al R (parseYieldExpr r) := by
  unfold parseYieldExpr; al

instance al_arrowIfIdentifier [RecAl R r] {lhs : Node} : Al R (arrowIfIdentifier r lhs) := by
  unfold arrowIfIdentifier; al

instance al_parseAssignTail [RecAl R r] {lhs : Node} : Al R (parseAssignTail r lhs) := by
  unfold parseAssignTail; al

instance al_parseOpAssignTail [RecAl R r] {lhs : Node} : Al R (parseOpAssignTail r lhs) := by
  unfold parseOpAssignTail; al

instance al_parseAssignmentExpr [RecAl R r] : Al R (parseAssignmentExpr r) := by
  unfold parseAssignmentExpr; al

instance al_parseBlockStmt [RecAl R r] : Al R (parseBlockStmt r) := by
  unfold parseBlockStmt; al

instance al_parseVariableDclr [RecAl R r] : Al R (parseVariableDclr r) := by
  unfold parseVariableDclr; al

instance al_commaDclr [RecAl R r] : Al R (commaDclr r) := by
  unfold commaDclr; al

instance al_parseVarList [RecAl R r] : Al R (parseVarList r) := by
  unfold parseVarList; al

instance al_parseVariableStmt [RecAl R r] : Al R (parseVariableStmt r) := by
  unfold parseVariableStmt; al

instance al_parseLexicalDclr [RecAl R r] : Al R (parseLexicalDclr r) := by
  unfold parseLexicalDclr; al

instance al_parseEmptyStmt : Al R (parseEmptyStmt) := by
  unfold parseEmptyStmt; al

instance al_parseExpressionStmt {expression : Node} : Al R (parseExpressionStmt expression) := by
  unfold parseExpressionStmt; al

instance al_parseElse [RecAl R r] : Al R (parseElse r) := by
  unfold parseElse; al

instance al_parseIfStmt [RecAl R r] : Al R (parseIfStmt r) := by
  unfold parseIfStmt; al

instance al_parseLoopBody [RecAl R r] : Al R (parseLoopBody r) := by
  unfold parseLoopBody; al

instance al_optExpr [RecAl R r] {close : Punctuator} : Al R (optExpr r close) := by
  unfold optExpr; al

instance al_parseForClassic [RecAl R r] {init : Option Node} : Al R (parseForClassic r init) := by
  unfold parseForClassic; al

instance al_parseForIn [RecAl R r] {left : Node} : Al R (parseForIn r left) := by
  unfold parseForIn; al

instance al_parseForOf [RecAl R r] {left : Node} : Al R (parseForOf r left) := by
  unfold parseForOf; al

instance al_forCommaDclr [RecAl R r] : Al R (forCommaDclr r) := by
  unfold forCommaDclr; al

instance al_parseForDclrs [RecAl R r] {kind : Str} {d : VariableDeclarator} : Al R (parseForDclrs r kind d) := by
  unfold parseForDclrs; al

instance al_parseForInit [RecAl R r] {kind : Str} {id : Binding} : Al R (parseForInit r kind id) := by
  unfold parseForInit; al

instance al_parseForVar [RecAl R r] : Al R (parseForVar r) := by
  unfold parseForVar; al

instance al_parseForKind : Al R (parseForKind) := by
  unfold parseForKind; al

instance al_parseForLexical [RecAl R r] : Al R (parseForLexical r) := by
  unfold parseForLexical; al

instance al_parseForTarget {expr : Node} : Al R (parseForTarget expr) := by
  unfold parseForTarget; al

instance al_forCommaExpr [RecAl R r] : Al R (forCommaExpr r) := by
  unfold forCommaExpr; al

instance al_parseForExpr [RecAl R r] : Al R (parseForExpr r) := by
  unfold parseForExpr; al

instance al_parseForStmt [RecAl R r] : Al R (parseForStmt r) := by
  unfold parseForStmt; al

instance al_parseWhileStmt [RecAl R r] : Al R (parseWhileStmt r) := by
  unfold parseWhileStmt; al

instance al_parseDoWhileStmt [RecAl R r] : Al R (parseDoWhileStmt r) := by
  unfold parseDoWhileStmt; al

instance al_parseIterationStmt [RecAl R r] : Al R (parseIterationStmt r) := by
  unfold parseIterationStmt; al

instance al_consequentF [RecAl R r] {n : Nat} : Al R (consequentF r n) := by
  induction n with
  | zero => exact al_fail (fun h => h)
  | succ n ih => unfold consequentF; al

instance al_consequentF' [RecAl R r] : Al R (fun s => consequentF r (s.size + 1) s) :=
  al_budget fun _ => inferInstance

instance al_parseConsequent [RecAl R r] : Al R (parseConsequent r) := by
  unfold parseConsequent; al

instance al_parseCaseTest [RecAl R r] {firstDefault : Bool} : Al R (parseCaseTest r firstDefault) := by
  unfold parseCaseTest; al

instance al_casesF [RecAl R r] {n : Nat} {z : Bool} : Al R (casesF r n z) := by
  induction n generalizing z with
  | zero => exact al_fail (fun h => h)
  | succ n ih => unfold casesF; al

instance al_casesF' [RecAl R r] {b : Bool} : Al R (fun s => casesF r (s.size + 1) b s) :=
  al_budget (m := fun n => casesF r n b) fun _ => inferInstance

instance al_parseSwitchInner [RecAl R r] : Al R (parseSwitchInner r) := by
  unfold parseSwitchInner; al

instance al_parseSwitchStmt [RecAl R r] : Al R (parseSwitchStmt r) := by
  unfold parseSwitchStmt; al

instance al_parseLabelOpt : Al R (parseLabelOpt) := by
  unfold parseLabelOpt; al

instance al_parseContinueStmt : Al R (parseContinueStmt) := by
  unfold parseContinueStmt; al

instance al_parseBreakStmt : Al R (parseBreakStmt) := by
  unfold parseBreakStmt; al

instance al_parseReturnArg [RecAl R r] : Al R (parseReturnArg r) := by
  unfold parseReturnArg; al

instance al_parseReturnStmt [RecAl R r] : Al R (parseReturnStmt r) := by
  unfold parseReturnStmt; al

instance al_parseReturn [RecAl R r] : Al R (parseReturn r) := by
  unfold parseReturn; al

instance al_parseWithStmt [RecAl R r] : Al R (parseWithStmt r) := by
  unfold parseWithStmt; al

instance al_parseThrowStmt [RecAl R r] : Al R (parseThrowStmt r) := by
  unfold parseThrowStmt; al

instance al_parseCatchParam [RecAl R r] : Al R (parseCatchParam r) := by
  unfold parseCatchParam; al

instance al_parseCatchClause [RecAl R r] : Al R (parseCatchClause r) := by
  unfold parseCatchClause; al

instance al_parseFinallyClause [RecAl R r] : Al R (parseFinallyClause r) := by
  unfold parseFinallyClause; al

instance al_parseTryStmt [RecAl R r] : Al R (parseTryStmt r) := by
  unfold parseTryStmt; al

instance al_parseDebuggerStmt : Al R (parseDebuggerStmt) := by
  unfold parseDebuggerStmt; al

instance al_parseGeneratorMark {allowGenerator : Bool} : Al R (parseGeneratorMark allowGenerator) := by
  unfold parseGeneratorMark; al

instance al_parseFunctionName : Al R (parseFunctionName) := by
  unfold parseFunctionName; al

instance al_parseFunctionDclrRest [RecAl R r] {g : Bool} : Al R (parseFunctionDclrRest r false g) := by
  unfold parseFunctionDclrRest; al
instance al_parseFunctionDclrRest' [RecAl R r] {g : Bool} : Al R (parseFunctionDclrRest r true g) := by
  unfold parseFunctionDclrRest; al

instance al_parseFunctionDclr [RecAl R r] {g : Bool} : Al R (parseFunctionDclr r false g) := by
  unfold parseFunctionDclr; al
instance al_parseFunctionDclr' [RecAl R r] {g : Bool} : Al R (parseFunctionDclr r true g) := by
  unfold parseFunctionDclr; al

instance al_parseHoistableDclr [RecAl R r] : Al R (parseHoistableDclr r) := by
  unfold parseHoistableDclr; al

instance al_parseDeclaration [RecAl R r] : Al R (parseDeclaration r) := by
  unfold parseDeclaration; al

instance al_parseLabelBody [RecAl R r] : Al R (parseLabelBody r) := by
  unfold parseLabelBody; al

instance al_parseLabelledStmt [RecAl R r] {label : Identifier} : Al R (parseLabelledStmt r label) := by
  unfold parseLabelledStmt; al

instance al_parseExpressionOrLabelled [RecAl R r] : Al R (parseExpressionOrLabelled r) := by
  unfold parseExpressionOrLabelled; al

theorem al_parseAsyncItem [RecAl R r] : AlLook R (parseAsyncItem r) := by
  unfold parseAsyncItem
  intro s past w h hl
  refine Al1.bind (al_startSpan.out s ⟨past, w, h⟩) fun _ s1 hm _ => ?_
  cases hm
  exact Al1.cur (look_peek (fun t => by al) _ past w (Here.same h rfl rfl rfl rfl) hl)

instance al_parseStmtListItem [RecAl R r] : Al R (parseStmtListItem r) := by
  unfold parseStmtListItem
  refine ⟨fun s hs => ?_⟩
  have ⟨past, w, hw⟩ := hs
  refine Al1.cur ?_
  iterate 13
    refine Al1.ite (fun _ => Al.out s hs) fun _ => ?_
  exact Al1.ite (fun hc => al_parseAsyncItem s past w hw ⟨_, by simp, hw.cur.isId hc⟩) fun _ => (by al : Al R _).out s hs

instance al_parseStatement [RecAl R r] : Al R (parseStatement r) := by
  unfold parseStatement; al

instance al_parseImportLocal : Al R (parseImportLocal) := by
  unfold parseImportLocal; al

instance al_parseModuleSpecifier : Al R (parseModuleSpecifier) := by
  unfold parseModuleSpecifier; al

instance al_parseImportFrom {specifiers : List ImportDeclarationSpecifier} : Al R (parseImportFrom specifiers) := by
  unfold parseImportFrom; al

instance al_parseNamespaceImport : Al R (parseNamespaceImport) := by
  unfold parseNamespaceImport; al

instance al_importSpec : Al R (importSpec) := by
  unfold importSpec; al

instance al_parseNamedImports : Al R (parseNamedImports) := by
  unfold parseNamedImports; al

instance al_parseImportDefault : Al R (parseImportDefault) := by
  unfold parseImportDefault; al

instance al_parseImportDclr : Al R (parseImportDclr) := by
  unfold parseImportDclr
  refine al_bind inferInstance fun _ => ⟨fun s hs => ?_⟩
  obtain ⟨past, w, h⟩ := hs
  refine Al1.wp (wp_consumeKw h.toHere) (al_consumeKw.out s ⟨_, _, h⟩) fun _ s1 p1 w1 _ h1 _ e1 => ?_
  obtain ⟨rfl, hc⟩ := e1
  have hs1 : Near R s1 := ⟨_, _, h1⟩
  refine Al1.cur (Al1.ite (fun _ => (by al : Al R _).out s1 hs1) fun _ => Al1.ite (fun _ => (by al : Al R _).out s1 hs1) fun _ =>
    Al1.ite (fun _ => (by al : Al R _).out s1 hs1) fun _ => Al1.ite (fun ht => ?_) fun _ => (by al : Al R _).out s1 hs1)
  refine ⟨fun a s' he => (by cases he), fun p he _ => ?_⟩
  cases he
  exact Caused.of h1 ⟨⟨w.nl, past, by rw [← hc]⟩, string_word h1.cur ht⟩

instance al_exportSpec : Al R (exportSpec) := by
  unfold exportSpec; al

instance al_parseNamedExports : Al R (parseNamedExports) := by
  unfold parseNamedExports; al

instance al_parseExportDefault [RecAl R r] : Al R (parseExportDefault r) := by
  unfold parseExportDefault; al

instance al_parseExportNamed : Al R (parseExportNamed) := by
  unfold parseExportNamed; al

instance al_parseExportAll : Al R (parseExportAll) := by
  unfold parseExportAll; al

instance al_parseExportDclr [RecAl R r] : Al R (parseExportDclr r) := by
  unfold parseExportDclr; al

instance al_parseModuleItem [RecAl R r] : Al R (parseModuleItem r) := by
  unfold parseModuleItem; al

instance al_parseScriptBody [RecAl R r] : Al R (parseScriptBody r) := by
  unfold parseScriptBody; al

theorem al_parseModuleBody [RecAl R r] (hm : R.module = true) : Al R (parseModuleBody r) := by
  unfold parseModuleBody
  refine al_bind inferInstance fun _ => al_bind ⟨fun s hs => ⟨fun a s' e => ?_, fun p e => by cases e⟩⟩ fun _ => by al
  cases e
  obtain ⟨past, w, ⟨⟨text, k1, k2⟩, _⟩, k4⟩ := hs
  exact ⟨past, w, ⟨⟨text, k1.of_eq rfl rfl rfl, k2⟩, fun _ => .inl hm⟩, k4⟩

/-- all levels of the recursion -/
instance recAl_run : ∀ n, RecAl R (run n) := by
  intro n
  induction n with
  | zero =>
    have := Why.recWy_run (R := R) 0
    exact ⟨al_fuel, al_fuel, al_fuel, al_fuel, al_fuel, al_fuel, fun _ _ => al_fuel, al_fuel, al_fuel⟩
  | succ n ih =>
    have := Why.recWy_run (R := R) (n + 1)
    exact ⟨al_parseAssignmentExpr, al_parseStmtListItem, al_parseStatement, al_parseUnaryExpr, al_parseExponentiationExpr,
      al_parseNewExpr, fun _ _ => al_precedenceClimbing, al_parseBindingIdOrPat, al_parseLeftHandSideExpr⟩

end Cause
end Giron

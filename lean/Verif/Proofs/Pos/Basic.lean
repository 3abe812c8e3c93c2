import Verif.Proofs.Pos.Tree
import Verif.Proofs.Frame.Basic
import Verif.Proofs.Layout.Sim
/-
What all the spans of a tree have in common: rules for the parser methods.  An invariant of the parser state is kept, and
the spans of what a method returns have a property.
-/
namespace Giron
namespace Pos
open M Giron.Parser Layout
variable [Env] {α β : Type} [Sp α] [Sp β] {I : Parser → Prop} {P : Pr}

/-- types without spans -/
class NoSp (α : Type) [Sp α] : Prop where
  out : ∀ (P : Pr) (a : α), Al P a

instance : NoSp Bool := ⟨fun _ _ => by simp [al]⟩
instance : NoSp Char := ⟨fun _ _ => by simp [al]⟩
instance : NoSp Nat := ⟨fun _ _ => by simp [al]⟩
instance : NoSp Value := ⟨fun _ _ => by simp [al]⟩
instance : NoSp Punctuator := ⟨fun _ _ => by simp [al]⟩
instance : NoSp TemplateElement := ⟨fun _ _ => by simp [al]⟩
instance [h : NoSp α] : NoSp (List α) := ⟨fun P l => ⟨fun a _ => (h.out P a).out⟩⟩
instance [h : NoSp α] : NoSp (Option α) := ⟨fun P l => ⟨fun a _ => (h.out P a).out⟩⟩
instance al_noSp [h : NoSp α] {a : α} : Al P a := h.out P a

@[al] theorem al_prod {p : α × β} : Al P p ↔ Al P p.1 ∧ Al P p.2 := by simp [al_def, Sp.all]
omit [Env] in
@[al] theorem al_filterMap {l : List (Option α)} : Al P (l.filterMap id) ↔ Al P l := by
  simp only [al_def, Sp.all, List.mem_filterMap, id, exists_eq_right]
  exact ⟨fun h o ho a ha => h a (by rw [Option.mem_def] at ha; exact ha ▸ ho), fun h a ha => h _ ha a rfl⟩

instance al_mapFst {l : List (α × β)} [h : Al P l] : Al P (l.map Prod.fst) := by
  constructor
  intro a ha
  rw [List.mem_map] at ha
  obtain ⟨p, hp, rfl⟩ := ha
  exact (h.out p hp).1
@[al] theorem al_mapFst' {l : List (α × β)} (h : Al P l) : Al P (l.map Prod.fst) ↔ True := iff_true_intro al_mapFst
@[al] theorem al_ite {c : Prop} [Decidable c] {a b : α} : Al P (if c then a else b) ↔ (c → Al P a) ∧ (¬ c → Al P b) := by
  split <;> simp [*]

/-- what is asked of errors: those at a token or at the start of a span are all right -/
class Fair (P : Pr) : Prop where
  tok : ∀ t e, P.tok t → Plain e → P.bad ⟨t.lineNum, t.col, e⟩
  unexpected : ∀ t, P.tok t → P.bad ⟨t.lineNum, t.col, .unexpectedToken t.value.toString⟩
  span : ∀ (sp : Span) e, P sp → Mild e → P.bad ⟨sp.start.line, sp.start.col, e⟩

/-- errors there are all right -/
class Pl (P : Pr) (line col : Nat) : Prop where
  out : ∀ e, Plain e → P.bad ⟨line, col, e⟩

instance pl_tok [F : Fair P] {t : Token} [h : Al P t] : Pl P t.lineNum t.col := ⟨fun e he => F.tok t e h.out he⟩

/-- errors of conversions are all right there -/
class Pm (P : Pr) (line col : Nat) : Prop where
  out : ∀ e, Mild e → P.bad ⟨line, col, e⟩

instance pm_span [F : Fair P] {sp : Span} [h : Al P sp] : Pm P sp.start.line sp.start.col := ⟨fun e he => F.span sp e h.out he⟩
instance pm_pl {l c : Nat} [h : Pl P l c] : Pm P l c := ⟨fun e he => h.out e he.plain⟩

/-- what is asked of the invariant and the property -/
class World (I : Parser → Prop) (P : Pr) : Prop where
  cur : ∀ s, I s → P.tok s.current
  quiet : ∀ s c p ps, I s → I { s with ctx := c, params := p, paramsStack := ps }
  next : ∀ s g t sc, I s → s.scanner.next g = .ok (t, sc) →
    I { s with scanner := sc, current := t, hasLineTerminator := decide (t.lineNum > s.current.lineNum) }
  stop : ∀ s g e, I s → s.scanner.next g = .error (.err e) → P.bad e
  push : ∀ s, I s → I { s with markerStack := ⟨s.current.lineNum, s.current.col, s.current.start⟩ :: s.markerStack }
  pop : ∀ s m ms, I s → s.markerStack = m :: ms → P ⟨m, endMarker s⟩ ∧ I { s with markerStack := ms }
  look : ∀ s t s', I s → lookTok s.current = true → peekToken s = .ok (t, s') → I s' ∧ P.tok t
  lookStop : ∀ s e, I s → lookTok s.current = true → peekToken s = .error (.err e) → P.bad e

variable (I P) in
/-- `m` keeps the invariant, the spans of its result have the property, and so do its errors -/
class Ks (m : PM α) : Prop where
  out : ∀ s a s', I s → m s = .ok (a, s') → I s' ∧ Al P a
  bad : ∀ s e, I s → m s = .error (.err e) → P.bad e

variable (I P) in
/-- the same, if the current token is such a one -/
structure KsAt (C : Token → Prop) (m : PM α) : Prop where
  out : ∀ s a s', I s → C s.current → m s = .ok (a, s') → I s' ∧ Al P a
  bad : ∀ s e, I s → C s.current → m s = .error (.err e) → P.bad e

theorem Ks.at {C : Token → Prop} {m : PM α} (h : Ks I P m) : KsAt I P C m :=
  ⟨fun s a s' hI _ => h.out s a s' hI, fun s e hI _ => h.bad s e hI⟩
theorem KsAt.ks {m : PM α} (h : KsAt I P (fun _ => True) m) : Ks I P m :=
  ⟨fun s a s' hI => h.out s a s' hI trivial, fun s e hI => h.bad s e hI trivial⟩

theorem ks_bind {m : PM α} {k : α → PM β} (h : Ks I P m) (hk : ∀ a, Al P a → Ks I P (k a)) : Ks I P (m >>= k) := by
  constructor
  · intro s b s'' hI hb
    obtain ⟨a, s', h1, h2⟩ := bind_ok_inv hb
    obtain ⟨e1, e2⟩ := h.out _ _ _ hI h1
    exact (hk a e2).out _ _ _ e1 h2
  · intro s e hI hb
    rcases bind_err_inv hb with h1 | ⟨a, s', h1, h2⟩
    · exact h.bad _ _ hI h1
    · obtain ⟨e1, e2⟩ := h.out _ _ _ hI h1
      exact (hk a e2).bad _ _ e1 h2

theorem ksAt_bind {C : Token → Prop} {m : PM α} {k : α → PM β} (h : KsAt I P C m) (hk : ∀ a, Al P a → Ks I P (k a)) :
    KsAt I P C (m >>= k) := by
  constructor
  · intro s b s'' hI hC hb
    obtain ⟨a, s', h1, h2⟩ := bind_ok_inv hb
    obtain ⟨e1, e2⟩ := h.out _ _ _ hI hC h1
    exact (hk a e2).out _ _ _ e1 h2
  · intro s e hI hC hb
    rcases bind_err_inv hb with h1 | ⟨a, s', h1, h2⟩
    · exact h.bad _ _ hI hC h1
    · obtain ⟨e1, e2⟩ := h.out _ _ _ hI hC h1
      exact (hk a e2).bad _ _ e1 h2

theorem ksAt_cur [W : World I P] {C : Token → Prop} {k : Token → PM β} (hk : ∀ t, Al P t → KsAt I P (fun u => C u ∧ u = t) (k t)) :
    KsAt I P C (cur >>= k) := by
  constructor
  · intro s b s'' hI hC hb
    exact (hk s.current ⟨W.cur s hI⟩).out _ _ _ hI ⟨hC, rfl⟩ hb
  · intro s e hI hC hb
    exact (hk s.current ⟨W.cur s hI⟩).bad _ _ hI ⟨hC, rfl⟩ hb

theorem ksAt_ite {C : Token → Prop} {c : Prop} [Decidable c] {m n : PM α} (h : c → KsAt I P C m) (h' : ¬ c → KsAt I P C n) :
    KsAt I P C (if c then m else n) := by
  split
  · exact h ‹_›
  · exact h' ‹_›

theorem ksAt_peek [World I P] {C : Token → Prop} (hC : ∀ t, C t → lookTok t = true) : KsAt I P C peekToken :=
  ⟨fun s a s' hI h hm => ⟨(World.look (P := P) s a s' hI (hC _ h) hm).1, ⟨(World.look (P := P) s a s' hI (hC _ h) hm).2⟩⟩,
    fun s e hI h hm => World.lookStop s e hI (hC _ h) hm⟩

theorem ks_pure {a : α} (h : Al P a) : Ks I P (pure a : PM α) :=
  ⟨fun s b s' hI h => by cases h; exact ⟨hI, ‹_›⟩, fun s e _ h => by cases h⟩
theorem ks_pure' {a : α} (h : Al P a) : Ks I P (M.pure a : PM α) := ks_pure h
instance ks_fuel : Ks I P (M.fail .fuel : PM α) := ⟨fun s b s' hI h => by (cases h), fun s e _ h => by (cases h)⟩
instance ks_panicF {p : PanicSite} : Ks I P (M.fail (.panic p) : PM α) := ⟨fun s b s' hI h => by (cases h), fun s e _ h => by (cases h)⟩
instance ks_panic {p : PanicSite} : Ks I P (M.panic p : PM α) := ks_panicF
instance ks_failAt {l c : Nat} {e : ErrorType} [h : Pl P l c] [he : Plain e] : Ks I P (M.fail (.err ⟨l, c, e⟩) : PM α) :=
  ⟨fun s b s' hI h => by (cases h), fun s e _ h' => by cases h'; exact h.out _ he⟩
instance ks_get [W : World I P] : Ks I P (M.get : PM Parser) :=
  ⟨fun s b s' hI h => by cases h; exact ⟨hI, ⟨W.cur _ hI⟩⟩, fun s e _ h => by (cases h)⟩
instance ks_cur [W : World I P] : Ks I P cur :=
  ⟨fun s b s' hI h => by cases h; exact ⟨hI, ⟨W.cur _ hI⟩⟩, fun s e _ h => by (cases h)⟩

theorem ks_ite {c : Prop} [Decidable c] {m n : PM α} (h : Ks I P m) (h' : Ks I P n) : Ks I P (if c then m else n) := by
  split <;> assumption

instance ks_when {c : Prop} [Decidable c] {m : PM Unit} [h : Ks I P m] : Ks I P (M.when c m) :=
  ks_ite h (ks_pure (by simp only [al]))

instance ks_unwrap {p : PanicSite} {v : Option α} [h : Al P v] : Ks I P (M.unwrap p v : PM α) := by
  cases v
  · exact ks_panic
  · simp only [al] at h; exact ks_pure h

variable (P) in
/-- the spans of the result have the property, and so has the error -/
class Kx (x : Except Fail α) : Prop where
  out : ∀ a, x = .ok a → Al P a
  bad : ∀ e, x = .error (.err e) → P.bad e

instance ks_ofExcept {x : Except Fail α} [h : Kx P x] : Ks I P (M.ofExcept x : PM α) := by
  cases x with
  | error f => exact ⟨fun s b s' hI h => by (cases h), fun s e _ h' => h.bad e (by cases h'; rfl)⟩
  | ok a => exact ks_pure (h.out _ rfl)

instance ks_error [Fair P] {t : Token} {e : ErrorType} [Al P t] [Plain e] : Ks I P (error t e : PM α) := by
  unfold error; exact inferInstance

variable [F : Fair P] [W : World I P]

instance ks_advance {g : LexGoal} : Ks I P (advance g) := by
  constructor
  · intro s a s' hI h
    unfold advance at h
    split at h <;> cases h
    exact ⟨World.next P _ _ _ _ hI ‹_›, ⟨W.cur _ hI⟩⟩
  · intro s e hI h
    unfold advance at h
    split at h <;> cases h
    exact W.stop s g e hI ‹_›

instance ks_startSpan : Ks I P startSpan :=
  ⟨fun s b s' hI h => by cases h; exact ⟨World.push P _ hI, by simp only [al]⟩, fun s e _ h => by (cases h)⟩

omit [Env] F in
theorem al_span {sp : Span} : Al P sp ↔ P sp := by simp [al_def, Sp.all]

instance ks_endSpan : Ks I P endSpan := by
  constructor
  · intro s a s' hI h
    unfold endSpan at h
    split at h <;> cases h
    obtain ⟨h1, h2⟩ := World.pop (P := P) _ _ _ hI ‹_›
    exact ⟨h2, al_span.2 h1⟩
  · intro s e hI h
    unfold endSpan at h
    split at h <;> cases h

instance ks_peekSpan : Ks I P peekSpan := by
  constructor
  · intro s a s' hI h
    unfold peekSpan at h
    split at h <;> cases h
    obtain ⟨h1, h2⟩ := World.pop (P := P) _ _ _ hI ‹_›
    exact ⟨hI, al_span.2 h1⟩
  · intro s e hI h
    unfold peekSpan at h
    split at h <;> cases h

instance ks_unexpected {t : Token} [h : Al P t] : Ks I P (unexpected t : PM α) :=
  ⟨fun s b s' hI h => by (cases h), fun s e _ h' => by cases h'; exact F.unexpected t h.out⟩
instance ks_unexpectedCurrent : Ks I P (unexpectedCurrent : PM α) := by
  unfold unexpectedCurrent; exact ks_bind inferInstance (fun _ _ => inferInstance)
instance ks_errorCurrent {e : ErrorType} [Plain e] : Ks I P (errorCurrent e : PM α) := by
  unfold errorCurrent; exact ks_bind inferInstance (fun _ _ => inferInstance)

/-- only the context is changed -/
instance ks_ctx {f : Parser → Context} : Ks I P (M.modify fun s => { s with ctx := f s }) :=
  ⟨fun s b s' hI h => by cases h; exact ⟨World.quiet P s (f s) s.params s.paramsStack hI, by simp only [al]⟩, fun s e _ h => by (cases h)⟩

instance ks_saveParams : Ks I P saveParams :=
  ⟨fun s b s' hI h => by cases h; exact ⟨World.quiet P s s.ctx s.params _ hI, by simp only [al]⟩, fun s e _ h => by (cases h)⟩
instance ks_setParams {f : Parser → Params} : Ks I P (M.modify fun s => { s with params := f s }) :=
  ⟨fun s b s' hI h => by cases h; exact ⟨World.quiet P s s.ctx (f s) s.paramsStack hI, by simp only [al]⟩, fun s e _ h => by (cases h)⟩
instance ks_restoreParams : Ks I P restoreParams := by
  constructor
  · intro s a s' hI h
    unfold restoreParams at h
    split at h <;> cases h
    exact ⟨World.quiet P s s.ctx _ _ hI, by simp only [al]⟩
  · intro s e hI h
    unfold restoreParams at h
    split at h <;> cases h

instance ks_withParams {f : Params → Params} {m : PM α} [h : Ks I P m] : Ks I P (withParams f m) := by
  unfold withParams
  exact ks_bind inferInstance fun _ _ => ks_bind inferInstance fun _ _ => ks_bind h fun a ha =>
    ks_bind inferInstance fun _ _ => ks_pure ha

/-- a loop with a budget -/
theorem ks_budget {m : Nat → PM α} {f : Parser → Nat} (h : ∀ n, Ks I P (m n)) : Ks I P (fun s => m (f s) s) :=
  ⟨fun s => (h (f s)).out s, fun s => (h (f s)).bad s⟩

variable (I P) in
/-- the recursive entry points -/
class RecKs (r : Rec) : Prop where
  assignmentExpr : Ks I P r.assignmentExpr
  stmtListItem : Ks I P r.stmtListItem
  statement : Ks I P r.statement
  unaryExpr : Ks I P r.unaryExpr
  exponentiationExpr : Ks I P r.exponentiationExpr
  newExpr : Ks I P r.newExpr
  precedenceClimbing : ∀ n k, Al P n → Ks I P (r.precedenceClimbing n k)
  bindingIdOrPat : Ks I P r.bindingIdOrPat
  leftHandSideExpr : Ks I P r.leftHandSideExpr

variable {r : Rec}
instance [h : RecKs I P r] : Ks I P r.assignmentExpr := h.assignmentExpr
instance [h : RecKs I P r] : Ks I P r.stmtListItem := h.stmtListItem
instance [h : RecKs I P r] : Ks I P r.statement := h.statement
instance [h : RecKs I P r] : Ks I P r.unaryExpr := h.unaryExpr
instance [h : RecKs I P r] : Ks I P r.exponentiationExpr := h.exponentiationExpr
instance [h : RecKs I P r] : Ks I P r.newExpr := h.newExpr
instance [h : RecKs I P r] {n k} [hn : Al P n] : Ks I P (r.precedenceClimbing n k) := h.precedenceClimbing n k hn
instance [h : RecKs I P r] : Ks I P r.bindingIdOrPat := h.bindingIdOrPat
instance [h : RecKs I P r] : Ks I P r.leftHandSideExpr := h.leftHandSideExpr

/-- one step -/
macro "ks1" : tactic => `(tactic| first
  | exact inferInstance
  | with_reducible assumption
  | (with_reducible refine ks_bind ?_ (fun _ _ => ?_))
  | (with_reducible refine ks_ite ?_ ?_)
  | exact ks_pure (by first | (simp [al, *]; done) | (simp_all [al]; done))
  | exact ⟨fun _ _ _ h h' => Ks.out _ _ _ h h', fun _ _ h h' => Ks.bad (α := _) _ _ h h'⟩
  | (refine ks_bind ?_ (fun _ _ => ?_))
  | split)

/-- all of them -/
macro "ks" : tactic => `(tactic| repeat ks1)

instance ks_whilePuncF {p} {m : PM α} [h : Ks I P m] {n : Nat} : Ks I P (whilePuncF p m n) := by
  induction n with
  | zero => exact ks_fuel
  | succ n ih => unfold whilePuncF; ks
instance ks_whilePunc {p} {m : PM α} [h : Ks I P m] : Ks I P (whilePunc p m) := ks_budget (fun _ => inferInstance)

instance ks_untilPuncF {p} {m : PM α} [h : Ks I P m] {n : Nat} : Ks I P (untilPuncF p m n) := by
  induction n with
  | zero => exact ks_fuel
  | succ n ih => unfold untilPuncF; ks
instance ks_untilPunc {p} {m : PM α} [h : Ks I P m] : Ks I P (untilPunc p m) := ks_budget (fun _ => inferInstance)

instance ks_untilPuncOrRestF {p} {m : PM α} [h : Ks I P m] {n : Nat} : Ks I P (untilPuncOrRestF p m n) := by
  induction n with
  | zero => exact ks_fuel
  | succ n ih => unfold untilPuncOrRestF; ks
instance ks_untilPuncOrRest {p} {m : PM α} [h : Ks I P m] : Ks I P (untilPuncOrRest p m) := ks_budget (fun _ => inferInstance)

instance ks_untilEofF {m : PM Node} [h : Ks I P m] {n : Nat} : Ks I P (untilEofF m n) := by
  induction n with
  | zero => exact ks_fuel
  | succ n ih => unfold untilEofF; ks
instance ks_untilEof {m : PM Node} [h : Ks I P m] : Ks I P (untilEof m) := ks_budget (fun _ => inferInstance)

end Pos
end Giron

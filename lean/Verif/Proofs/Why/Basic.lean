import Verif.Spec.Reasons
import Verif.Proofs.Pos.World
import Verif.Proofs.Pos.Trivial
import Verif.Proofs.Spell.Module
import Verif.Proofs.Frame.Walk
import Verif.Proofs.Why.Convert
/-
Why there is an error: rules for the parser methods.
-/
namespace Giron
namespace Why
open M Giron.Parser Layout Spec
variable [Env] {α β : Type}

/-- a source, and whether it is read as a module -/
structure Src where
  source : Str
  module : Bool

variable {R : Src}

/-- The words of the source up to the current one, and strict code only for a reason. -/
structure Here (R : Src) (s : Parser) (past : List Word) (w : Word) : Prop where
  place : ∃ text, Stands s past w text ∧ OpensWith R.source (w :: past).reverse text
  strict : s.ctx.strict = true → MadeStrict R.module (w :: past)

/-- later, more words have been read -/
abbrev Later (past : List Word) (w : Word) (past' : List Word) (w' : Word) : Prop := (w :: past) <:+ (w' :: past')

/-- From this place: if the method succeeds, the place reached is as `Q` says; and there is a reason for an error. -/
structure Wp (R : Src) (m : PM α) (s : Parser) (past : List Word) (w : Word) (Q : α → Parser → List Word → Word → Prop) : Prop where
  out : ∀ a s', m s = .ok (a, s') → ∃ past' w', Here R s' past' w' ∧ Later past w past' w' ∧ Q a s' past' w'
  bad : ∀ e, m s = .error (.err e) → Because R.source R.module e.errortype

/-- From any place. -/
class Wy (R : Src) (m : PM α) : Prop where
  out : ∀ s past w, Here R s past w → Wp R m s past w fun _ _ _ _ => True

variable {s : Parser} {past : List Word} {w : Word} {Q : α → Parser → List Word → Word → Prop}
  {Q' : β → Parser → List Word → Word → Prop}

theorem Here.because (h : Here R s past w) {k : ErrorType} (hk : reason R.module past w k) : Because R.source R.module k := by
  obtain ⟨text, _, h2⟩ := h.place
  exact ⟨past, w, text, h2, hk⟩
theorem Here.cur (h : Here R s past w) : IsTok s.current w.c := by
  obtain ⟨text, h1, _⟩ := h.place
  exact h1.cur

theorem seen_mono {v : Str} {l l' : List Word} (h : Seen v l) (hl : l <:+ l') : Seen v l' :=
  let ⟨u, h1, h2⟩ := h; ⟨u, hl.subset h1, h2⟩
theorem madeStrict_mono {b : Bool} {l l' : List Word} (h : MadeStrict b l) (hl : l <:+ l') : MadeStrict b l' := by
  rcases h with h | h | ⟨u, h1, h2⟩
  · exact .inl h
  · exact .inr (.inl (seen_mono h hl))
  · exact .inr (.inr ⟨u, hl.subset h1, h2⟩)

theorem Wp.mono {m : PM α} {Q1 : α → Parser → List Word → Word → Prop} (h : Wp R m s past w Q)
    (hq : ∀ a s' past' w', Here R s' past' w' → Later past w past' w' → Q a s' past' w' → Q1 a s' past' w') : Wp R m s past w Q1 :=
  ⟨fun a s' hm => let ⟨p, v, h1, h2, h3⟩ := h.out a s' hm; ⟨p, v, h1, h2, hq _ _ _ _ h1 h2 h3⟩, h.bad⟩

theorem Wp.bind {m : PM α} {k : α → PM β} (h : Wp R m s past w Q)
    (hk : ∀ a s' past' w', Here R s' past' w' → Later past w past' w' → Q a s' past' w' → Wp R (k a) s' past' w' Q') :
    Wp R (m >>= k) s past w Q' := by
  constructor
  · intro b s'' hb
    obtain ⟨a, s', h1, h2⟩ := bind_ok_inv hb
    obtain ⟨p, v, j1, j2, j3⟩ := h.out _ _ h1
    obtain ⟨p', v', l1, l2, l3⟩ := (hk a s' p v j1 j2 j3).out _ _ h2
    exact ⟨p', v', l1, j2.trans l2, l3⟩
  · intro e hb
    rcases Pos.bind_err_inv hb with h1 | ⟨a, s', h1, h2⟩
    · exact h.bad _ h1
    · obtain ⟨p, v, j1, j2, j3⟩ := h.out _ _ h1
      exact (hk a s' p v j1 j2 j3).bad _ h2

/-- a step of which nothing more needs to be known -/
theorem Wp.step {m : PM α} {k : α → PM β} [hm : Wy R m] (h : Here R s past w)
    (hk : ∀ a s' past' w', Here R s' past' w' → Later past w past' w' → Wp R (k a) s' past' w' Q') :
    Wp R (m >>= k) s past w Q' := (hm.out s past w h).bind fun a s' p v h1 h2 _ => hk a s' p v h1 h2

theorem Wp.last {m : PM α} [hm : Wy R m] (h : Here R s past w) : Wp R m s past w fun _ _ _ _ => True := hm.out s past w h

theorem Wp.get {k : Parser → PM β} (h : Wp R (k s) s past w Q') : Wp R (M.get >>= k) s past w Q' := ⟨h.out, h.bad⟩
theorem Wp.cur {k : Token → PM β} (h : Wp R (k s.current) s past w Q') : Wp R (cur >>= k) s past w Q' := ⟨h.out, h.bad⟩
theorem Wp.pure {a : α} (h : Here R s past w) (hq : Q a s past w) : Wp R (Pure.pure a) s past w Q :=
  ⟨fun b s' hb => by cases hb; exact ⟨past, w, h, List.suffix_refl _, hq⟩, fun e hb => by cases hb⟩

theorem Wp.ite {c : Prop} [Decidable c] {m n : PM α} (h : c → Wp R m s past w Q) (h' : ¬ c → Wp R n s past w Q) :
    Wp R (if c then m else n) s past w Q := by
  split
  · exact h ‹_›
  · exact h' ‹_›

/-- a method that does not touch the words and the context, and does not fail -/
theorem Wp.quiet {m : PM α} {k : α → PM β} [hq : Quiet m] (h : Here R s past w)
    (hf : ∀ a s', m s = .ok (a, s') → s'.ctx = s.ctx) (he : ∀ e, m s ≠ .error (.err e))
    (hk : ∀ a s', m s = .ok (a, s') → s'.current = s.current → s'.ctx = s.ctx → s'.hasLineTerminator = s.hasLineTerminator →
      Here R s' past w → Wp R (k a) s' past w Q') : Wp R (m >>= k) s past w Q' := by
  have h' : ∀ a s', m s = .ok (a, s') → Here R s' past w := by
    intro a s' hm
    obtain ⟨e1, e2, e3⟩ := hq.out _ _ _ hm
    obtain ⟨text, h1, h2⟩ := h.place
    exact ⟨⟨text, h1.of_eq e1 e2 e3, h2⟩, fun hs => h.strict (by rw [← hf a s' hm]; exact hs)⟩
  constructor
  · intro b s'' hb
    obtain ⟨a, s', h1, h2⟩ := bind_ok_inv hb
    obtain ⟨e1, e2, e3⟩ := hq.out _ _ _ h1
    exact (hk a s' h1 e1 (hf a s' h1) e3 (h' a s' h1)).out _ _ h2
  · intro e hb
    rcases Pos.bind_err_inv hb with h1 | ⟨a, s', h1, h2⟩
    · exact absurd h1 (he e)
    · obtain ⟨e1, e2, e3⟩ := hq.out _ _ _ h1
      exact (hk a s' h1 e1 (hf a s' h1) e3 (h' a s' h1)).bad _ h2

/-- a method that touches nothing that matters -/
class Still (m : PM α) : Prop where
  quiet : Quiet m
  ctx : ∀ s a s', m s = .ok (a, s') → s'.ctx = s.ctx
  calm : ∀ s e, m s ≠ .error (.err e)

instance still_pure {a : α} : Still (Pure.pure a : PM α) := ⟨inferInstance, fun s b s' h => by cases h; rfl, fun s e h => by cases h⟩
instance still_pure' {a : α} : Still (M.pure a : PM α) := still_pure
instance still_fuel : Still (M.fail .fuel : PM α) := ⟨inferInstance, fun s b s' h => by (cases h), fun s e h => by (cases h)⟩
instance still_panicF {p : PanicSite} : Still (M.fail (.panic p) : PM α) := ⟨inferInstance, fun s b s' h => by (cases h), fun s e h => by (cases h)⟩
instance still_panic {p : PanicSite} : Still (M.panic p : PM α) := still_panicF
instance still_get : Still (M.get : PM Parser) := ⟨inferInstance, fun s b s' h => by cases h; rfl, fun s e h => by cases h⟩
instance still_cur : Still cur := ⟨inferInstance, fun s b s' h => by cases h; rfl, fun s e h => by cases h⟩
instance still_unwrap {p : PanicSite} {v : Option α} : Still (M.unwrap p v : PM α) := by
  cases v
  · exact still_panic
  · exact still_pure
instance still_startSpan : Still startSpan := ⟨inferInstance, fun s b s' h => by cases h; rfl, fun s e h => by cases h⟩
instance still_endSpan : Still endSpan := by
  refine ⟨inferInstance, fun s b s' h => ?_, fun s e h => ?_⟩ <;>
  · unfold endSpan at h
    split at h <;> cases h
    try rfl
instance still_peekSpan : Still peekSpan := by
  refine ⟨inferInstance, fun s b s' h => ?_, fun s e h => ?_⟩ <;>
  · unfold peekSpan at h
    split at h <;> cases h
    try rfl
instance still_saveParams : Still saveParams := ⟨inferInstance, fun s b s' h => by cases h; rfl, fun s e h => by cases h⟩
instance still_restoreParams : Still restoreParams := by
  refine ⟨inferInstance, fun s b s' h => ?_, fun s e h => ?_⟩ <;>
  · unfold restoreParams at h
    split at h <;> cases h
    try rfl
instance still_params {f : Parser → Params} : Still (M.modify fun s => { s with params := f s }) :=
  ⟨quiet_params, fun s b s' h => by cases h; rfl, fun s e h => by cases h⟩
instance still_when {c : Prop} [Decidable c] {m : PM Unit} [h : Still m] : Still (M.when c m) := by
  unfold M.when
  split
  · exact h
  · exact still_pure

theorem Wp.still {m : PM α} {k : α → PM β} [hm : Still m] (h : Here R s past w)
    (hk : ∀ a s', s'.current = s.current → s'.ctx = s.ctx → s'.hasLineTerminator = s.hasLineTerminator →
      Here R s' past w → Wp R (k a) s' past w Q') : Wp R (m >>= k) s past w Q' :=
  have := hm.quiet
  Wp.quiet h (hm.ctx s) (hm.calm s) fun a s' _ => hk a s'

instance wy_still {m : PM α} [hm : Still m] : Wy R m := by
  constructor
  intro s past w h
  have : Wp R (m >>= Pure.pure) s past w fun _ _ _ _ => True := Wp.still h fun a s' _ _ _ h => Wp.pure h trivial
  constructor
  · intro a s' ha
    exact this.out a s' ((M.bind_ok ha).trans rfl)
  · intro e he
    exact absurd he (hm.calm s e)

/-! ### Changing the context -/

theorem Wp.setCtx {f : Parser → Context} {k : Unit → PM β} (h : Here R s past w)
    (hf : (f s).strict = true → MadeStrict R.module (w :: past))
    (hk : Here R { s with ctx := f s } past w → Wp R (k ()) { s with ctx := f s } past w Q') :
    Wp R ((M.modify fun s => { s with ctx := f s }) >>= k) s past w Q' := by
  obtain ⟨text, h1, h2⟩ := h.place
  have := hk ⟨⟨text, h1.of_eq rfl rfl rfl, h2⟩, hf⟩
  exact ⟨this.out, this.bad⟩

/-! a change that leaves strictness alone -/
instance wy_ctx1 {b : Bool} : Wy R (M.modify fun s => { s with ctx := { s.ctx with inIteration := b } }) :=
  ⟨fun s past w h => by
    have := Wp.setCtx (f := fun s => { s.ctx with inIteration := b }) (k := Pure.pure) (Q' := fun _ _ _ _ => True) h h.strict
      fun h => Wp.pure h trivial
    exact ⟨fun a s' ha => this.out a s' ((M.bind_ok ha).trans rfl), fun e he => by cases he⟩⟩
instance wy_ctx2 {b : Bool} : Wy R (M.modify fun s => { s with ctx := { s.ctx with inFunction := b } }) :=
  ⟨fun s past w h => by
    have := Wp.setCtx (f := fun s => { s.ctx with inFunction := b }) (k := Pure.pure) (Q' := fun _ _ _ _ => True) h h.strict
      fun h => Wp.pure h trivial
    exact ⟨fun a s' ha => this.out a s' ((M.bind_ok ha).trans rfl), fun e he => by cases he⟩⟩
instance wy_ctx3 {b : Bool} : Wy R (M.modify fun s => { s with ctx := { s.ctx with inSwitch := b } }) :=
  ⟨fun s past w h => by
    have := Wp.setCtx (f := fun s => { s.ctx with inSwitch := b }) (k := Pure.pure) (Q' := fun _ _ _ _ => True) h h.strict
      fun h => Wp.pure h trivial
    exact ⟨fun a s' ha => this.out a s' ((M.bind_ok ha).trans rfl), fun e he => by cases he⟩⟩

/-! ### Errors -/

/-- kinds of errors that need no reason -/
class Free (k : ErrorType) : Prop where
  out : ∀ b past w, reason b past w k

instance {t} : Free (.unexpectedToken t) := ⟨fun _ _ _ => trivial⟩
instance : Free .unexpectedEOS := ⟨fun _ _ _ => trivial⟩
instance : Free .invalidOrUnexpectedToken := ⟨fun _ _ _ => trivial⟩
instance : Free .invalidUnicodeEscapeSequence := ⟨fun _ _ _ => trivial⟩

theorem Wp.err {k : ErrorType} {l c : Nat} (h : Here R s past w) (hk : reason R.module past w k) :
    Wp R (M.fail (.err ⟨l, c, k⟩) : PM α) s past w Q :=
  ⟨fun a s' ha => by (cases ha), fun e he => by cases he; exact h.because hk⟩

/-- an error about the words read before -/
theorem Wp.err' {k : ErrorType} {l c : Nat} (hb : Because R.source R.module k) :
    Wp R (M.fail (.err ⟨l, c, k⟩) : PM α) s past w Q :=
  ⟨fun a s' ha => by (cases ha), fun e he => by cases he; exact hb⟩

instance wy_err {k : ErrorType} {l c : Nat} [hk : Free k] : Wy R (M.fail (.err ⟨l, c, k⟩) : PM α) :=
  ⟨fun s past w h => Wp.err h (hk.out _ _ _)⟩
instance wy_error {k : ErrorType} {t : Token} [hk : Free k] : Wy R (error t k : PM α) := wy_err
instance wy_unexpected {t : Token} : Wy R (unexpected t : PM α) := wy_err

theorem lexErr_because {k : ErrorType} (h : Here R s past w) (hk : Pos.LexErr k) : Because R.source R.module k := by
  rcases hk with rfl | rfl | rfl <;> exact h.because trivial

/-! ### Reading a word -/

theorem here_next {g : LexGoal} {t : Token} {sc : Scanner} (h : Here R s past w) (hn : s.scanner.next g = .ok (t, sc)) :
    ∃ w', Here R { s with scanner := sc, current := t, hasLineTerminator := decide (t.lineNum > s.current.lineNum) } (w :: past) w' := by
  obtain ⟨text, h1, h2⟩ := h.place
  obtain ⟨w', text', k1, k2, k3⟩ := Reads.next_stands h1 hn
  refine ⟨w', ⟨text', k3, ?_⟩, fun hs => madeStrict_mono (h.strict hs) (List.suffix_cons _ _)⟩
  obtain ⟨goal, resume, tr, x, e1, e2, e3, e4, e5⟩ := k2
  subst e1
  have := OpensWith.word h2 e2 e3 e4
  rw [← e5] at this
  rw [List.reverse_cons]
  exact this

theorem Wp.advance {g : LexGoal} {k : Token → PM β} (h : Here R s past w)
    (hk : ∀ s' w', Here R s' (w :: past) w' → s'.ctx = s.ctx → Wp R (k s.current) s' (w :: past) w' Q') :
    Wp R (Parser.advance g >>= k) s past w Q' := by
  constructor
  · intro b s'' hb
    obtain ⟨a, s', h1, h2⟩ := bind_ok_inv hb
    unfold Parser.advance at h1
    split at h1 <;> cases h1
    next t sc hn =>
    obtain ⟨w', hw⟩ := here_next h hn
    obtain ⟨p, v, j1, j2, j3⟩ := (hk _ w' hw rfl).out _ _ h2
    exact ⟨p, v, j1, (List.suffix_cons _ _).trans j2, j3⟩
  · intro e hb
    rcases Pos.bind_err_inv hb with h1 | ⟨a, s', h1, h2⟩
    · unfold Parser.advance at h1
      split at h1 <;> cases h1
      next hn =>
      obtain ⟨text, hs, _⟩ := h.place
      exact lexErr_because h (Pos.next_stop' hs.fresh hn)
    · unfold Parser.advance at h1
      split at h1 <;> cases h1
      next t sc hn =>
      obtain ⟨w', hw⟩ := here_next h hn
      exact (hk _ w' hw rfl).bad _ h2

instance wy_advance {g : LexGoal} : Wy R (advance g) := by
  constructor
  intro s past w h
  have : Wp R (Parser.advance g >>= Pure.pure) s past w fun _ _ _ _ => True := Wp.advance h fun s' w' h _ => Wp.pure h trivial
  constructor
  · intro a s' ha
    exact this.out a s' ((M.bind_ok ha).trans rfl)
  · intro e he
    exact this.bad e (M.bind_err he)

/-- an error about the current word, which is passed before -/
theorem Wp.errorCurrent {k : ErrorType} (h : Here R s past w) (hk : reason R.module past w k) :
    Wp R (Parser.errorCurrent k : PM α) s past w Q := by
  unfold Parser.errorCurrent
  exact Wp.advance h fun s' w' h' _ => Wp.err' (h.because hk)

theorem Wp.advanceError {k : ErrorType} {g : LexGoal} (h : Here R s past w) (hk : reason R.module past w k) :
    Wp R (Parser.advance g >>= fun t => (Parser.error t k : PM α)) s past w Q :=
  Wp.advance h fun s' w' h' _ => Wp.err' (h.because hk)

/-! ### Composing -/

theorem wy_bind {m : PM α} {k : α → PM β} (h : Wy R m) (hk : ∀ a, Wy R (k a)) : Wy R (m >>= k) :=
  ⟨fun s past w hs => (h.out s past w hs).bind fun a s' p v h1 _ _ => (hk a).out s' p v h1⟩
theorem wy_ite {c : Prop} [Decidable c] {m n : PM α} (h : Wy R m) (h' : Wy R n) : Wy R (if c then m else n) := by
  split <;> assumption

instance wy_errorCurrent {k : ErrorType} [hk : Free k] : Wy R (errorCurrent k : PM α) :=
  ⟨fun s past w h => Wp.errorCurrent h (hk.out _ _ _)⟩
instance wy_unexpectedCurrent : Wy R (unexpectedCurrent : PM α) := by
  unfold unexpectedCurrent
  exact wy_bind inferInstance fun _ => inferInstance

theorem wy_when' {c : Prop} [Decidable c] {m : PM Unit} (h : Wy R m) : Wy R (M.when c m) := by
  unfold M.when
  exact wy_ite h inferInstance

instance wy_withParams {f : Params → Params} {m : PM α} [h : Wy R m] : Wy R (withParams f m) := by
  unfold withParams
  exact wy_bind inferInstance fun _ => wy_bind (inferInstance : Wy R (M.modify fun s => { s with params := (fun s => f s.params) s }))
    fun _ => wy_bind h fun a => wy_bind inferInstance fun _ => inferInstance

/-- a loop with a budget -/
theorem wy_budget {m : Nat → PM α} {f : Parser → Nat} (h : ∀ n, Wy R (m n)) : Wy R (fun s => m (f s) s) :=
  ⟨fun s past w hs => let h := (h (f s)).out s past w hs; ⟨h.out, h.bad⟩⟩

/-- a method whose words are known, and that leaves the context as it was -/
theorem Wp.reads {m : PM α} {L : α → List Mark → Content → Prop} (h : Here R s past w) (hw : Wy R m) (hf : Fr m)
    (hr : Reads w.c m L) :
    Wp R m s past w fun a s' past' w' => s'.ctx = s.ctx ∧ ∃ ms text text', Passes past w text ms past' w' text' ∧ L a ms w'.c := by
  refine ⟨fun a s' hm => ?_, (hw.out s past w h).bad⟩
  obtain ⟨text, h1, h2⟩ := h.place
  obtain ⟨ms, past', w', text', k1, k2, k3⟩ := hr s past w.nl text a s' h1 hm
  have hctx := (hf.out _ _ _ hm).1
  have key : ∀ {past w text ms past' w' text'}, Passes past w text ms past' w' text' → OpensWith R.source (w :: past).reverse text →
      OpensWith R.source (w' :: past').reverse text' ∧ Later past w past' w' := by
    intro past w text ms past' w' text' hp ho
    induction hp with
    | here => exact ⟨ho, List.suffix_refl _⟩
    | @step past past' w w1 w' text text1 text' ms hc ht hp ih =>
      obtain ⟨goal, resume, tr, x, e1, e2, e3, e4, e5⟩ := ht
      subst e1
      have := OpensWith.word ho e2 e3 e4
      rw [← e5] at this
      have := ih (by rw [List.reverse_cons]; exact this)
      exact ⟨this.1, (List.suffix_cons _ _).trans this.2⟩
    | mark _ _ ih => exact ih ho
  obtain ⟨l1, l2⟩ := key k2 h2
  exact ⟨past', w', ⟨⟨text', k1, l1⟩, fun hs => madeStrict_mono (h.strict (by rw [← hctx]; exact hs)) l2⟩, l2, hctx, ms, text, text', k2, k3⟩

/-- the recursive entry points -/
class RecWy (R : Src) (r : Rec) : Prop where
  assignmentExpr : Wy R r.assignmentExpr
  stmtListItem : Wy R r.stmtListItem
  statement : Wy R r.statement
  unaryExpr : Wy R r.unaryExpr
  exponentiationExpr : Wy R r.exponentiationExpr
  newExpr : Wy R r.newExpr
  precedenceClimbing : ∀ n k, Wy R (r.precedenceClimbing n k)
  bindingIdOrPat : Wy R r.bindingIdOrPat
  leftHandSideExpr : Wy R r.leftHandSideExpr
  spells : RecSpells r
  fr : RecFr r
  pattern : ∀ s b s', r.bindingIdOrPat s = .ok (b, s') → ∀ n, b ≠ .expression n

variable {r : Rec}
instance [h : RecWy R r] : Wy R r.assignmentExpr := h.assignmentExpr
instance [h : RecWy R r] : Wy R r.stmtListItem := h.stmtListItem
instance [h : RecWy R r] : Wy R r.statement := h.statement
instance [h : RecWy R r] : Wy R r.unaryExpr := h.unaryExpr
instance [h : RecWy R r] : Wy R r.exponentiationExpr := h.exponentiationExpr
instance [h : RecWy R r] : Wy R r.newExpr := h.newExpr
instance [h : RecWy R r] {n k} : Wy R (r.precedenceClimbing n k) := h.precedenceClimbing n k
instance [h : RecWy R r] : Wy R r.bindingIdOrPat := h.bindingIdOrPat
instance [h : RecWy R r] : Wy R r.leftHandSideExpr := h.leftHandSideExpr

/-- one step -/
macro "wy1" : tactic => `(tactic| first
  | exact inferInstance
  | with_reducible assumption
  | (with_reducible refine wy_bind ?_ (fun _ => ?_))
  | (with_reducible refine wy_ite ?_ ?_)
  | exact ⟨fun _ _ _ h => ⟨(Wy.out _ _ _ h).out, (Wy.out _ _ _ h).bad⟩⟩
  | (refine wy_bind ?_ (fun _ => ?_))
  | split)

/-- all of them -/
macro "wy" : tactic => `(tactic| repeat wy1)

instance wy_whilePuncF {p} {m : PM α} [h : Wy R m] {n : Nat} : Wy R (whilePuncF p m n) := by
  induction n with
  | zero => exact wy_still (hm := still_fuel)
  | succ n ih => unfold whilePuncF; wy
instance wy_whilePunc {p} {m : PM α} [h : Wy R m] : Wy R (whilePunc p m) := wy_budget (fun _ => inferInstance)

instance wy_untilPuncF {p} {m : PM α} [h : Wy R m] {n : Nat} : Wy R (untilPuncF p m n) := by
  induction n with
  | zero => exact wy_still (hm := still_fuel)
  | succ n ih => unfold untilPuncF; wy
instance wy_untilPunc {p} {m : PM α} [h : Wy R m] : Wy R (untilPunc p m) := wy_budget (fun _ => inferInstance)

instance wy_untilPuncOrRestF {p} {m : PM α} [h : Wy R m] {n : Nat} : Wy R (untilPuncOrRestF p m n) := by
  induction n with
  | zero => exact wy_still (hm := still_fuel)
  | succ n ih => unfold untilPuncOrRestF; wy
instance wy_untilPuncOrRest {p} {m : PM α} [h : Wy R m] : Wy R (untilPuncOrRest p m) := wy_budget (fun _ => inferInstance)

instance wy_untilEofF {m : PM Node} [h : Wy R m] {n : Nat} : Wy R (untilEofF m n) := by
  induction n with
  | zero => exact wy_still (hm := still_fuel)
  | succ n ih => unfold untilEofF; wy
instance wy_untilEof {m : PM Node} [h : Wy R m] : Wy R (untilEof m) := wy_budget (fun _ => inferInstance)

/-! ### Conversions -/

instance still_toNode {b : Binding} : Still (M.ofExcept b.toNode : PM Node) := by
  cases b <;> first | exact still_pure | exact still_panicF
instance still_toId {b : Binding} : Still (M.ofExcept b.toId : PM Identifier) := by
  cases b <;> first | exact still_pure | exact still_panicF

/-- a conversion, with a reason for each of its errors -/
theorem Wp.convert {a : Bool} {L : Lang} {x : Except Fail α} {k : α → PM β} (h : Here R s past w) (hx : Cx a L x)
    (hd : Dots L → reason R.module past w .paramAfterRest) (ha : a = true → reason R.module past w .invalidLhsInAssignment)
    (hk : ∀ v, x = .ok v → Wp R (k v) s past w Q') : Wp R (M.ofExcept x >>= k) s past w Q' := by
  cases x with
  | ok v =>
    have := hk v rfl
    exact ⟨this.out, this.bad⟩
  | error f =>
    refine ⟨fun b s' hb => by (cases hb), fun e he => ?_⟩
    cases he
    rcases hx e rfl with h1 | ⟨h1, h2⟩ | ⟨h1, h2⟩
    · rw [h1]; exact h.because trivial
    · rw [h1]; exact h.because (hd h2)
    · rw [h2]; exact h.because (ha h1)

theorem passes_mem {past past' : List Word} {w w' : Word} {text text' : Str} {ms : List Mark} (h : Passes past w text ms past' w' text')
    {c : Content} (hc : Mark.word c ∈ ms) : ∃ u ∈ past', u.c = c := by
  have later : ∀ {past past' : List Word} {w w' : Word} {text text' : Str} {ms : List Mark}, Passes past w text ms past' w' text' →
      past <:+ past' := by
    intro past past' w w' text text' ms h
    induction h with
    | here => exact List.suffix_refl _
    | step _ _ _ ih => exact (List.suffix_cons _ _).trans ih
    | mark _ _ ih => exact ih
  induction h with
  | here => cases hc
  | @step past past' w w1 w' text text1 text' ms hw _ hp ih =>
    rcases List.mem_cons.1 hc with e | hc
    · cases e
      exact ⟨w, (later hp).subset List.mem_cons_self, rfl⟩
    · exact ih hc
  | mark hm _ ih =>
    rcases List.mem_cons.1 hc with rfl | hc
    · cases hm
    · exact ih hc

/-! ### Looking ahead -/

/-- from a place where the current word is one that is followed by a look at the next -/
theorem Wp.peek {k : Token → PM β} (h : Here R s past w) (hl : ∃ v ∈ lookWords, w.c = .name v)
    (hk : ∀ t s', s'.current = s.current → s'.ctx = s.ctx → Here R s' past w → Wp R (k t) s' past w Q') :
    Wp R (peekToken >>= k) s past w Q' := by
  have key : ∀ t s1, peekToken s = .ok (t, s1) → s1.current = s.current ∧ s1.ctx = s.ctx ∧ Here R s1 past w := by
    intro t s1 h1
    obtain ⟨text, hs, ho⟩ := h.place
    unfold peekToken at h1
    obtain ⟨_, s2, h3, h1⟩ := bind_ok_inv h1
    obtain ⟨t', s3, h4, h1⟩ := bind_ok_inv h1
    obtain ⟨_, s4, h5, h1⟩ := bind_ok_inv h1
    cases h1
    cases h3
    unfold liftScanner at h4 h5
    split at h4
    · next t' sc hn =>
      cases h4
      obtain ⟨w', text', k1, k2, k3, k4, k5, k6, k7, _⟩ := Reads.next_tok (past := past) (w := w) (text := text)
        (s := { s with scanner := { s.scanner with state := some (ScannerState.mk s.scanner.start s.scanner.current
          s.scanner.line s.scanner.col s.scanner.newline s.scanner.rawString s.scanner.curly) } })
        ⟨hs.cur, hs.fresh, hs.text, hs.yes, hs.no, hs.base, hs.exact⟩ hn
      unfold Scanner.restoreState at h5
      dsimp only at h5
      rw [k6] at h5
      cases h5
      refine ⟨rfl, rfl, ⟨text, ?_, ho⟩, h.strict⟩
      refine ⟨hs.cur, ⟨k3.1, hs.fresh.2⟩, ?_, hs.yes, hs.no, hs.base, hs.exact⟩
      subst k5
      exact .inr ⟨_, w', rfl, k1, k2, k7, hl⟩
    · cases h4
  constructor
  · intro b s'' hb
    obtain ⟨t, s1, h1, h2⟩ := bind_ok_inv hb
    obtain ⟨e1, e2, e3⟩ := key t s1 h1
    exact (hk t s1 e1 e2 e3).out _ _ h2
  · intro e hb
    rcases Pos.bind_err_inv hb with h1 | ⟨t, s1, h1, h2⟩
    · obtain ⟨text, hs, _⟩ := h.place
      exact lexErr_because h (Pos.next_stop' (s := saved s.scanner) hs.fresh (Pos.peek_stop h1))
    · obtain ⟨e1, e2, e3⟩ := key t s1 h1
      exact (hk t s1 e1 e2 e3).bad _ h2

end Why
end Giron

import Verif.Spec.Causes
import Verif.Proofs.Cause.Tree
import Verif.Proofs.Why.Module
import Verif.Proofs.Marks.Basic
/-
The causes of panics: rules for the parser methods.
-/
namespace Giron
namespace Cause
open M Giron.Parser Layout Spec
variable [Env] {α β : Type}

abbrev Src := Why.Src

/-- the place, and what the scanner remembers -/
structure Here (R : Src) (s : Parser) (past : List Word) (w : Word) : Prop extends Why.Here R s past w where
  mind : Mind R.source s.scanner

/-- the parser has read words of the source -/
def Near (R : Src) (s : Parser) : Prop := ∃ past w, Here R s past w

/-- the words read, and no more -/
def Placed (R : Src) (s : Parser) : Prop :=
  (∃ past w text, Stands s past w text ∧ OpensWith R.source (w :: past).reverse text) ∧ Mind R.source s.scanner

/-- there is a cause for a panic -/
def Owed (R : Src) : PanicSite → Prop
  | .unterminatedTemplate => Unterminated R.source
  | p => Caused R.source R.module p

theorem Owed.of {R : Src} {p : PanicSite} (h : Caused R.source R.module p) : Owed R p := by
  cases p
  case unterminatedTemplate => obtain ⟨_, _, _, _, h⟩ := h; exact h.elim
  all_goals exact h

/-- from this state: there is a cause for a panic -/
structure Al1 (R : Src) (m : PM α) (s : Parser) : Prop where
  ok : ∀ a s', m s = .ok (a, s') → Near R s'
  bad : ∀ p, m s = .error (.panic p) → Watched (.panic p) → Owed R p

/-- from any state reached -/
class Al (R : Src) (m : PM α) : Prop where
  out : ∀ s, Near R s → Al1 R m s

variable {R : Src} {s : Parser}

theorem Al1.bind {m : PM α} {k : α → PM β} (h : Al1 R m s) (hk : ∀ x s', m s = .ok (x, s') → Near R s' → Al1 R (k x) s') :
    Al1 R (m >>= k) s := by
  cases hm : m s with
  | error f =>
    refine ⟨fun a s' e => ?_, fun p e hp => ?_⟩
    · rw [M.bind_err hm] at e; cases e
    · rw [M.bind_err hm] at e; cases e; exact h.bad p hm hp
  | ok x =>
    obtain ⟨a, s1⟩ := x
    have := hk a s1 hm (h.ok a s1 hm)
    exact ⟨fun b s' e => this.ok b s' ((M.bind_ok hm).symm.trans e), fun p e hp => this.bad p ((M.bind_ok hm).symm.trans e) hp⟩

theorem al_bind {m : PM α} {k : α → PM β} (h : Al R m) (hk : ∀ x, Al R (k x)) : Al R (m >>= k) :=
  ⟨fun s hs => (h.out s hs).bind fun x s' _ hs' => (hk x).out s' hs'⟩
theorem al_ite {c : Prop} [Decidable c] {m m' : PM α} (h : Al R m) (h' : Al R m') : Al R (if c then m else m') := by
  split <;> assumption
theorem Al1.get {k : Parser → PM β} (h : Al1 R (k s) s) : Al1 R (M.get >>= k) s := ⟨h.ok, h.bad⟩
theorem Al1.cur {k : Token → PM β} (h : Al1 R (k s.current) s) : Al1 R (Parser.cur >>= k) s := ⟨h.ok, h.bad⟩
theorem Al1.ite {c : Prop} [Decidable c] {m m' : PM α} (h : c → Al1 R m s) (h' : ¬ c → Al1 R m' s) : Al1 R (if c then m else m') s := by
  split
  · exact h ‹_›
  · exact h' ‹_›

instance al_pure {x : α} : Al R (Pure.pure x : PM α) :=
  ⟨fun s hs => ⟨fun a s' e => by cases e; exact hs, fun p e => by cases e⟩⟩
instance al_pure' {x : α} : Al R (M.pure x : PM α) := al_pure

/-- a method after which words of the source have been read, if it does not panic in one of these ways -/
theorem al_of {m : PM α} (h : Nop m) (hok : ∀ s a s', Near R s → m s = .ok (a, s') → Near R s') : Al R m :=
  ⟨fun s hs => ⟨fun a s' e => hok s a s' hs e, fun p e hp => absurd hp (h.out s _ e)⟩⟩

theorem al_fail {f : Fail} (h : ¬ Watched f) : Al R (M.fail f : PM α) := al_of (ns_fail h) fun _ _ _ _ e => by cases e
theorem al_panic {p : PanicSite} (h : ¬ Watched (.panic p)) : Al R (M.panic p : PM α) := al_fail h
instance al_err {e : Error} : Al R (M.fail (.err e) : PM α) := al_fail (fun h => h)
instance al_fuel : Al R (M.fail .fuel : PM α) := al_fail (fun h => h)
instance al_error {t : Token} {k : ErrorType} : Al R (Parser.error t k : PM α) := al_err
instance al_unexpected {t : Token} : Al R (unexpected t : PM α) := al_err
theorem al_unwrap {p : PanicSite} {v : Option α} (h : ¬ Watched (.panic p)) : Al R (M.unwrap p v : PM α) := by
  cases v
  · exact al_panic h
  · exact al_pure
theorem al_some {p : PanicSite} {v : Option α} (h : v.isSome = true) : Al R (M.unwrap p v : PM α) := by
  cases v
  · cases h
  · exact al_pure
theorem al_ofExcept {x : Except Fail α} (h : Nx x) : Al R (M.ofExcept x : PM α) := by
  cases x with
  | error f => exact al_fail (h _ rfl)
  | ok a => exact al_pure

theorem Near.same {s s' : Parser} (h : Near R s) (h1 : s'.current = s.current) (h2 : s'.scanner = s.scanner)
    (h3 : s'.hasLineTerminator = s.hasLineTerminator) (h4 : s'.ctx = s.ctx) : Near R s' := by
  obtain ⟨past, w, ⟨⟨text, k1, k2⟩, k3⟩, k4⟩ := h
  exact ⟨past, w, ⟨⟨text, k1.of_eq h1 h2 h3, k2⟩, fun h => k3 (by rw [← h4]; exact h)⟩, by rw [h2]; exact k4⟩

instance al_startSpan : Al R startSpan := al_of ⟨fun s f e => by cases e⟩ fun s a s' h e => by cases e; exact h.same rfl rfl rfl rfl
instance al_endSpan : Al R endSpan := by
  refine al_of ⟨fun s f e => ?_⟩ fun s a s' h e => ?_ <;> unfold endSpan at e <;> split at e <;> cases e
  · exact fun h => h
  · exact h.same rfl rfl rfl rfl
instance al_peekSpan : Al R peekSpan := by
  refine al_of ⟨fun s f e => ?_⟩ fun s a s' h e => ?_ <;> unfold peekSpan at e <;> split at e <;> cases e
  · exact fun h => h
  · exact h
instance al_cur : Al R cur := ⟨fun s hs => ⟨fun a s' e => by cases e; exact hs, fun p e => by cases e⟩⟩
instance al_get : Al R (M.get : PM Parser) := ⟨fun s hs => ⟨fun a s' e => by cases e; exact hs, fun p e => by cases e⟩⟩
instance al_params {f : Parser → Params} : Al R (M.modify fun s => { s with params := f s }) :=
  al_of ⟨fun s f e => by cases e⟩ fun s a s' h e => by cases e; exact h.same rfl rfl rfl rfl
instance al_saveParams : Al R saveParams := al_of ⟨fun s f e => by cases e⟩ fun s a s' h e => by cases e; exact h.same rfl rfl rfl rfl
instance al_restoreParams : Al R restoreParams := by
  refine al_of ⟨fun s f e => ?_⟩ fun s a s' h e => ?_ <;> unfold restoreParams at e <;> split at e <;> cases e
  · exact fun h => h
  · exact h.same rfl rfl rfl rfl

theorem Near.placed {s : Parser} (h : Near R s) : Placed R s := by
  obtain ⟨past, w, ⟨⟨text, k1, k2⟩, _⟩, k4⟩ := h
  exact ⟨⟨past, w, text, k1, k2⟩, k4⟩

/-- there is a cause for a panic, wherever words have been read -/
class Tl (R : Src) (m : PM α) : Prop where
  out : ∀ s, Placed R s → ∀ p, m s = .error (.panic p) → Watched (.panic p) → Owed R p
  mind : ∀ s, Mind R.source s.scanner → ∀ a s', m s = .ok (a, s') → Mind R.source s'.scanner

theorem tl_nop {m : PM α} [hq : Quiet m] (h : Nop m) : Tl R m :=
  ⟨fun s _ p e hp => absurd hp (h.out s _ e), fun s hs a s' e => by rw [(hq.out s a s' e).2.1]; exact hs⟩
theorem tl_end {m : PM α} {k : α → PM β} (h : Tl R m) [hq : ∀ x, Quiet (k x)] (hk : ∀ x, Nop (k x)) : Tl R (m >>= k) := by
  refine ⟨fun s hs p e hp => ?_, fun s hs b s' e => ?_⟩
  · cases hm : m s with
    | error f => rw [M.bind_err hm] at e; cases e; exact h.out s hs p hm hp
    | ok x => obtain ⟨a, s1⟩ := x; exact absurd hp ((hk a).out s1 _ ((M.bind_ok hm).symm.trans e))
  · obtain ⟨a, s1, hm, e⟩ := bind_ok_inv e
    rw [((hq a).out s1 b s' e).2.1]
    exact h.mind s hs a s1 hm
theorem tl_quiet {m : PM α} {k : α → PM β} [hq : Quiet m] (h : Nop m) (hk : ∀ x, Tl R (k x)) : Tl R (m >>= k) := by
  refine ⟨fun s hs p e hp => ?_, fun s hs b s' e => ?_⟩
  · cases hm : m s with
    | error f => rw [M.bind_err hm] at e; cases e; exact absurd hp (h.out s _ hm)
    | ok x =>
      obtain ⟨a, s1⟩ := x
      obtain ⟨⟨past, w, text, k1, k2⟩, k4⟩ := hs
      obtain ⟨e1, e2, e3⟩ := hq.out s a s1 hm
      exact (hk a).out s1 ⟨⟨past, w, text, k1.of_eq e1 e2 e3, k2⟩, by rw [e2]; exact k4⟩ p ((M.bind_ok hm).symm.trans e) hp
  · obtain ⟨a, s1, hm, e⟩ := bind_ok_inv e
    exact (hk a).mind s1 (by rw [(hq.out s a s1 hm).2.1]; exact hs) b s' e
theorem tl_ite {c : Prop} [Decidable c] {m m' : PM α} (h : Tl R m) (h' : Tl R m') : Tl R (if c then m else m') := by
  split <;> assumption

theorem runs_owed {sc : Scanner} {g : LexGoal} {f : Fail} (hs : Placed R s) (hu : sc.unscanned = s.scanner.unscanned)
    (hr : sc.rest = s.scanner.rest) (hc : sc.curly = s.scanner.curly) (h : Scanner.next g sc = .error f) {p : PanicSite}
    (e : f = .panic p) (hp : Watched (.panic p)) : Owed R p := by
  obtain ⟨e1, h1, w', b, body, v, h2, h3, h4, h5⟩ := next_runs h (e ▸ hp)
  rw [e] at e1
  cases e1
  obtain ⟨⟨past, w, text, k1, k2⟩, k4⟩ := hs
  refine ⟨?_, _, text, k2, w', b, body, v, ?_, h3, h4.imp_right And.left, h5⟩
  · rcases h4 with rfl | ⟨_, h4⟩
    · refine k4.text.subset ?_
      rw [← hr, h2]
      simp
    · refine Classical.byContradiction fun hn => k4.curly hn ?_
      rw [← hc]
      exact List.mem_of_mem_head? (by rw [h4]; rfl)
  · rcases k1.text with ⟨_, ht⟩ | ⟨_, _, ht, _⟩
    · rw [← ht, ← hr, h2]
    · rw [hu, ht] at h1; cases h1

instance tl_advance {g : LexGoal} : Tl R (advance g) := by
  refine ⟨fun s hs p e hp => ?_, fun s hs a s' e => ?_⟩
  · unfold advance at e
    split at e <;> cases e
    next hm => exact runs_owed hs rfl rfl rfl hm rfl hp
  · unfold advance at e
    split at e <;> cases e
    next hm => exact (mind_next hs hm).1

/-- what is known of the words read is known from the other walk -/
theorem al_placed {m : PM α} [hw : Why.Wy R m] (h : Tl R m) : Al R m := by
  refine ⟨fun s hs => ⟨fun a s' e => ?_, h.out s hs.placed⟩⟩
  obtain ⟨past, w, hh⟩ := hs
  obtain ⟨p, v, h1, -⟩ := (hw.out s past w hh.toHere).out a s' e
  exact ⟨p, v, h1, h.mind s hh.mind a s' e⟩
instance al_advance {g : LexGoal} : Al R (advance g) := al_placed inferInstance

theorem al_errorCurrent {k : ErrorType} : Al R (errorCurrent k : PM α) := by
  unfold errorCurrent
  exact al_bind inferInstance fun _ => inferInstance
instance al_unexpectedCurrent : Al R (unexpectedCurrent : PM α) := by
  unfold unexpectedCurrent
  exact al_bind inferInstance fun _ => inferInstance
instance al_errorCurrent' {k : ErrorType} : Al R (errorCurrent k : PM α) := al_errorCurrent
theorem al_when {c : Prop} [Decidable c] {m : PM Unit} (h : Al R m) : Al R (M.when c m) := by
  unfold M.when
  exact al_ite h al_pure

instance al_withParams {f : Params → Params} {m : PM α} [h : Al R m] : Al R (withParams f m) := by
  unfold withParams
  exact al_bind inferInstance fun _ => al_bind (inferInstance : Al R (M.modify fun s => { s with params := (fun s => f s.params) s }))
    fun _ => al_bind h fun a => al_bind inferInstance fun _ => inferInstance
instance al_withIn {f : Bool} {m : PM α} [h : Al R m] : Al R (withIn f m) := al_withParams
instance al_withDefault {f : Bool} {m : PM α} [h : Al R m] : Al R (withDefault f m) := al_withParams
instance al_withReturn {f : Bool} {m : PM α} [h : Al R m] : Al R (withReturn f m) := al_withParams
instance al_withYield {f : Bool} {m : PM α} [h : Al R m] : Al R (withYield f m) := al_withParams
instance al_withAwait {f : Bool} {m : PM α} [h : Al R m] : Al R (withAwait f m) := al_withParams
instance al_withYieldAwait {f g : Bool} {m : PM α} [h : Al R m] : Al R (withYieldAwait f g m) := al_withParams

/-- changes of the context that do not make the code strict -/
instance al_ctx1 {b : Bool} : Al R (M.modify fun s => { s with ctx := { s.ctx with inIteration := b } }) :=
  al_placed (tl_nop (hq := quiet_ctx) ⟨fun s f e => by cases e⟩)
instance al_ctx2 {b : Bool} : Al R (M.modify fun s => { s with ctx := { s.ctx with inFunction := b } }) :=
  al_placed (tl_nop (hq := quiet_ctx) ⟨fun s f e => by cases e⟩)
instance al_ctx3 {b : Bool} : Al R (M.modify fun s => { s with ctx := { s.ctx with inSwitch := b } }) :=
  al_placed (tl_nop (hq := quiet_ctx) ⟨fun s f e => by cases e⟩)

theorem Caused.of {past : List Word} {w : Word} {p : PanicSite} (h : Here R s past w) (hc : cause R.module past w p) :
    Owed R p := by
  obtain ⟨text, _, h2⟩ := h.place
  exact .of ⟨past, w, text, h2, hc⟩

/-! ### Looking ahead -/

theorem liftScanner_nop {m : SM α} [h : Nop m] : Nop (liftScanner m) := by
  refine ⟨fun s f e => ?_⟩
  unfold liftScanner at e
  split at e
  · cases e
  · next hm => cases e; exact h.out _ _ hm

theorem peek_owed (hs : Placed R s) {p : PanicSite} (e : peekToken s = .error (.panic p)) (hp : Watched (.panic p)) : Owed R p := by
  have h3 : ∀ t, Nop (liftScanner (Scanner.restoreState t)) := fun t => liftScanner_nop
  unfold peekToken at e
  have h1 : liftScanner Scanner.saveState s = .ok ((), { s with scanner := { s.scanner with state := some (ScannerState.mk s.scanner.start s.scanner.current
          s.scanner.line s.scanner.col s.scanner.newline s.scanner.rawString s.scanner.curly) } }) := rfl
  rw [M.bind_ok h1] at e
  generalize hs1 : ({ s with scanner := { s.scanner with state := some (ScannerState.mk s.scanner.start s.scanner.current
          s.scanner.line s.scanner.col s.scanner.newline s.scanner.rawString s.scanner.curly) } } : Parser) = s1 at e
  cases hm : liftScanner (Scanner.next .regExp) s1 with
  | error f =>
    rw [M.bind_err hm] at e
    cases e
    unfold liftScanner at hm
    split at hm <;> cases hm
    next hn => exact runs_owed hs (by subst hs1; rfl) (by subst hs1; rfl) (by subst hs1; rfl) hn rfl hp
  | ok x =>
    obtain ⟨t, s2⟩ := x
    exact absurd hp ((ns_bind (h3 t) fun _ => ns_pure).out s2 _ ((M.bind_ok hm).symm.trans e))

theorem peek_mind (hs : Mind R.source s.scanner) {t : Token} {s' : Parser} (e : peekToken s = .ok (t, s')) :
    Mind R.source s'.scanner := by
  unfold peekToken at e
  obtain ⟨_, s2, h3, e⟩ := bind_ok_inv e
  obtain ⟨t', s3, h4, e⟩ := bind_ok_inv e
  obtain ⟨_, s4, h5, e⟩ := bind_ok_inv e
  cases e
  cases h3
  unfold liftScanner at h4 h5
  split at h4
  · next hn =>
    cases h4
    have h0 : Mind R.source { s.scanner with state := some (ScannerState.mk s.scanner.start s.scanner.current
          s.scanner.line s.scanner.col s.scanner.newline s.scanner.rawString s.scanner.curly) } := ⟨hs.fresh, hs.text, hs.curly⟩
    have h6 := mind_next h0 hn
    split at h5
    · next hr =>
      cases h5
      unfold Scanner.restoreState at hr
      split at hr
      · next hst =>
        cases hr
        have h7 := h6.2
        rw [show _ = some _ from hst] at h7
        cases h7
        exact ⟨⟨h6.1.fresh.1, hs.fresh.2⟩, h6.1.text, hs.curly⟩
      · cases hr
    · cases h5
  · cases h4

/-- from a place where the current word is one that is followed by a look at the next -/
def AlLook (R : Src) (m : PM α) : Prop :=
  ∀ s past w, Here R s past w → (∃ v ∈ lookWords, w.c = .name v) → Al1 R m s

theorem look_peek {k : Token → PM β} (hk : ∀ t, Al R (k t)) : AlLook R (peekToken >>= k) := by
  intro s past w h hl
  refine Al1.bind ⟨fun t s' ht => ?_, fun p e hp => peek_owed (Near.placed ⟨past, w, h⟩) e hp⟩ fun t s' _ hs => (hk t).out s' hs
  obtain ⟨p, v, h', _⟩ := (Why.Wp.peek (k := Pure.pure) (Q' := fun _ _ _ _ => True) h.toHere hl fun t s' _ _ h' => Why.Wp.pure h' trivial).out t s'
    ((M.bind_ok ht).trans rfl)
  exact ⟨p, v, h', peek_mind h.mind ht⟩

end Cause
end Giron

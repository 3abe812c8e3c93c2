import Verif.Spec.Marks
import Verif.Proofs.Marks.Scan
import Verif.Proofs.Marks.Tree
import Verif.Proofs.Why.Basic
/-
How many positions a parser method puts on the span stack and takes off it.
-/
namespace Giron
namespace Marks
open M Giron.Parser Layout Spec
variable [Env] {α β : Type}

/-- nowhere in the source is the stack endangered -/
class Plain (src : Str) : Prop where
  out : ∀ past w text, OpensWith src (w :: past).reverse text → ¬ Endangers past w

/-- the parser has read words of the source -/
def Near (src : Str) (s : Parser) : Prop := ∃ past w, Why.Here ⟨src, true⟩ s past w

/-- From a state with at least `n` positions on the stack: the stack is never found empty, and at the end `j` positions are
there in place of the `n`. -/
def Good (src : Str) (n : Nat) (m : PM α) (j : Nat) (s : Parser) : Prop :=
  n ≤ s.markerStack.length → m s ≠ .error (.panic .spanStack) ∧
    ∀ a s', m s = .ok (a, s') → Near src s' ∧ s.markerStack.length + j ≤ s'.markerStack.length + n

/-- from any state reached -/
class At (src : Str) (n : outParam Nat) (m : PM α) (j : outParam Nat) : Prop where
  out : ∀ s, Near src s → Good src n m j s

variable {src : Str} {n j a b : Nat} {s : Parser}

theorem At.mk' {m : PM α} (h : ∀ s, Near src s → Good src n m j s) : At src n m j := ⟨h⟩

theorem Good.weaken {m : PM α} (h : Good src a m b s) (h1 : a ≤ n) (h2 : j + a ≤ n + b) : Good src n m j s := by
  intro hn
  obtain ⟨g1, g2⟩ := h (by omega)
  refine ⟨g1, fun x s' hm => ?_⟩
  obtain ⟨g3, g4⟩ := g2 x s' hm
  exact ⟨g3, by omega⟩

theorem Good.bind {m : PM α} {k : α → PM β} (h : Good src n m a s)
    (hk : ∀ x s', m s = .ok (x, s') → Near src s' → Good src a (k x) j s') : Good src n (m >>= k) j s := by
  intro hn
  obtain ⟨g1, g2⟩ := h hn
  cases hm : m s with
  | error f =>
    rw [M.bind_err hm]
    exact ⟨fun e => g1 (by rw [hm]; cases e; rfl), fun x s' e => by cases e⟩
  | ok p =>
    obtain ⟨x, s1⟩ := p
    obtain ⟨g3, g4⟩ := g2 x s1 hm
    rw [M.bind_ok hm]
    obtain ⟨g5, g6⟩ := hk x s1 hm g3 (by omega)
    refine ⟨g5, fun y s2 hy => ?_⟩
    obtain ⟨g7, g8⟩ := g6 y s2 hy
    exact ⟨g7, by omega⟩

theorem at_weaken {m : PM α} (h : At src a m b) (h1 : a ≤ n) (h2 : j + a ≤ n + b) : At src n m j :=
  ⟨fun s hs => (h.out s hs).weaken h1 h2⟩
theorem at_last {m : PM α} [h : At src a m b] (h1 : a ≤ n) (h2 : j + a ≤ n + b) : At src n m j := at_weaken h h1 h2

theorem at_bind {m : PM α} {k : α → PM β} (h : At src n m a) (hk : ∀ x, At src a (k x) j) : At src n (m >>= k) j :=
  ⟨fun s hs => (h.out s hs).bind fun x s' _ hs' => (hk x).out s' hs'⟩
theorem at_call {m : PM α} {k : α → PM β} [h : At src a m b] (h1 : a ≤ n) (hk : ∀ x, At src (n - a + b) (k x) j) :
    At src n (m >>= k) j := at_bind (at_weaken h h1 (by omega)) hk

theorem at_ite {c : Prop} [Decidable c] {m m' : PM α} (h : At src n m j) (h' : At src n m' j) : At src n (if c then m else m') j := by
  split <;> assumption

/-! ### Steps -/

theorem at_pure {x : α} (h : j ≤ n) : At src n (Pure.pure x : PM α) j :=
  ⟨fun s hs hn => ⟨fun e => (by cases e), fun y s' e => by cases e; exact ⟨hs, by omega⟩⟩⟩
theorem at_pure' {x : α} (h : j ≤ n) : At src n (M.pure x : PM α) j := at_pure h

theorem near_same {s s' : Parser} (h : Near src s) (h1 : s'.current = s.current) (h2 : s'.scanner = s.scanner)
    (h3 : s'.hasLineTerminator = s.hasLineTerminator) : Near src s' := by
  obtain ⟨past, w, ⟨text, k1, k2⟩, _⟩ := h
  exact ⟨past, w, ⟨text, k1.of_eq h1 h2 h3, k2⟩, fun _ => .inl rfl⟩

instance at_startSpan : At src 0 startSpan 1 :=
  ⟨fun s hs _ => ⟨fun e => (by cases e), fun y s' e => by cases e; exact ⟨near_same hs rfl rfl rfl, by simp⟩⟩⟩

instance at_endSpan : At src 1 endSpan 0 := by
  refine ⟨fun s hs hn => ?_⟩
  unfold endSpan
  cases h : s.markerStack with
  | nil => rw [h] at hn; cases hn
  | cons m ms => exact ⟨fun e => (by cases e), fun y s' e => by cases e; exact ⟨near_same hs rfl rfl rfl, by simp⟩⟩

instance at_peekSpan : At src 1 peekSpan 1 := by
  refine ⟨fun s hs hn => ?_⟩
  unfold peekSpan
  cases h : s.markerStack with
  | nil => rw [h] at hn; cases hn
  | cons m ms => exact ⟨fun e => (by cases e), fun y s' e => by cases e; exact ⟨hs, by simp [h]⟩⟩

instance at_cur : At src 0 cur 0 :=
  ⟨fun s hs _ => ⟨fun e => (by cases e), fun y s' e => by cases e; exact ⟨hs, by simp⟩⟩⟩
instance at_get : At src 0 (M.get : PM Parser) 0 :=
  ⟨fun s hs _ => ⟨fun e => (by cases e), fun y s' e => by cases e; exact ⟨hs, by simp⟩⟩⟩

theorem at_modify {f : Parser → Parser} (h1 : ∀ s, (f s).current = s.current) (h2 : ∀ s, (f s).scanner = s.scanner)
    (h3 : ∀ s, (f s).hasLineTerminator = s.hasLineTerminator) (h4 : ∀ s, (f s).markerStack = s.markerStack) :
    At src 0 (M.modify f) 0 :=
  ⟨fun s hs _ => ⟨fun e => (by cases e), fun y s' e => by
    cases e; exact ⟨near_same hs (h1 s) (h2 s) (h3 s), by rw [h4]; simp⟩⟩⟩
instance at_ctx {f : Parser → Context} : At src 0 (M.modify fun s => { s with ctx := f s }) 0 :=
  at_modify (fun _ => rfl) (fun _ => rfl) (fun _ => rfl) fun _ => rfl
instance at_params {f : Parser → Params} : At src 0 (M.modify fun s => { s with params := f s }) 0 :=
  at_modify (fun _ => rfl) (fun _ => rfl) (fun _ => rfl) fun _ => rfl
instance at_saveParams : At src 0 saveParams 0 :=
  at_modify (fun _ => rfl) (fun _ => rfl) (fun _ => rfl) fun _ => rfl
instance at_restoreParams : At src 0 restoreParams 0 := by
  refine ⟨fun s hs _ => ?_⟩
  unfold restoreParams
  split
  · exact ⟨fun e => (by cases e), fun y s' e => by cases e; exact ⟨near_same hs rfl rfl rfl, by simp⟩⟩
  · exact ⟨fun e => (by cases e), fun y s' e => by cases e⟩

theorem at_fail {f : Fail} (h : f ≠ .panic .spanStack) : At src n (M.fail f : PM α) j :=
  ⟨fun s _ _ => ⟨fun e => by cases e; exact h rfl, fun y s' e => by cases e⟩⟩
theorem at_panic {p : PanicSite} (h : p ≠ .spanStack) : At src n (M.panic p : PM α) j := at_fail fun e => by cases e; exact h rfl
theorem at_error {t : Token} {k : ErrorType} : At src n (Parser.error t k : PM α) j := at_fail fun e => by cases e
theorem at_unexpected {t : Token} : At src n (unexpected t : PM α) j := at_error
theorem at_unwrap {p : PanicSite} {v : Option α} (h : p ≠ .spanStack) : At src 0 (M.unwrap p v : PM α) 0 := by
  cases v
  · exact at_panic h
  · exact at_pure (Nat.le_refl _)
theorem at_ofExcept {x : Except Fail α} (h : Nx x) : At src 0 (M.ofExcept x : PM α) 0 := by
  cases x with
  | error f => exact at_fail fun e => h (by rw [e])
  | ok a => exact at_pure (Nat.le_refl _)

instance at_advance {g : LexGoal} : At src 0 (advance g) 0 := by
  refine ⟨fun s hs _ => ?_⟩
  obtain ⟨past, w, h⟩ := hs
  unfold advance
  cases hn : s.scanner.next g with
  | error f => exact ⟨fun e => (by cases e; exact Nsp.out (m := Scanner.next g) _ hn), fun y s' e => by cases e⟩
  | ok p =>
    obtain ⟨t, sc⟩ := p
    refine ⟨fun e => (by cases e), fun y s' e => ?_⟩
    cases e
    obtain ⟨w', hw⟩ := Why.here_next h hn
    exact ⟨⟨_, w', hw⟩, by simp⟩

theorem at_errorCurrent {k : ErrorType} : At src n (errorCurrent k : PM α) j := by
  unfold errorCurrent
  exact at_bind (at_last (j := n) (Nat.zero_le _) (Nat.le_refl _)) fun _ => at_error
theorem at_unexpectedCurrent : At src n (unexpectedCurrent : PM α) j := by
  unfold unexpectedCurrent
  exact at_bind (at_last (j := n) (Nat.zero_le _) (Nat.le_refl _)) fun _ => at_error

instance at_withParams {f : Params → Params} {m : PM α} [h : At src a m b] : At src a (withParams f m) b := by
  unfold withParams
  refine at_bind (a := a) (at_last (Nat.zero_le _) (Nat.le_refl _)) fun _ => at_bind (a := a) (at_last (Nat.zero_le _) (Nat.le_refl _)) fun _ =>
    at_bind h fun _ => at_bind (a := b) (at_last (Nat.zero_le _) (Nat.le_refl _)) fun _ => at_pure (Nat.le_refl _)
instance at_withIn {f : Bool} {m : PM α} [h : At src a m b] : At src a (withIn f m) b := at_withParams
instance at_withDefault {f : Bool} {m : PM α} [h : At src a m b] : At src a (withDefault f m) b := at_withParams
instance at_withReturn {f : Bool} {m : PM α} [h : At src a m b] : At src a (withReturn f m) b := at_withParams
instance at_withYield {f : Bool} {m : PM α} [h : At src a m b] : At src a (withYield f m) b := at_withParams
instance at_withAwait {f : Bool} {m : PM α} [h : At src a m b] : At src a (withAwait f m) b := at_withParams
instance at_withYieldAwait {f g : Bool} {m : PM α} [h : At src a m b] : At src a (withYieldAwait f g m) b := at_withParams

theorem good_get {k : Parser → PM β} (h : Good src n (k s) j s) : Good src n (M.get >>= k) j s := h
theorem good_cur {k : Token → PM β} (h : Good src n (k s.current) j s) : Good src n (cur >>= k) j s := h
theorem good_ite {c : Prop} [Decidable c] {m m' : PM α} (h : c → Good src n m j s) (h' : ¬ c → Good src n m' j s) :
    Good src n (if c then m else m') j s := by
  split
  · exact h ‹_›
  · exact h' ‹_›

/-- the current word is not one of the excluded ones -/
theorem Near.plain [hp : Plain src] (h : Near src s) : ∃ c, IsTok s.current c ∧
    ¬ ((c = .punct .inc ∨ c = .punct .dec) ∧ s.hasLineTerminator = false) ∧ c ≠ .name cs!"new" := by
  obtain ⟨past, w, ⟨text, k1, k2⟩, _⟩ := h
  have h1 := hp.out _ _ _ k2
  exact ⟨w.c, k1.cur, fun h => h1 (.inr ⟨h.1, k1.no h.2⟩), fun h => h1 (.inl h)⟩

/-! ### Looking ahead -/

theorem liftScanner_marks {m : SM α} {x : α} {s' : Parser} (h : liftScanner m s = .ok (x, s')) : s'.markerStack = s.markerStack := by
  unfold liftScanner at h
  split at h <;> cases h
  rfl

theorem at_liftScanner_panic {m : SM α} [h : Nsp m] : liftScanner m s ≠ .error (.panic .spanStack) := by
  unfold liftScanner
  split
  · exact fun e => by cases e
  · next hm => exact fun e => by cases e; exact h.out _ hm

theorem peekToken_marks {x : Token} {s' : Parser} (h : peekToken s = .ok (x, s')) : s'.markerStack = s.markerStack := by
  unfold peekToken at h
  obtain ⟨_, s2, h3, h1⟩ := bind_ok_inv h
  obtain ⟨t', s3, h4, h1⟩ := bind_ok_inv h1
  obtain ⟨_, s4, h5, h1⟩ := bind_ok_inv h1
  cases h1
  rw [liftScanner_marks h5, liftScanner_marks h4, liftScanner_marks h3]

theorem peekToken_panic : peekToken s ≠ .error (.panic .spanStack) := by
  unfold peekToken
  have h1 : Nsp (liftScanner Scanner.saveState) := ⟨fun s => at_liftScanner_panic⟩
  have h2 : Nsp (liftScanner (Scanner.next .regExp)) := ⟨fun s => at_liftScanner_panic⟩
  have h3 : ∀ t, Nsp (liftScanner (Scanner.restoreState t)) := fun t => ⟨fun s => at_liftScanner_panic⟩
  exact (ns_bind h1 fun _ => ns_bind h2 fun t => ns_bind (h3 t) fun _ => ns_pure).out s

/-- from a place where the current word is one that is followed by a look at the next -/
def AtLook (src : Str) (n : Nat) (m : PM α) (j : Nat) : Prop :=
  ∀ s past w, Why.Here ⟨src, true⟩ s past w → (∃ v ∈ lookWords, w.c = .name v) → Good src n m j s

theorem atLook_peek {k : Token → PM β} (hk : ∀ t, At src n (k t) j) : AtLook src n (peekToken >>= k) j := by
  intro s past w h hl
  refine Good.bind (a := n) (fun hn => ⟨peekToken_panic, fun t s' ht => ⟨?_, ?_⟩⟩) fun t s' _ hs => (hk t).out s' hs
  · have := (Why.Wp.peek (k := Pure.pure) (Q' := fun _ _ _ _ => True) h hl fun t s' _ _ h' => Why.Wp.pure h' trivial).out t s'
      ((M.bind_ok ht).trans rfl)
    obtain ⟨p, v, h', _⟩ := this
    exact ⟨p, v, h'⟩
  · rw [peekToken_marks ht]; omega

end Marks
end Giron

import Verif.Proofs.Shift.Scan
import Verif.Proofs.Shift.Tree
import Verif.Model.Parser.Module
/-
Two runs of the parser on the same remaining text, at different places of two sources, do the same: relation and
rules.
-/
namespace Giron
open M Spec

instance : Mv Token := ⟨Token.moved⟩

@[simp] theorem moved_tokentype {d ℓ} {t : Token} : (t.moved d ℓ).tokentype = t.tokentype := rfl
@[simp] theorem moved_value {d ℓ} {t : Token} : (t.moved d ℓ).value = t.value := rfl
@[simp] theorem moved_matchesStr {d ℓ} {t : Token} {x} : (t.moved d ℓ).matchesStr x = t.matchesStr x := rfl
@[simp] theorem moved_matchesPunc {d ℓ} {t : Token} {x} : (t.moved d ℓ).matchesPunc x = t.matchesPunc x := rfl

/-- a value or an expression -/
def moveVoE (d ℓ : Nat) : ValueOrExpr → ValueOrExpr
  | .value v => .value v
  | .expr n => .expr (moveNode d ℓ n)

instance : Mv ValueOrExpr := ⟨moveVoE⟩

namespace Parser
variable [Env] {α β : Type} [Mv α] [Mv β]

/-- How the second run differs from the first: its text starts `d` characters and `ℓ` lines further on, and there
are further markers at the bottom of its marker stack. -/
structure Mode where
  d : Nat
  ℓ : Nat
  extra : List Marker

/-- related states -/
inductive R (μ : Mode) : Parser → Parser → Prop
  | mk {s : Parser} {sc : Scanner} {ps : List Params} (h : Scanner.MovedBy μ.d μ.ℓ true s.scanner sc) :
    R μ s ⟨sc, s.hasLineTerminator, s.current.moved μ.d μ.ℓ, s.ctx, s.params, ps,
      s.markerStack.map (moveMarker μ.d μ.ℓ) ++ μ.extra⟩

/-- related outcomes: nothing is said when the fuel runs out, or when the first run finds its marker stack empty and
the second has further markers. -/
def Out (μ : Mode) (s s' : Parser) (x y : Except Fail (α × Parser)) : Prop :=
  x = .error .fuel ∨ y = .error .fuel ∨ (x = .error (.panic .spanStack) ∧ μ.extra ≠ []) ∨
  (∃ f, x = .error f ∧ y = .error (f.moved μ.ℓ)) ∨
  ∃ a t t', x = .ok (a, t) ∧ y = .ok (mv μ.d μ.ℓ a, t') ∧ R μ t t' ∧
    t.paramsStack = s.paramsStack ∧ t'.paramsStack = s'.paramsStack

/-- related parsers -/
class Sim (μ : Mode) (m m' : PM α) : Prop where
  out : ∀ s s', R μ s s' → Out μ s s' (m s) (m' s')

variable {μ : Mode}

theorem Out.ok {s s' t t' : Parser} {a b : α} (h : R μ t t') (hb : b = mv μ.d μ.ℓ a) (h1 : t.paramsStack = s.paramsStack)
    (h2 : t'.paramsStack = s'.paramsStack) : Out μ s s' (.ok (a, t)) (.ok (b, t')) := by
  subst hb
  exact .inr (.inr (.inr (.inr ⟨_, _, _, rfl, rfl, h, h1, h2⟩)))

theorem Out.err {s s' : Parser} {f f' : Fail} (h : f' = f.moved μ.ℓ) :
    Out (α := α) μ s s' (.error f) (.error f') := by
  subst h
  exact .inr (.inr (.inr (.inl ⟨_, rfl, rfl⟩)))

theorem sim_bind {m m' : PM α} {k k' : α → PM β} (h : Sim μ m m') (hk : ∀ a, Sim μ (k a) (k' (mv μ.d μ.ℓ a))) :
    Sim μ (m >>= k) (m' >>= k') := by
  constructor
  intro s s' hs
  rcases h.out s s' hs with h | h | ⟨h, hx⟩ | ⟨f, h, h'⟩ | ⟨a, t, t', h, h', hR, h1, h2⟩
  · exact .inl (M.bind_err h)
  · exact .inr (.inl (M.bind_err h))
  · exact .inr (.inr (.inl ⟨M.bind_err h, hx⟩))
  · rw [M.bind_err h, M.bind_err h']; exact Out.err rfl
  · rw [M.bind_ok h, M.bind_ok h']
    rcases (hk a).out t t' hR with h | h | ⟨h, hx⟩ | ⟨f, h, h'⟩ | ⟨b, u, u', h, h', hR', h1', h2'⟩
    · exact .inl h
    · exact .inr (.inl h)
    · exact .inr (.inr (.inl ⟨h, hx⟩))
    · rw [h, h']; exact Out.err rfl
    · rw [h, h']; exact Out.ok hR' rfl (h1'.trans h1) (h2'.trans h2)

theorem sim_pure {a b : α} (h : b = mv μ.d μ.ℓ a) : Sim μ (pure a : PM α) (pure b) :=
  ⟨fun _ _ hs => Out.ok hs h rfl rfl⟩

theorem sim_fail {f f' : Fail} (h : f' = f.moved μ.ℓ) : Sim (α := α) μ (M.fail f) (M.fail f') :=
  ⟨fun _ _ _ => Out.err h⟩

theorem sim_panic {p : PanicSite} : Sim (α := α) μ (M.panic p) (M.panic p) := sim_fail rfl

theorem sim_fuelL {m : PM α} : Sim μ (M.fail .fuel) m := ⟨fun _ _ _ => .inl rfl⟩
theorem sim_fuelR {m : PM α} : Sim μ m (M.fail .fuel) := ⟨fun _ _ _ => .inr (.inl rfl)⟩

theorem sim_ite {c c' : Prop} [Decidable c] [Decidable c'] {m n m' n' : PM α} (h : c ↔ c') (h1 : c → Sim μ m m')
    (h2 : ¬ c → Sim μ n n') : Sim μ (if c then m else n) (if c' then m' else n') := by
  by_cases hc : c
  · rw [if_pos hc, if_pos (h.1 hc)]; exact h1 hc
  · rw [if_neg hc, if_neg (fun x => hc (h.2 x))]; exact h2 hc

theorem sim_get {k k' : Parser → PM α}
    (h : ∀ (s : Parser) sc ps ms, Sim μ (k s) (k' ⟨sc, s.hasLineTerminator, s.current.moved μ.d μ.ℓ, s.ctx, s.params, ps, ms⟩)) :
    Sim μ (M.get >>= k) (M.get >>= k') := by
  constructor
  intro s s' hs
  cases hs with
  | mk hm => exact (h s _ _ _).out s _ (.mk hm)

theorem sim_modify {f f' : Parser → Parser} (h : ∀ s s', R μ s s' → R μ (f s) (f' s')) (h1 : ∀ s, (f s).paramsStack = s.paramsStack)
    (h2 : ∀ s, (f' s).paramsStack = s.paramsStack) : Sim μ (M.modify f : PM Unit) (M.modify f') :=
  ⟨fun s s' hs => Out.ok (h s s' hs) rfl (h1 s) (h2 s')⟩

theorem sim_when {c c' : Prop} [Decidable c] [Decidable c'] {m m' : PM Unit} (h : c ↔ c') (h1 : Sim μ m m') :
    Sim μ (M.when c m) (M.when c' m') := by
  unfold M.when
  exact sim_ite h (fun _ => h1) (fun _ => sim_pure rfl)

theorem sim_unwrap {p : PanicSite} {v v' : Option α} (h : v' = v.map (mv μ.d μ.ℓ)) : Sim μ (M.unwrap p v : PM α) (M.unwrap p v') := by
  subst h
  cases v with
  | none => exact sim_panic
  | some a => exact sim_pure rfl

/-- for values without positions -/
theorem sim_unwrapId {p : PanicSite} {v v' : Option α} (h : v' = v) (hi : ∀ a : α, mv μ.d μ.ℓ a = a) :
    Sim μ (M.unwrap p v : PM α) (M.unwrap p v') := by
  subst h
  cases v' with
  | none => exact sim_panic
  | some a => exact sim_pure (hi a).symm

theorem sim_ofExcept {x y : Except Fail α} (h : y = mvEx μ.d μ.ℓ x) : Sim μ (M.ofExcept x : PM α) (M.ofExcept y) := by
  subst h
  cases x with
  | error f => exact sim_fail rfl
  | ok a => exact sim_pure rfl

theorem R.size {s s' : Parser} (h : R μ s s') : s'.size = s.size := by
  cases h with
  | mk h =>
    rename_i sc ps
    obtain ⟨nl, st, rfl, -⟩ := h.eq
    unfold Parser.size
    cases s.scanner.unscanned <;> rfl

theorem sim_budget {F F' : Nat → PM α} (h : ∀ n, Sim μ (F n) (F' n)) :
    Sim μ (fun s => F (s.size + 1) s) (fun s => F' (s.size + 1) s) := by
  constructor
  intro s s' hs
  have := (h (s.size + 1)).out s s' hs
  rw [hs.size]
  exact this

instance sim_cur : Sim μ cur cur := by
  constructor
  intro s s' hs
  cases hs with
  | mk h => exact Out.ok (.mk h) rfl rfl rfl

theorem sim_liftScanner {m : SM α} {V : α → α → Prop} [h : Scanner.Shift μ.d μ.ℓ true true m V]
    (hv : ∀ a b, V a b → b = mv μ.d μ.ℓ a) : Sim μ (liftScanner m) (liftScanner m) := by
  constructor
  intro s s' hs
  cases hs with
  | mk hm =>
    have := h.out _ _ hm
    unfold liftScanner
    dsimp only
    cases hx : m s.scanner with
    | error f =>
      rw [hx] at this
      replace this : _ = _ := this
      rw [this]
      exact Out.err rfl
    | ok r =>
      rw [hx] at this
      obtain ⟨b, t', e, hv', ht⟩ := this
      rw [e]
      exact Out.ok (t := { s with scanner := r.2 }) (.mk ht) (hv _ _ hv') rfl rfl

instance sim_advance {g : LexGoal} : Sim μ (advance g) (advance g) := by
  constructor
  intro s s' hs
  cases hs with
  | mk hm =>
    have := (Scanner.sh_next (d := μ.d) (ℓ := μ.ℓ) (goal := g)).out _ _ hm
    unfold advance
    dsimp only
    cases hx : Scanner.next g s.scanner with
    | error f =>
      rw [hx] at this
      replace this : _ = _ := this
      rw [this]
      exact Out.err rfl
    | ok r =>
      rw [hx] at this
      obtain ⟨b, t', e, rfl, ht⟩ := this
      rw [e]
      dsimp only
      have e : (decide ((r.1.moved μ.d μ.ℓ).lineNum > (s.current.moved μ.d μ.ℓ).lineNum)) = decide (r.1.lineNum > s.current.lineNum) := by
        simp [Token.moved]
      rw [e]
      exact Out.ok (t := { s with scanner := r.2, current := r.1, hasLineTerminator := decide (r.1.lineNum > s.current.lineNum) })
        (.mk ht) rfl rfl rfl

instance sim_error {t : Token} {e : ErrorType} : Sim (α := α) μ (error t e) (error (mv μ.d μ.ℓ t) e) := sim_fail rfl

instance sim_errorCurrent {e : ErrorType} : Sim (α := α) μ (errorCurrent e) (errorCurrent e) :=
  sim_bind inferInstance (fun _ => sim_fail rfl)

instance sim_unexpectedCurrent : Sim (α := α) μ unexpectedCurrent unexpectedCurrent :=
  sim_bind inferInstance (fun _ => sim_fail rfl)

instance sim_startSpan : Sim μ startSpan startSpan := by
  constructor
  intro s s' hs
  cases hs with
  | mk h => exact Out.ok (t := { s with markerStack := _ :: s.markerStack }) (.mk h) rfl rfl rfl

theorem endMarker_moved {s : Parser} {sc : Scanner} (h : Scanner.MovedBy μ.d μ.ℓ true s.scanner sc) {a b c e f} :
    endMarker ⟨sc, a, b, c, e, f, g⟩ = moveMarker μ.d μ.ℓ (endMarker s) := by
  obtain ⟨nl, st, rfl, -⟩ := h.eq
  rfl

instance sim_endSpan : Sim μ endSpan endSpan := by
  constructor
  intro s s' hs
  cases hs with
  | mk h =>
    unfold endSpan
    cases hm : s.markerStack with
    | nil =>
      cases hx : μ.extra with
      | nil => exact Out.err rfl
      | cons x xs => exact .inr (.inr (.inl ⟨rfl, by rw [hx]; simp⟩))
    | cons x xs =>
      dsimp only [List.map, List.cons_append]
      rw [endMarker_moved h]
      exact Out.ok (t := { s with markerStack := xs }) (.mk h) rfl rfl rfl

instance sim_peekSpan : Sim μ peekSpan peekSpan := by
  constructor
  intro s s' hs
  cases hs with
  | mk h =>
    rename_i sc ps
    unfold peekSpan
    cases hm : s.markerStack with
    | nil =>
      cases hx : μ.extra with
      | nil => exact Out.err rfl
      | cons x xs => exact .inr (.inr (.inl ⟨rfl, by rw [hx]; simp⟩))
    | cons x xs =>
      dsimp only [List.map, List.cons_append]
      rw [endMarker_moved h]
      refine Out.ok (t := s) ?_ rfl rfl rfl
      have := R.mk (s := s) (ps := ps) h
      rw [hm] at this
      exact this

instance sim_withParams {f : Params → Params} {m m' : PM α} [h : Sim μ m m'] : Sim μ (withParams f m) (withParams f m') := by
  constructor
  intro s s' hs
  cases hs with
  | mk hm =>
    rename_i sc ps
    have e : ∀ (x : Parser) (m : PM α), withParams f m x = match m { x with params := f x.params, paramsStack := x.params :: x.paramsStack } with
        | .ok (a, t) => (restoreParams >>= fun _ => pure a) t
        | .error e => .error e := by
      intro x m
      unfold withParams saveParams
      simp only [M.bind_apply, M.modify]
      cases m { x with params := f x.params, paramsStack := x.params :: x.paramsStack } <;> rfl
    rw [e, e]
    dsimp only
    have hR : R μ { s with params := f s.params, paramsStack := s.params :: s.paramsStack }
      ⟨sc, s.hasLineTerminator, s.current.moved μ.d μ.ℓ, s.ctx, f s.params, s.params :: ps,
        s.markerStack.map (moveMarker μ.d μ.ℓ) ++ μ.extra⟩ := .mk hm
    rcases h.out _ _ hR with h | h | ⟨h, hx⟩ | ⟨f, h, h'⟩ | ⟨a, t, t', h, h', hR, h1, h2⟩
    · rw [h]; exact .inl rfl
    · rw [h]; exact .inr (.inl rfl)
    · rw [h]; exact .inr (.inr (.inl ⟨rfl, hx⟩))
    · rw [h, h']; exact Out.err rfl
    · rw [h, h']
      dsimp only
      cases hR with
      | mk hm' =>
        dsimp only at h1 h2
        simp only [M.bind_apply, restoreParams, h1, h2]
        exact Out.ok (t := { t with params := s.params, paramsStack := s.paramsStack }) (.mk hm') rfl rfl rfl

end Parser
end Giron

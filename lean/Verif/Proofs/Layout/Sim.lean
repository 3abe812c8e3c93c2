import Verif.Proofs.Layout.Scan
import Verif.Proofs.Layout.Tree
import Verif.Proofs.Spell.Basic
import Verif.Proofs.Pos.Scan
import Verif.Spec.Errors
import Verif.Model.Parser.Module
/-
Runs of the parser on texts that are made of the same words do the same: relation and rules.  The run on the left
succeeds; on the right there is any family of runs (so that the words read on the left are chosen once for all of them).
-/
namespace Giron
open M Spec

instance : Er Token := ⟨fun t => t.at ⟨0, 0, 0, 0⟩⟩

/-- a value or an expression -/
def bareVoE : ValueOrExpr → ValueOrExpr
  | .value v => .value v
  | .expr n => .expr (bareNode n)

instance : Er ValueOrExpr := ⟨bareVoE⟩

/-- types without positions -/
class IdEr (α : Type) [Er α] : Prop where
  out : ∀ a : α, er a = a

instance : IdEr Unit := ⟨fun _ => rfl⟩
instance : IdEr Bool := ⟨fun _ => rfl⟩
instance : IdEr Nat := ⟨fun _ => rfl⟩
instance : IdEr Str := ⟨fun _ => rfl⟩
instance : IdEr Value := ⟨fun _ => rfl⟩
instance : IdEr Punctuator := ⟨fun _ => rfl⟩
instance : IdEr TemplateElement := ⟨fun _ => rfl⟩
instance : IdEr (List TemplateElement) := ⟨fun a => List.map_id a⟩

namespace Layout
open Parser
variable [Env] {α β : Type} [Er α] [Er β] {ι : Type}

/-- giron looks ahead from this token -/
def lookTok (t : Token) : Bool := t.isId cs!"async" || t.isId cs!"get" || t.isId cs!"set"

theorem _root_.Giron.Pos.token_shown {c : Content} {l k st e : Nat} : (c.token l k st e).value.toString = shown c := by
  cases c with
  | name v =>
    show (nameToken v).2.toString = v
    unfold nameToken
    by_cases h1 : v = cs!"null"
    · rw [if_pos h1, h1]; rfl
    · rw [if_neg h1]
      split
      · rfl
      · split <;> rfl
  | _ => rfl

/-- the tokens at hand, as messages call them: the current one, and the one that was looked at -/
def heard (s : Parser) : List Str := s.current.value.toString :: s.scanner.unscanned.toList.map (fun t => t.value.toString)

/-- is it the end of the text -/
def isEnd : Content → Bool
  | .eof => true
  | _ => false

theorem token_end {c : Content} {l k st e : Nat} : ((c.token l k st e).tokentype == .eof) = isEnd c := by
  cases c with
  | name v =>
    show ((nameToken v).1 == .eof) = false
    unfold nameToken
    repeat' split
    all_goals rfl
  | _ => rfl

/-- are the tokens at hand the end of the text -/
def ends (s : Parser) : List Bool := (s.current.tokentype == .eof) :: s.scanner.unscanned.toList.map (fun t => t.tokentype == .eof)

/-- are the words the end of the text -/
def endsOf (P : List Said) : List Bool := P.map fun u => isEnd u.says

/-- words, as messages call them -/
def wordsOf (P : List Said) : List Str := P.map fun u => shown u.says

/-- a token is looked at only from some -/
def Ready (s : Parser) : Prop := Scanner.Fresh s.scanner ∧ (s.scanner.unscanned ≠ none → lookTok s.current = true)

/-- the tokens at hand are the last ones read -/
def Lead (s : Parser) (P : List Said) (s1 : Parser) : Prop :=
  (∃ pre, heard s ++ wordsOf P = pre ++ heard s1) ∧ ∃ pre, ends s ++ endsOf P = pre ++ ends s1

/-- the word is the last one read, or the last but one, if the last was only looked at -/
def Names (s : Parser) (P : List Said) (v : Str) : Prop :=
  ∃ pre, heard s ++ wordsOf P = pre ++ [v] ∨ ((v = cs!"async" ∨ v = cs!"get" ∨ v = cs!"set") ∧ ∃ u, heard s ++ wordsOf P = pre ++ [v, u])

theorem wordsOf_append (P Q : List Said) : wordsOf (P ++ Q) = wordsOf P ++ wordsOf Q := List.map_append

theorem Lead.refl {s s1 : Parser} (h1 : s1.scanner.unscanned = s.scanner.unscanned) (h2 : s1.current = s.current) : Lead s [] s1 :=
  ⟨⟨[], by unfold heard; rw [h1, h2]; simp [wordsOf]⟩, [], by unfold ends; rw [h1, h2]; simp [endsOf]⟩

theorem Lead.trans {s s1 s2 : Parser} {P Q : List Said} (h : Lead s P s1) (h' : Lead s1 Q s2) : Lead s (P ++ Q) s2 := by
  obtain ⟨⟨a, ha⟩, c, hc⟩ := h
  obtain ⟨⟨b, hb⟩, d, hd⟩ := h'
  exact ⟨⟨a ++ b, by rw [wordsOf_append, ← List.append_assoc, ha, List.append_assoc, hb, List.append_assoc]⟩,
    c ++ d, by rw [show endsOf (P ++ Q) = endsOf P ++ endsOf Q from List.map_append, ← List.append_assoc, hc, List.append_assoc, hd, List.append_assoc]⟩

theorem Lead.names {s s1 : Parser} {P Q : List Said} {v : Str} (h : Lead s P s1) (h' : Names s1 Q v) : Names s (P ++ Q) v := by
  obtain ⟨⟨a, ha⟩, -⟩ := h
  obtain ⟨b, hb⟩ := h'
  refine ⟨a ++ b, ?_⟩
  rw [wordsOf_append, ← List.append_assoc, ha]
  rcases hb with hb | ⟨h1, u, hb⟩
  · exact .inl (by rw [List.append_assoc, hb, List.append_assoc])
  · exact .inr ⟨h1, u, by rw [List.append_assoc, hb, List.append_assoc]⟩

/-- related scanners, with related current tokens: the token `t`, and the same one at the place `p` -/
structure Near (Q : List Said) (s s' : Scanner) (t : Token) (p : Place) : Prop where
  fresh : Scanner.Fresh s'
  curly : s'.curly = s.curly
  pos : 0 < s'.current
  /-- of the next `n` words, line breaks are counted; the current token is `l` lines further on than the scanner -/
  ahead : ∃ n l, Begins n Q s'.rest ∧ t.lineNum = s.line + l ∧ p.line = s'.line + l ∧ (l = 0 ∨ 1 ≤ n) ∧
    ((s.unscanned = none ∧ s'.unscanned = none ∧ (lookTok t = true → 2 ≤ n)) ∨
      ∃ u q k, s.unscanned = some u ∧ s'.unscanned = some (u.at q) ∧ u.lineNum = s.line + k ∧ q.line = s'.line + k ∧ 1 ≤ n ∧
        (lookTok u = true → 2 ≤ n))

/-- related states -/
inductive R (Q : List Said) : Parser → Parser → Prop
  | mk {s : Parser} {sc : Scanner} {p : Place} {ms : List Marker} (h : Near Q s.scanner sc s.current p)
      (hm : ms.length = s.markerStack.length) :
    R Q s ⟨sc, s.hasLineTerminator, s.current.at p, s.ctx, s.params, s.paramsStack, ms⟩

/-- the outcome on the right -/
def Out (Q : List Said) (a : α) (s : Parser) (y : Except Fail (α × Parser)) : Prop :=
  y = .error .fuel ∨ ∃ a' s', y = .ok (a', s') ∧ er a = er a' ∧ R Q s s'

/-- the same failure on the right, but for the position -/
def Bad (f : Fail) (y : Except Fail (α × Parser)) : Prop :=
  y = .error .fuel ∨ ∃ f', y = .error f' ∧ f'.bare = f.bare

/-- failures that do not depend on how the scanner got there -/
def Told (f : Fail) : Prop := f ≠ .fuel ∧ f ≠ .panic .tokenEndUnderflow ∧ f ≠ .panic .restoreUnsaved

/-- if it is an error, it is a lexical one -/
def Lexical (f : Fail) : Prop := ∀ e, f = .err e → Pos.LexErr e.errortype

/-- related parsers, where the current token on the left has a property -/
structure SimAt (C : Token → Prop) (m : PM α) (m' : ι → PM α) : Prop where
  /-- success on the left is success on the right -/
  ok : ∀ (o : Bool) (s : Parser) (S : ι → Parser) (a : α) (s1 : Parser), C s.current → Ready s →
    Safe o s.scanner → m s = .ok (a, s1) →
    ∃ P, Ready s1 ∧ Safe (o || anyOpens P) s1.scanner ∧ Goes o s.scanner.rest P s1.scanner.rest ∧ Lead s P s1 ∧
      ∀ i Q, R (P ++ Q) s (S i) → Out Q a s1 (m' i (S i))
  /-- an error on the left is an error on the right, unless it is there that no word can be read -/
  err : ∀ (o : Bool) (s : Parser) (S : ι → Parser) (f : Fail), C s.current → Ready s →
    Safe o s.scanner → m s = .error f → Told f →
    ∃ P r, Goes o s.scanner.rest P r ∧ ((Lexical f ∧ Stuck (o || anyOpens P) r) ∨
      ∀ i Q, R (P ++ Q) s (S i) → Bad f (m' i (S i)))
  /-- after an error that is not lexical, there is no way out; if a word is unexpected, it is the last one -/
  dead : ∀ (o : Bool) (s : Parser) (S : ι → Parser) (e : Error), C s.current → Ready s →
    Safe o s.scanner → m s = .error (.err e) → ¬ Pos.LexErr e.errortype →
    ∃ P r, Goes o s.scanner.rest P r ∧ (∀ v, e.errortype = .unexpectedToken v → Names s P v) ∧
      ∀ i Q, R (P ++ Q) s (S i) → ∃ f, m' i (S i) = .error f

/-- related parsers -/
class Sim (m : PM α) (m' : ι → PM α) : Prop where
  out : SimAt (fun _ => True) m m'

/-- related values -/
class Rel (a : α) (b : ι → α) : Prop where
  out : ∀ i, er a = er (b i)

variable {m : PM α} {m' : ι → PM α} {C : Token → Prop}

theorem SimAt.sim (h : SimAt (fun _ => True) m m') : Sim m m' := ⟨h⟩

theorem Sim.at (h : Sim m m') : SimAt C m m' :=
  ⟨fun o s S a s1 _ hf ho hm => h.out.ok o s S a s1 trivial hf ho hm, fun o s S e _ hf ho hm ht => h.out.err o s S e trivial hf ho hm ht,
    fun o s S e _ hf ho hm ht => h.out.dead o s S e trivial hf ho hm ht⟩

omit [Er β] in
theorem Out.ok {Q : List Said} {a b : α} {s s' : Parser} (h : R Q s s') (hb : er a = er b) : Out Q a s (.ok (b, s')) :=
  .inr ⟨_, _, rfl, hb, h⟩

omit [Env] [Er α] [Er β] in
theorem _root_.Giron.Pos.bind_err_inv {m : PM α} {k : α → PM β} {s : Parser} {f : Fail} (h : (m >>= k) s = .error f) :
    m s = .error f ∨ ∃ a s', m s = .ok (a, s') ∧ k a s' = .error f := by
  cases hm : m s with
  | error g =>
    left
    rw [M.bind_err hm] at h
    cases h
    rfl
  | ok p =>
    obtain ⟨a, s'⟩ := p
    right
    rw [M.bind_ok hm] at h
    exact ⟨a, s', rfl, h⟩

open Classical in
theorem simAt_bind {k : α → PM β} {k' : ι → α → PM β} (h : SimAt C m m')
    (hk : ∀ a (b : ι → α), Rel a b → Sim (k a) (fun i => k' i (b i))) : SimAt C (m >>= k) (fun i => m' i >>= k' i) := by
  have key : ∀ (S : ι → Parser) (a : α) (s1 : Parser), ∃ b : ι → α × Parser, (∀ i, er a = er (b i).1) ∧
      ∀ i x, m' i (S i) = .ok x → er a = er x.1 → b i = x := by
    intro S a s1
    let G : ι → α × Parser → Prop := fun i x => m' i (S i) = .ok x ∧ er a = er x.1
    let b : ι → α × Parser := fun i => if hx : ∃ x, G i x then Classical.choose hx else (a, s1)
    refine ⟨b, fun i => ?_, fun i x h1 h2 => ?_⟩
    · by_cases hx : ∃ x, G i x
      · have : b i = Classical.choose hx := dif_pos hx
        rw [this]; exact (Classical.choose_spec hx).2
      · have : b i = (a, s1) := dif_neg hx
        rw [this]
    · have hx' : ∃ x, G i x := ⟨x, h1, h2⟩
      have : b i = Classical.choose hx' := dif_pos hx'
      rw [this]
      have h2 := (Classical.choose_spec hx').1
      rw [h1] at h2
      cases h2; rfl
  constructor
  · intro o s S c s2 hC hf ho hm
    obtain ⟨a, s1, h1, h2⟩ := bind_ok_inv hm
    obtain ⟨P1, f1, t1, g1, l1, o1⟩ := h.ok o s S a s1 hC hf ho h1
    obtain ⟨b, hb, hb'⟩ := key S a s1
    obtain ⟨P2, f2, t2, g2, l2, o2⟩ := (hk a (fun i => (b i).1) ⟨hb⟩).out.ok _ s1 (fun i => (b i).2) c s2 trivial f1 t1 h2
    refine ⟨P1 ++ P2, f2, by simpa [anyOpens, Bool.or_assoc] using t2, g1.trans g2, l1.trans l2, fun i Q hR => ?_⟩
    rw [List.append_assoc] at hR
    rcases o1 i _ hR with hF | ⟨a', s1', e, he, hR1⟩
    · exact .inl (M.bind_err hF)
    · have hx := hb' i (a', s1') e he
      have := o2 i Q (by show R _ _ (b i).2; rw [hx]; exact hR1)
      show Out Q c s2 ((m' i >>= k' i) (S i))
      rw [M.bind_ok e]
      simp only [hx] at this
      exact this
  · intro o s S er hC hf ho hm ht
    rcases Pos.bind_err_inv hm with h1 | ⟨a, s1, h1, h2⟩
    · obtain ⟨P, r, g, hx⟩ := h.err o s S er hC hf ho h1 ht
      refine ⟨P, r, g, hx.imp id fun hx i Q hR => ?_⟩
      rcases hx i Q hR with hF | ⟨e', he, hk⟩
      · exact .inl (M.bind_err hF)
      · exact .inr ⟨e', M.bind_err he, hk⟩
    · obtain ⟨P1, f1, t1, g1, l1, o1⟩ := h.ok o s S a s1 hC hf ho h1
      obtain ⟨b, hb, hb'⟩ := key S a s1
      obtain ⟨P2, r, g2, o2⟩ := (hk a (fun i => (b i).1) ⟨hb⟩).out.err _ s1 (fun i => (b i).2) er trivial f1 t1 h2 ht
      refine ⟨P1 ++ P2, r, g1.trans g2, o2.imp (fun hx => ⟨hx.1, by simpa [anyOpens, Bool.or_assoc] using hx.2⟩) fun o2 i Q hR => ?_⟩
      rw [List.append_assoc] at hR
      rcases o1 i _ hR with hF | ⟨a', s1', e, he, hR1⟩
      · exact .inl (M.bind_err hF)
      · have hx := hb' i (a', s1') e he
        have := o2 i Q (by show R _ _ (b i).2; rw [hx]; exact hR1)
        show Bad er ((m' i >>= k' i) (S i))
        rw [M.bind_ok e]
        simp only [hx] at this
        exact this
  · intro o s S er hC hf ho hm ht
    rcases Pos.bind_err_inv hm with h1 | ⟨a, s1, h1, h2⟩
    · obtain ⟨P, r, g, hv, hx⟩ := h.dead o s S er hC hf ho h1 ht
      refine ⟨P, r, g, hv, fun i Q hR => ?_⟩
      obtain ⟨f, hF⟩ := hx i Q hR
      exact ⟨f, M.bind_err hF⟩
    · obtain ⟨P1, f1, t1, g1, l1, o1⟩ := h.ok o s S a s1 hC hf ho h1
      obtain ⟨b, hb, hb'⟩ := key S a s1
      obtain ⟨P2, r, g2, hv, o2⟩ := (hk a (fun i => (b i).1) ⟨hb⟩).out.dead _ s1 (fun i => (b i).2) er trivial f1 t1 h2 ht
      refine ⟨P1 ++ P2, r, g1.trans g2, fun v hx => l1.names (hv v hx), fun i Q hR => ?_⟩
      rw [List.append_assoc] at hR
      rcases o1 i _ hR with hF | ⟨a', s1', e, he, hR1⟩
      · exact ⟨_, M.bind_err hF⟩
      · have hx := hb' i (a', s1') e he
        have := o2 i Q (by show R _ _ (b i).2; rw [hx]; exact hR1)
        show ∃ f, (m' i >>= k' i) (S i) = .error f
        rw [M.bind_ok e]
        simp only [hx] at this
        exact this

theorem sim_bind {k : α → PM β} {k' : ι → α → PM β} (h : Sim m m')
    (hk : ∀ a (b : ι → α), Rel a b → Sim (k a) (fun i => k' i (b i))) : Sim (m >>= k) (fun i => m' i >>= k' i) :=
  ⟨simAt_bind h.out hk⟩

/-! ### steps that scan nothing -/

theorem sim_quiet (h : ∀ s a s1, m s = .ok (a, s1) → (s1.scanner = s.scanner ∧ s1.current = s.current) ∧
    ∀ i Q s', R Q s s' → Out Q a s1 (m' i s'))
    (hb : ∀ s e, m s = .error e → ∀ i Q s', R Q s s' → Bad e (m' i s'))
    (hv : ∀ s e, m s = .error (.err e) → Pos.Plain e.errortype) : Sim m m' := by
  refine ⟨⟨?_, ?_, ?_⟩⟩
  · intro o s S a s1 _ hf ho hm
    obtain ⟨⟨h1, h3⟩, h2⟩ := h s a s1 hm
    refine ⟨[], ?_, by rw [h1]; exact ho.mono, by rw [h1]; exact .stop, .refl (by rw [h1]) h3, fun i Q hR => h2 i Q _ hR⟩
    unfold Ready
    rw [h1, h3]; exact hf
  · intro o s S e _ hf ho hm _
    exact ⟨[], _, .stop, .inr fun i Q hR => hb s e hm i Q _ hR⟩
  · intro o s S e _ hf ho hm _
    refine ⟨[], _, .stop, fun v hx => absurd hx ((hv s e hm).out v), fun i Q hR => ?_⟩
    rcases hb s _ hm i Q _ hR with hx | ⟨f, hx, _⟩
    · exact ⟨_, hx⟩
    · exact ⟨_, hx⟩

theorem sim_pure {a : α} {b : ι → α} (h : ∀ i, er a = er (b i)) : Sim (pure a : PM α) (fun i => pure (b i)) :=
  sim_quiet (fun s a' s1 hm => by
    cases hm
    exact ⟨⟨rfl, rfl⟩, fun i Q s' hR => Out.ok hR (h i)⟩) (fun _ _ hm => by cases hm) (fun _ _ hm => by cases hm)

/-- the right side is spelled otherwise -/
theorem sim_pure' {a : α} (h : ∀ i, ∃ b, m' i = pure b ∧ er a = er b) : Sim (pure a : PM α) m' :=
  sim_quiet (fun s a' s1 hm => by
    cases hm
    refine ⟨⟨rfl, rfl⟩, fun i Q s' hR => ?_⟩
    obtain ⟨b, e, hb⟩ := h i
    rw [e]
    exact Out.ok hR hb) (fun _ _ hm => by cases hm) (fun _ _ hm => by cases hm)

theorem sim_failed {f : Fail} (hv : ∀ e, f = .err e → Pos.Plain e.errortype)
    (h : ∀ i, ∃ f', m' i = M.fail f' ∧ f'.bare = f.bare) : Sim (M.fail f : PM α) m' :=
  sim_quiet (fun s a' s1 hm => by cases hm) (fun s e' hm => by
    cases hm
    intro i Q s' hR
    obtain ⟨e', h1, h2⟩ := h i
    exact .inr ⟨e', by rw [h1]; rfl, h2⟩) (fun s e hm => hv e (by cases hm; rfl))

instance sim_fuelled : Sim (M.fail .fuel : PM α) m' :=
  ⟨⟨fun _ s _ a s1 _ _ _ hm => by (cases hm), fun _ s _ e _ _ _ hm ht => by (cases hm; exact absurd rfl ht.1),
    fun _ s _ e _ _ _ hm ht => by (cases hm)⟩⟩
instance sim_panic {p : PanicSite} : Sim (ι := ι) (M.panic p : PM α) (fun _ => M.panic p) :=
  sim_failed (fun _ h => by cases h) fun _ => ⟨_, rfl, rfl⟩
instance sim_failErr {l c : Nat} {l' c' : ι → Nat} {k : ErrorType} [hk : Pos.Plain k] :
    Sim (M.fail (.err ⟨l, c, k⟩) : PM α) (fun i => M.fail (.err ⟨l' i, c' i, k⟩)) :=
  sim_failed (fun e h => by cases h; exact hk) fun _ => ⟨_, rfl, rfl⟩
instance sim_error {t : Token} {t' : ι → Token} {e : ErrorType} [hk : Pos.Plain e] : Sim (error t e : PM α) (fun i => error (t' i) e) :=
  sim_failed (fun e h => by cases h; exact hk) fun _ => ⟨_, rfl, rfl⟩

/-- on the right, some have run out of fuel -/
theorem sim_fuel {m'' : ι → PM α} (h : Sim m m'') (he : ∀ i, m' i = m'' i ∨ m' i = M.fail .fuel) : Sim m m' := by
  refine ⟨⟨?_, ?_, ?_⟩⟩
  · intro o s S a s1 hC hf ho hm
    obtain ⟨P, f1, t1, g1, l1, o1⟩ := h.out.ok o s S a s1 hC hf ho hm
    refine ⟨P, f1, t1, g1, l1, fun i Q hR => ?_⟩
    rcases he i with e | e
    · rw [e]; exact o1 i Q hR
    · rw [e]; exact .inl rfl
  · intro o s S e hC hf ho hm ht
    obtain ⟨P, r, g1, o1⟩ := h.out.err o s S e hC hf ho hm ht
    refine ⟨P, r, g1, o1.imp id fun o1 i Q hR => ?_⟩
    rcases he i with e | e
    · rw [e]; exact o1 i Q hR
    · rw [e]; exact .inl rfl
  · intro o s S e hC hf ho hm ht
    obtain ⟨P, r, g1, hv, o1⟩ := h.out.dead o s S e hC hf ho hm ht
    refine ⟨P, r, g1, hv, fun i Q hR => ?_⟩
    rcases he i with e | e
    · rw [e]; exact o1 i Q hR
    · rw [e]; exact ⟨_, rfl⟩

/-- the right side is written otherwise -/
theorem sim_eq {m'' : ι → PM α} (h : Sim m m'') (he : ∀ i, m' i = m'' i) : Sim m m' := sim_fuel h fun i => .inl (he i)

theorem simAt_ite {c : Prop} {c' : ι → Prop} [Decidable c] [∀ i, Decidable (c' i)] {n : PM α} {n' : ι → PM α}
    (h : ∀ i, c ↔ c' i) (h1 : c → SimAt C m m') (h2 : ¬ c → SimAt C n n') :
    SimAt C (if c then m else n) (fun i => if c' i then m' i else n' i) := by
  by_cases hc : c
  · rw [if_pos hc]
    rw [show (fun i => if c' i then m' i else n' i) = m' from funext fun i => if_pos ((h i).1 hc)]
    exact h1 hc
  · rw [if_neg hc]
    rw [show (fun i => if c' i then m' i else n' i) = n' from funext fun i => if_neg (fun x => hc ((h i).2 x))]
    exact h2 hc

theorem sim_ite {c : Prop} {c' : ι → Prop} [Decidable c] [∀ i, Decidable (c' i)] {n : PM α} {n' : ι → PM α}
    (h : ∀ i, c ↔ c' i) (h1 : c → Sim m m') (h2 : ¬ c → Sim n n') :
    Sim (if c then m else n) (fun i => if c' i then m' i else n' i) :=
  ⟨simAt_ite h (fun hc => (h1 hc).out) (fun hc => (h2 hc).out)⟩

theorem sim_when {c : Prop} {c' : ι → Prop} [Decidable c] [∀ i, Decidable (c' i)] {m : PM Unit} {m' : ι → PM Unit}
    (h : ∀ i, c ↔ c' i) (h1 : Sim m m') : Sim (M.when c m) (fun i => M.when (c' i) (m' i)) := by
  unfold M.when
  exact sim_ite h (fun _ => h1) (fun _ => sim_pure (fun _ => rfl))

open Classical in
/-- states, given that they are related -/
theorem simAt_state {k : Parser → PM α} {k' : ι → Parser → PM α}
    (h : ∀ (s : Parser) (sc : ι → Scanner) (p : ι → Place) (ms : ι → List Marker),
      SimAt (fun t => C t ∧ t = s.current) (k s)
        (fun i => k' i ⟨sc i, s.hasLineTerminator, s.current.at (p i), s.ctx, s.params, s.paramsStack, ms i⟩)) :
    SimAt C (M.get >>= k) (fun i => M.get >>= k' i) := by
  have key : ∀ (s : Parser) (S : ι → Parser), ∃ x : ι → Scanner × Place × List Marker, ∀ i Q, R Q s (S i) →
      S i = ⟨(x i).1, s.hasLineTerminator, s.current.at (x i).2.1, s.ctx, s.params, s.paramsStack, (x i).2.2⟩ := by
    intro s S
    have hp : ∀ i, ∃ x : Scanner × Place × List Marker, ∀ Q, R Q s (S i) →
        S i = ⟨x.1, s.hasLineTerminator, s.current.at x.2.1, s.ctx, s.params, s.paramsStack, x.2.2⟩ := by
      intro i
      by_cases hR : ∃ Q, R Q s (S i)
      · obtain ⟨Q, hR⟩ := hR
        generalize hS : S i = s' at hR
        cases hR with
        | @mk sc p ms _ _ => exact ⟨(sc, p, ms), fun _ _ => rfl⟩
      · exact ⟨(s.scanner, ⟨0, 0, 0, 0⟩, []), fun Q hQ => absurd ⟨Q, hQ⟩ hR⟩
    exact ⟨fun i => Classical.choose (hp i), fun i => Classical.choose_spec (hp i)⟩
  constructor
  · intro o s S a s1 hC hf ho hm
    obtain ⟨x, hx⟩ := key s S
    obtain ⟨P, f1, t1, g1, l1, o1⟩ := (h s (fun i => (x i).1) (fun i => (x i).2.1) (fun i => (x i).2.2)).ok o s S a s1 ⟨hC, rfl⟩ hf ho hm
    refine ⟨P, f1, t1, g1, l1, fun i Q hR => ?_⟩
    have := o1 i Q hR
    show Out Q a s1 (k' i (S i) (S i))
    rwa [← hx i _ hR] at this
  · intro o s S e hC hf ho hm ht
    obtain ⟨x, hx⟩ := key s S
    obtain ⟨P, r, g1, o1⟩ := (h s (fun i => (x i).1) (fun i => (x i).2.1) (fun i => (x i).2.2)).err o s S e ⟨hC, rfl⟩ hf ho hm ht
    refine ⟨P, r, g1, o1.imp id fun o1 i Q hR => ?_⟩
    have := o1 i Q hR
    show Bad e (k' i (S i) (S i))
    rwa [← hx i _ hR] at this
  · intro o s S e hC hf ho hm ht
    obtain ⟨x, hx⟩ := key s S
    obtain ⟨P, r, g1, hv, o1⟩ := (h s (fun i => (x i).1) (fun i => (x i).2.1) (fun i => (x i).2.2)).dead o s S e ⟨hC, rfl⟩ hf ho hm ht
    refine ⟨P, r, g1, hv, fun i Q hR => ?_⟩
    have := o1 i Q hR
    show ∃ f, k' i (S i) (S i) = .error f
    rwa [← hx i _ hR] at this

theorem sim_get {k : Parser → PM α} {k' : ι → Parser → PM α}
    (h : ∀ (s : Parser) (sc : ι → Scanner) (p : ι → Place) (ms : ι → List Marker),
      Sim (k s) (fun i => k' i ⟨sc i, s.hasLineTerminator, s.current.at (p i), s.ctx, s.params, s.paramsStack, ms i⟩)) :
    Sim (M.get >>= k) (fun i => M.get >>= k' i) :=
  ⟨simAt_state fun s sc p ms => (h s sc p ms).at⟩

/-- the current token -/
theorem simAt_cur {k : Token → PM α} {k' : ι → Token → PM α}
    (h : ∀ (t : Token) (p : ι → Place), SimAt (fun u => C u ∧ u = t) (k t) (fun i => k' i (t.at (p i)))) :
    SimAt C (cur >>= k) (fun i => cur >>= k' i) :=
  simAt_state (k := fun s => k s.current) (k' := fun i s => k' i s.current) fun s _ p _ => h s.current p

theorem sim_curBind {k : Token → PM α} {k' : ι → Token → PM α}
    (h : ∀ (t : Token) (p : ι → Place), Sim (k t) (fun i => k' i (t.at (p i)))) :
    Sim (cur >>= k) (fun i => cur >>= k' i) :=
  ⟨simAt_cur fun t p => (h t p).at⟩

theorem sim_modify {f : Parser → Parser} {f' : ι → Parser → Parser} (h1 : ∀ s, (f s).scanner = s.scanner ∧ (f s).current = s.current)
    (h : ∀ i Q s s', R Q s s' → R Q (f s) (f' i s')) : Sim (M.modify f : PM Unit) (fun i => M.modify (f' i)) :=
  sim_quiet (fun s a s1 hm => by
    cases hm
    exact ⟨h1 s, fun i Q s' hR => Out.ok (h i Q s s' hR) rfl⟩) (fun _ _ hm => by cases hm) (fun _ _ hm => by cases hm)

theorem sim_unwrap {p : PanicSite} {v : Option α} {v' : ι → Option α} (h : ∀ i, er v = er (v' i)) :
    Sim (M.unwrap p v : PM α) (fun i => M.unwrap p (v' i)) := by
  cases v with
  | none =>
    refine sim_eq (m := M.panic p) (m'' := fun _ => M.panic p) inferInstance fun i => ?_
    have := h i
    cases hv : v' i with
    | none => rfl
    | some b => rw [hv] at this; cases this
  | some a =>
    refine sim_pure' (a := a) fun i => ?_
    have := h i
    cases hv : v' i with
    | none => rw [hv] at this; cases this
    | some b =>
      rw [hv] at this
      exact ⟨b, rfl, Option.some.inj this⟩

theorem sim_ofExcept {x : Except Fail α} {y : ι → Except Fail α} (hp : ∀ e, x = .error (.err e) → Pos.Plain e.errortype)
    (h : ∀ i, erEx x = erEx (y i)) :
    Sim (M.ofExcept x : PM α) (fun i => M.ofExcept (y i)) := by
  cases x with
  | error f =>
    refine sim_failed (fun e h => hp e (by rw [h])) fun i => ?_
    have := h i
    cases hv : y i with
    | ok b => rw [hv] at this; cases this
    | error f' =>
      rw [hv] at this
      injection this with this
      exact ⟨f', rfl, this.symm⟩
  | ok a =>
    refine sim_pure' (a := a) fun i => ?_
    have := h i
    cases hv : y i with
    | error f => rw [hv] at this; cases this
    | ok b =>
      rw [hv] at this
      exact ⟨b, rfl, Except.ok.inj this⟩

theorem sim_budget {F : Nat → PM α} {F' : ι → Nat → PM α} (h : ∀ n (n' : ι → Nat), Sim (F n) (fun i => F' i (n' i))) :
    Sim (fun s => F (s.size + 1) s) (fun i s => F' i (s.size + 1) s) := by
  refine ⟨⟨?_, ?_, ?_⟩⟩
  · intro o s S a s1 hC hf ho hm
    exact (h (s.size + 1) (fun i => (S i).size + 1)).out.ok o s S a s1 hC hf ho hm
  · intro o s S a hC hf ho hm ht
    exact (h (s.size + 1) (fun i => (S i).size + 1)).out.err o s S a hC hf ho hm ht
  · intro o s S a hC hf ho hm ht
    exact (h (s.size + 1) (fun i => (S i).size + 1)).out.dead o s S a hC hf ho hm ht

instance sim_startSpan : Sim (ι := ι) startSpan (fun _ => startSpan) :=
  sim_modify (fun _ => ⟨rfl, rfl⟩) fun _ _ s _ h => by
    cases h with
    | mk h hm => exact .mk (s := { s with markerStack := _ :: s.markerStack }) h (by simp [hm])

instance sim_endSpan : Sim (ι := ι) endSpan (fun _ => endSpan) :=
  sim_quiet (fun s a s1 hm => by
    unfold endSpan at hm
    cases hms : s.markerStack with
    | nil => rw [hms] at hm; cases hm
    | cons x xs =>
      rw [hms] at hm
      cases hm
      refine ⟨⟨rfl, rfl⟩, fun i Q s' hR => ?_⟩
      cases hR with
      | @mk sc p ms h hl =>
        rw [hms] at hl
        cases ms with
        | nil => cases hl
        | cons y ys => exact Out.ok (s := { s with markerStack := xs }) (.mk h (by simpa using hl)) rfl) (fun s e hm i Q s' hR => by
    unfold endSpan at hm
    cases hms : s.markerStack with
    | nil =>
      rw [hms] at hm
      cases hm
      cases hR with
      | @mk sc p ms h hl =>
        rw [hms] at hl
        cases ms with
        | nil => exact .inr ⟨_, rfl, rfl⟩
        | cons y ys => cases hl
    | cons x xs => rw [hms] at hm; cases hm) (fun s e hm => by
    unfold endSpan at hm
    cases hms : s.markerStack with
    | nil => rw [hms] at hm; cases hm
    | cons x xs => rw [hms] at hm; cases hm)

instance sim_peekSpan : Sim (ι := ι) peekSpan (fun _ => peekSpan) :=
  sim_quiet (fun s a s1 hm => by
    unfold peekSpan at hm
    cases hms : s.markerStack with
    | nil => rw [hms] at hm; cases hm
    | cons x xs =>
      rw [hms] at hm
      cases hm
      refine ⟨⟨rfl, rfl⟩, fun i Q s' hR => ?_⟩
      cases hR with
      | @mk sc p ms h hl =>
        cases ms with
        | nil => rw [hms] at hl; cases hl
        | cons y ys => exact Out.ok (.mk h hl) rfl) (fun s e hm i Q s' hR => by
    unfold peekSpan at hm
    cases hms : s.markerStack with
    | nil =>
      rw [hms] at hm
      cases hm
      cases hR with
      | @mk sc p ms h hl =>
        rw [hms] at hl
        cases ms with
        | nil => exact .inr ⟨_, rfl, rfl⟩
        | cons y ys => cases hl
    | cons x xs => rw [hms] at hm; cases hm) (fun s e hm => by
    unfold peekSpan at hm
    cases hms : s.markerStack with
    | nil => rw [hms] at hm; cases hm
    | cons x xs => rw [hms] at hm; cases hm)

instance sim_saveParams : Sim (ι := ι) saveParams (fun _ => saveParams) :=
  sim_modify (fun _ => ⟨rfl, rfl⟩) fun _ _ s _ h => by
    cases h with
    | mk h hm => exact .mk (s := { s with paramsStack := s.params :: s.paramsStack }) h hm

instance sim_restoreParams : Sim (ι := ι) restoreParams (fun _ => restoreParams) :=
  sim_quiet (fun s a s1 hm => by
    unfold restoreParams at hm
    cases hms : s.paramsStack with
    | nil => rw [hms] at hm; cases hm
    | cons x xs =>
      rw [hms] at hm
      cases hm
      refine ⟨⟨rfl, rfl⟩, fun i Q s' hR => ?_⟩
      cases hR with
      | @mk sc p ms h hl =>
        unfold restoreParams
        rw [hms]
        exact Out.ok (s := { s with params := x, paramsStack := xs }) (.mk h hl) rfl) (fun s e hm i Q s' hR => by
    unfold restoreParams at hm
    cases hms : s.paramsStack with
    | nil =>
      rw [hms] at hm
      cases hm
      cases hR with
      | mk h hl =>
        unfold restoreParams
        rw [hms]
        exact .inr ⟨_, rfl, rfl⟩
    | cons x xs => rw [hms] at hm; cases hm) (fun s e hm => by
    unfold restoreParams at hm
    cases hms : s.paramsStack with
    | nil => rw [hms] at hm; cases hm
    | cons x xs => rw [hms] at hm; cases hm)

/-! ### the next token -/

theorem lookTok_says {t : Token} {c : Content} {l k st e : Nat} (ht : t = c.token l k st e) (h : lookTok t = true) : LooksAhead c := by
  have hi : IsTok t c := ⟨l, k, st, e, ht⟩
  unfold lookTok at h
  simp only [Bool.or_eq_true] at h
  rcases h with (h | h) | h
  · exact .inl (hi.isId h)
  · exact .inr (.inl (hi.isId h))
  · exact .inr (.inr (hi.isId h))

theorem toCount_look {n : Nat} {c : Content} (h : LooksAhead c) : toCount n c = 2 := if_pos h

theorem toCount_pos {n : Nat} {c : Content} (h : 2 ≤ n) : 1 ≤ toCount n c := by
  unfold toCount; split <;> omega

instance sim_advance {g : LexGoal} : Sim (ι := ι) (advance g) (fun _ => advance g) := by
  refine ⟨⟨?ok, ?err, ?dead⟩⟩
  case err =>
    intro o s S e _ hf ho hm ht
    unfold advance at hm
    split at hm
    · cases hm
    · next f hn =>
      cases hm
      exact ⟨[], _, .stop, .inl ⟨fun e h => Pos.next_stop' hf.1 (h ▸ hn), by simpa [anyOpens] using Scanner.next_stuck hf.1 ho hn ht.2.1⟩⟩
  case dead =>
    intro o s S e _ hf ho hm ht
    unfold advance at hm
    split at hm
    · cases hm
    · next f hn =>
      cases hm
      exact absurd (Pos.next_stop' hf.1 hn) ht
  intro o s S a s1 _ hf ho hm
  unfold advance at hm
  split at hm
  case h_2 => cases hm
  next t sc hn =>
  cases hm
  cases hu : s.scanner.unscanned with
  | none =>
    obtain ⟨c, b, k1, k2, k3, k4, k5, k6, ⟨kk, st, e, k7⟩, _, k8⟩ := Scanner.next_both hf.1 hu hn
    refine ⟨[⟨c, b⟩], ⟨k2, fun h => absurd k3 h⟩, ho.next k6, k1 o ho, ⟨⟨[s.current.value.toString], ?_⟩, [s.current.tokentype == .eof], ?_⟩, fun i Q hR => ?_⟩
    · simp [heard, wordsOf, hu, k3, k7, Pos.token_shown]
    · simp [ends, endsOf, hu, k3, k7, token_end]
    generalize S i = s' at hR
    cases hR with
    | @mk sc' p ms h hl =>
      obtain ⟨n, l, a1, a2, a3, a4, a5⟩ := h.ahead
      rcases a5 with ⟨_, hu', a5⟩ | ⟨u, _, _, a5, _⟩
      case inr => rw [hu] at a5; cases a5
      obtain ⟨q, sc1, b', j1, j2, j3, j4, j5, j6, j7, j8, j9, j10⟩ := k8 sc' n Q h.fresh hu' h.curly h.pos a1
      unfold advance
      dsimp only
      rw [j1]
      dsimp only
      have ht : t.lineNum = sc.line := by
        rw [k7]; cases c <;> rfl
      have e : (decide ((t.at q).lineNum > (s.current.at p).lineNum)) = decide (t.lineNum > s.current.lineNum) := by
        show decide (q.line > p.line) = _
        rw [ht, j7, a2, a3, k5, j5, decide_eq_decide]
        unfold alike at j9
        split at j9
        · omega
        · next hn => simp at hn; omega
      rw [e]
      refine Out.ok (s := { s with scanner := sc, current := t, hasLineTerminator := decide (t.lineNum > s.current.lineNum) })
        (.mk ⟨j2, j6, j8, toCount n c, 0, j10, ht, j7, .inl rfl, .inl ⟨k3, j3, fun hx => ?_⟩⟩ hl) rfl
      rw [toCount_look (lookTok_says k7 hx)]; exact Nat.le_refl _
  | some u =>
    unfold Scanner.next at hn
    rw [hu] at hn
    cases hn
    refine ⟨[], ⟨hf.1, fun h => absurd rfl h⟩, Safe.mono (s := { s.scanner with unscanned := none }) ho, .stop,
      ⟨⟨[s.current.value.toString], by simp [heard, wordsOf, hu]⟩, [s.current.tokentype == .eof], by simp [ends, endsOf, hu]⟩, fun i Q hR => ?_⟩
    generalize S i = s' at hR
    cases hR with
    | @mk sc' p ms h hl =>
      obtain ⟨n, l, a1, a2, a3, a4, a5⟩ := h.ahead
      rcases a5 with ⟨a5, _⟩ | ⟨u', q, k, a5, a6, a7, a8, a9, a10⟩
      case inl => rw [hu] at a5; cases a5
      rw [hu] at a5
      cases a5
      unfold advance Scanner.next
      dsimp only
      rw [a6]
      dsimp only
      have e : (decide ((t.at q).lineNum > (s.current.at p).lineNum)) = decide (t.lineNum > s.current.lineNum) := by
        show decide (q.line > p.line) = _
        rw [a7, a8, a2, a3, decide_eq_decide]
        omega
      rw [e]
      exact Out.ok (s := ⟨{ s.scanner with unscanned := none }, decide (t.lineNum > s.current.lineNum), t, s.ctx, s.params,
        s.paramsStack, s.markerStack⟩)
        (.mk ⟨h.fresh, h.curly, h.pos, n, k, a1, a7, a8, .inr a9, .inl ⟨rfl, rfl, a10⟩⟩ hl) rfl

omit [Env] in
theorem rel_tok {a : Token} {b : ι → Token} (h : Rel a b) : ∃ p : ι → Place, b = fun i => a.at (p i) := by
  refine ⟨fun i => ⟨(b i).lineNum, (b i).col, (b i).start, (b i).end⟩, funext fun i => ?_⟩
  have key : ∀ a t : Token, er a = er t → t = a.at ⟨t.lineNum, t.col, t.start, t.end⟩ := by
    intro a t h
    cases a; cases t
    simp only [er, Token.at, Token.mk.injEq] at h ⊢
    simp [h]
  exact key a (b i) (h.out i)

/-- the token that `advance` returns -/
theorem sim_advanceThen {g : LexGoal} {k : Token → PM α} {k' : ι → Token → PM α} (hk : ∀ t (p : ι → Place), Sim (k t) (fun i => k' i (t.at (p i)))) :
    Sim (advance g >>= k) (fun i => advance g >>= k' i) :=
  sim_bind inferInstance fun a b h => by
    obtain ⟨p, rfl⟩ := rel_tok h
    exact hk a p

theorem advance_then {g : LexGoal} {k : Token → PM α} (hk : ∀ t s, ∃ f, k t s = .error f) (s : Parser) :
    ∃ f, (advance g >>= k) s = .error f := by
  cases h : advance g s with
  | error f => exact ⟨f, M.bind_err h⟩
  | ok x => rw [M.bind_ok h]; exact hk _ _

theorem advance_inv {g : LexGoal} {s s1 : Parser} {t : Token} (h : advance g s = .ok (t, s1)) : t = s.current := by
  unfold advance at h
  split at h <;> cases h
  rfl

theorem lookTok_shown {t : Token} (h : lookTok t = true) :
    t.value.toString = cs!"async" ∨ t.value.toString = cs!"get" ∨ t.value.toString = cs!"set" := by
  have key : ∀ v, t.isId v = true → t.value.toString = v := by
    intro v hv
    unfold Token.isId at hv
    simp only [Bool.and_eq_true] at hv
    have h2 := hv.2
    rw [show t.value = .str v from of_decide_eq_true h2]; rfl
  unfold lookTok at h
  simp only [Bool.or_eq_true] at h
  rcases h with (h | h) | h
  · exact .inl (key _ h)
  · exact .inr (.inl (key _ h))
  · exact .inr (.inr (key _ h))

instance sim_errorCurrent {e : ErrorType} [hk : Pos.Plain e] : Sim (ι := ι) (errorCurrent e : PM α) (fun _ => errorCurrent e) := by
  have h : Sim (ι := ι) (errorCurrent e : PM α) (fun _ => errorCurrent e) := by
    unfold errorCurrent; exact sim_advanceThen fun _ _ => inferInstance
  refine ⟨⟨h.out.ok, h.out.err, fun o s S er _ hf ho hm ht => ?_⟩⟩
  refine ⟨[], _, .stop, fun v hv => ?_, fun i Q _ => advance_then (fun t s => ⟨_, rfl⟩) _⟩
  exfalso
  rcases Pos.bind_err_inv hm with hm | ⟨t, s1, _, hm⟩
  · unfold advance at hm
    split at hm
    · cases hm
    · next hn => cases hm; exact ht (Pos.next_stop' hf.1 hn)
  · cases hm
    exact hk.out v hv

instance sim_unexpectedCurrent : Sim (ι := ι) (unexpectedCurrent : PM α) (fun _ => unexpectedCurrent) := by
  constructor
  constructor
  · intro o s S a s1 _ hf ho hm
    obtain ⟨t, s2, _, hm⟩ := bind_ok_inv hm
    cases hm
  · intro o s S f _ hf ho hm ht
    rcases Pos.bind_err_inv hm with hm | ⟨t, s1, h1, hm⟩
    · obtain ⟨P, r, g, hx⟩ := (sim_advance (ι := ι) (g := .regExp)).out.err o s S f trivial hf ho hm ht
      refine ⟨P, r, g, hx.imp id fun hx i Q hR => ?_⟩
      rcases hx i Q hR with hx | ⟨f', hx, hf'⟩
      · exact .inl (M.bind_err hx)
      · exact .inr ⟨f', M.bind_err hx, hf'⟩
    · cases hm
      obtain ⟨P, f1, t1, g1, l1, o1⟩ := (sim_advance (ι := ι) (g := .regExp)).out.ok o s S t s1 trivial hf ho h1
      refine ⟨P, _, g1, .inr fun i Q hR => ?_⟩
      rcases o1 i Q hR with hx | ⟨t', s1', hx, he, _⟩
      · exact .inl (M.bind_err hx)
      · refine .inr ⟨_, (M.bind_ok hx).trans rfl, ?_⟩
        have : t'.value = t.value := (congrArg Token.value he).symm
        simp [Fail.bare, this]
  · intro o s S er _ hf ho hm ht
    refine ⟨[], _, .stop, fun v hv => ?_, fun i Q _ => advance_then (fun t s => ⟨_, rfl⟩) _⟩
    rcases Pos.bind_err_inv hm with hm | ⟨t, s1, h1, hm⟩
    · unfold advance at hm
      split at hm
      · cases hm
      · next hn => cases hm; exact absurd (Pos.next_stop' hf.1 hn) ht
    · have := advance_inv h1
      subst this
      cases hm
      cases hv
      refine ⟨[], ?_⟩
      cases hu : s.scanner.unscanned with
      | none => exact .inl (by simp [heard, wordsOf, hu])
      | some u => exact .inr ⟨lookTok_shown (hf.2 (by rw [hu]; simp)), u.value.toString, by simp [heard, wordsOf, hu]⟩

end Layout
end Giron

import Verif.Proofs.Layout.Sim
/-
Looking at the next token.
-/
namespace Giron
open M Spec
namespace Layout
open Parser
variable [Env] {α β : Type} [Er α] [Er β] {ι : Type} {C : Token → Prop}

/-- with the state saved -/
def saved (s : Scanner) : Scanner :=
  ⟨s.start, s.current, s.line, s.col, s.newline, s.rest, s.recordRaw, s.rawString, s.curly, s.unscanned,
    some ⟨s.start, s.current, s.line, s.col, s.newline, s.rawString, s.curly⟩⟩

/-- what looking ahead does -/
theorem peekToken_inv {s s1 : Parser} {u : Token} (h : peekToken s = .ok (u, s1)) :
    ∃ sc, Scanner.next .regExp (saved s.scanner) = .ok (u, sc) ∧
      s1 = { s with scanner := ⟨s.scanner.start, s.scanner.current, s.scanner.line, s.scanner.col, s.scanner.newline, sc.rest,
        sc.recordRaw, s.scanner.rawString, s.scanner.curly, some u, none⟩ } ∨ sc.state ≠ (saved s.scanner).state ∧ Scanner.next .regExp (saved s.scanner) = .ok (u, sc) := by
  unfold peekToken at h
  obtain ⟨_, s2, h3, h1⟩ := bind_ok_inv h
  obtain ⟨t', s3, h4, h1⟩ := bind_ok_inv h1
  obtain ⟨_, s4, h5, h1⟩ := bind_ok_inv h1
  cases h1
  cases h3
  unfold liftScanner at h4 h5
  split at h4
  · next t' sc hn =>
    cases h4
    refine ⟨sc, ?_⟩
    by_cases hst : sc.state = (saved s.scanner).state
    · refine .inl ⟨hn, ?_⟩
      unfold Scanner.restoreState at h5
      dsimp only at h5
      rw [hst] at h5
      unfold saved at h5
      cases h5
      rfl
    · exact .inr ⟨hst, hn⟩
  · cases h4

theorem peekToken_eq {s : Parser} {u : Token} {sc : Scanner}
    (h : Scanner.next .regExp (saved s.scanner) = .ok (u, sc))
    (hst : sc.state = (saved s.scanner).state) :
    peekToken s = .ok (u, { s with scanner := ⟨s.scanner.start, s.scanner.current, s.scanner.line, s.scanner.col,
      s.scanner.newline, sc.rest, sc.recordRaw, s.scanner.rawString, s.scanner.curly, some u, none⟩ }) := by
  unfold peekToken
  have h1 : liftScanner Scanner.saveState s = .ok ((), { s with scanner := (saved s.scanner) }) := rfl
  rw [M.bind_ok h1]
  have h2 : liftScanner (Scanner.next .regExp) { s with scanner := (saved s.scanner) } = .ok (u, { s with scanner := sc }) := by
    unfold liftScanner
    dsimp only
    rw [h]
  rw [M.bind_ok h2]
  have h3 : liftScanner (Scanner.restoreState u) { s with scanner := sc } = .ok ((), { s with scanner := ⟨s.scanner.start, s.scanner.current, s.scanner.line, s.scanner.col,
      s.scanner.newline, sc.rest, sc.recordRaw, s.scanner.rawString, s.scanner.curly, some u, none⟩ }) := by
    unfold liftScanner Scanner.restoreState
    dsimp only
    rw [hst]
    rfl
  rw [M.bind_ok h3]
  rfl

theorem peek_both {s s1 : Parser} {u : Token} (hl : lookTok s.current = true) (hf : Scanner.Fresh s.scanner)
    {o : Bool} (ho : Safe o s.scanner) (h : peekToken s = .ok (u, s1)) :
    ∃ P, Ready s1 ∧ Safe (o || anyOpens P) s1.scanner ∧ Goes o s.scanner.rest P s1.scanner.rest ∧ Lead s P s1 ∧
      ∀ Q s', R (P ++ Q) s s' → ∃ q s1', peekToken s' = .ok (u.at q, s1') ∧ R Q s1 s1' ∧
        (s.current.lineNum = u.lineNum ↔ s'.current.lineNum = q.line) := by
  obtain ⟨sc, h⟩ := peekToken_inv h
  cases hu : s.scanner.unscanned with
  | none =>
    have hn : Scanner.next .regExp (saved s.scanner) = .ok (u, sc) := by
      rcases h with h | h
      · exact h.1
      · exact h.2
    obtain ⟨c, b, k1, k2, k3, k4, k5, k6, ⟨kk, st, e, k7⟩, _, k8⟩ := Scanner.next_both (s := (saved s.scanner)) hf hu hn
    rcases h with ⟨_, rfl⟩ | h
    case inr => exact absurd k4 h.1
    refine ⟨[⟨c, b⟩], ⟨⟨k2.1, hf.2⟩, fun _ => hl⟩, Safe.mono (s := { s.scanner with rest := sc.rest }) ho, k1 o ho,
      ⟨⟨[], by simp [heard, wordsOf, hu, k7, Pos.token_shown]⟩, [], by simp [ends, endsOf, hu, k7, token_end]⟩, fun Q s' hR => ?_⟩
    cases hR with
    | @mk sc' p ms h hm =>
      obtain ⟨n, l, a1, a2, a3, a4, a5⟩ := h.ahead
      rcases a5 with ⟨_, hu', a5⟩ | ⟨u, _, _, a5, _⟩
      case inr => rw [hu] at a5; cases a5
      have h2 := a5 hl
      obtain ⟨q, sc1, b', j1, j2, j3, j4, j5, j6, j7, j8, j9, j10⟩ := k8 (saved sc') n Q h.fresh hu' h.curly h.pos a1
      have ht : u.lineNum = sc.line := by
        rw [k7]; cases c <;> rfl
      have hb : b = b' := by
        unfold alike at j9
        rw [if_pos (by simp; omega)] at j9
        exact j9
      replace k5 : sc.line = s.scanner.line + b := k5
      replace j5 : sc1.line = sc'.line + b' := j5
      refine ⟨q, _, peekToken_eq (s := ⟨sc', s.hasLineTerminator, s.current.at p, s.ctx, s.params, s.paramsStack, ms⟩) j1 j4, ?_, ?_⟩
      · refine R.mk (s := { s with scanner := ⟨s.scanner.start, s.scanner.current, s.scanner.line, s.scanner.col, s.scanner.newline, sc.rest,
          sc.recordRaw, s.scanner.rawString, s.scanner.curly, some u, none⟩ }) ⟨⟨j2.1, h.fresh.2⟩, h.curly, h.pos, toCount n c, l, j10, a2, a3, ?_, .inr ⟨u, q, b, rfl, rfl, ?_, ?_, ?_, ?_⟩⟩ hm
        · have := toCount_pos (c := c) h2
          exact .inr this
        · show u.lineNum = s.scanner.line + b
          omega
        · show q.line = sc'.line + b
          omega
        · exact toCount_pos h2
        · intro hx
          rw [toCount_look (lookTok_says k7 hx)]; exact Nat.le_refl _
      · show _ ↔ p.line = q.line
        omega
  | some v =>
    have hn : Scanner.next .regExp (saved s.scanner) = .ok (u, sc) := by
      rcases h with h | h
      · exact h.1
      · exact h.2
    unfold Scanner.next at hn
    rw [show (saved s.scanner).unscanned = some v from hu] at hn
    cases hn
    rcases h with ⟨_, rfl⟩ | h
    case inr => exact absurd rfl h.1
    refine ⟨[], ⟨⟨hf.1, hf.2⟩, fun _ => hl⟩, Safe.mono (s := s.scanner) ho, .stop, ⟨⟨[], by simp [heard, wordsOf, hu]⟩, [], by simp [ends, endsOf, hu]⟩, fun Q s' hR => ?_⟩
    cases hR with
    | @mk sc' p ms h hm =>
      obtain ⟨n, l, a1, a2, a3, a4, a5⟩ := h.ahead
      rcases a5 with ⟨a5, _⟩ | ⟨u', q, k, a5, a6, a7, a8, a9, a10⟩
      case inl => rw [hu] at a5; cases a5
      rw [hu] at a5
      cases a5
      have hn' : Scanner.next .regExp (saved sc') = .ok (u.at q, { saved sc' with unscanned := none }) := by
        unfold Scanner.next
        rw [show (saved sc').unscanned = _ from a6]
      refine ⟨q, _, peekToken_eq (s := ⟨sc', s.hasLineTerminator, s.current.at p, s.ctx, s.params, s.paramsStack, ms⟩) hn' rfl, ?_, ?_⟩
      · exact R.mk (s := { s with scanner := ⟨s.scanner.start, s.scanner.current, s.scanner.line, s.scanner.col, s.scanner.newline, s.scanner.rest,
          s.scanner.recordRaw, s.scanner.rawString, s.scanner.curly, some u, none⟩ }) ⟨⟨h.fresh.1, h.fresh.2⟩, h.curly, h.pos, n, l, a1, a2, a3, a4,
            .inr ⟨u, q, k, rfl, rfl, a7, a8, a9, a10⟩⟩ hm
      · show _ ↔ p.line = q.line
        omega

theorem peek_fail {s : Parser} {f : Fail} (h : peekToken s = .error f) (hf : f ≠ .panic .restoreUnsaved) :
    Scanner.next .regExp (saved s.scanner) = .error f := by
  unfold peekToken at h
  rcases Pos.bind_err_inv h with h | ⟨_, s2, h3, h⟩
  · cases h
  cases h3
  rcases Pos.bind_err_inv h with h | ⟨t', s3, h4, h⟩
  · unfold liftScanner at h
    split at h
    · cases h
    · next f hf => cases h; exact hf
  rcases Pos.bind_err_inv h with h | ⟨_, s4, h5, h⟩
  · unfold liftScanner Scanner.restoreState at h
    split at h
    · cases h
    · next f hf' =>
      split at hf' <;> cases hf'
      cases h
      exact absurd rfl hf
  · cases h

theorem _root_.Giron.Pos.peek_stop {s : Parser} {e : Error} (h : peekToken s = .error (.err e)) :
    Scanner.next .regExp (saved s.scanner) = .error (.err e) := peek_fail h (fun h => by cases h)

theorem er_at (t : Token) (p : Place) : er t = er (t.at p) := rfl

theorem peek_err {s : Parser} {f : Fail} {o : Bool} {X : List Said → Prop} (hf : Scanner.Fresh s.scanner) (ho : Safe o s.scanner)
    (h : peekToken s = .error f) (ht : Told f) :
    ∃ P r, Goes o s.scanner.rest P r ∧ ((Lexical f ∧ Stuck (o || anyOpens P) r) ∨ X P) := by
  have hn := peek_fail h ht.2.2
  exact ⟨[], _, .stop, .inl ⟨fun e h => Pos.next_stop' (s := saved s.scanner) hf (h ▸ hn),
    by simpa [anyOpens, saved] using Scanner.next_stuck (s := saved s.scanner) hf ho hn ht.2.1⟩⟩

theorem simAt_peek (hC : ∀ t, C t → lookTok t = true) : SimAt (ι := ι) C peekToken (fun _ => peekToken) := by
  refine ⟨?ok, fun o s S e _ hf ho hm ht => peek_err hf.1 ho hm ht,
    fun o s S e _ hf ho hm ht => absurd (Pos.next_stop' (s := saved s.scanner) hf.1 (Pos.peek_stop hm)) ht⟩
  intro o s S u s1 hc hf ho hm
  obtain ⟨P, h1, h0, h2, hl, h3⟩ := peek_both (hC _ hc) hf.1 ho hm
  refine ⟨P, h1, h0, h2, hl, fun i Q hR => ?_⟩
  obtain ⟨q, s1', e, hR', _⟩ := h3 Q _ hR
  exact .inr ⟨_, _, e, er_at _ _, hR'⟩

/-- is the next word `function`, and on the same line? -/
def functionNext : PM Bool := do
  let t ← cur
  let next ← peekToken
  pure (decide (next.isKw cs!"function" ∧ t.lineNum = next.lineNum))

theorem simAt_functionNext (hC : ∀ t, C t → lookTok t = true) : SimAt (ι := ι) C functionNext (fun _ => functionNext) := by
  refine ⟨?ok, fun o s S er _ hf ho hm ht => ?err, fun o s S er _ hf ho hm ht => ?dead⟩
  case err =>
    have e : ∀ s, functionNext s = (peekToken >>= fun u => pure (decide (u.isKw cs!"function" ∧ s.current.lineNum = u.lineNum)) : PM Bool) s :=
      fun _ => rfl
    rw [e] at hm
    rcases Pos.bind_err_inv hm with hm | ⟨u, s2, _, hm⟩
    · exact peek_err hf.1 ho hm ht
    · cases hm
  case dead =>
    have e : ∀ s, functionNext s = (peekToken >>= fun u => pure (decide (u.isKw cs!"function" ∧ s.current.lineNum = u.lineNum)) : PM Bool) s :=
      fun _ => rfl
    rw [e] at hm
    rcases Pos.bind_err_inv hm with hm | ⟨u, s2, _, hm⟩
    · exact absurd (Pos.next_stop' (s := saved s.scanner) hf.1 (Pos.peek_stop hm)) ht
    · cases hm
  intro o s S b s1 hc hf ho hm
  have e : ∀ s, functionNext s = (peekToken >>= fun u => pure (decide (u.isKw cs!"function" ∧ s.current.lineNum = u.lineNum)) : PM Bool) s :=
    fun _ => rfl
  rw [e] at hm
  obtain ⟨u, s2, hp, hm⟩ := bind_ok_inv hm
  cases hm
  obtain ⟨P, h1, h0, h2, hl, h3⟩ := peek_both (hC _ hc) hf.1 ho hp
  refine ⟨P, h1, h0, h2, hl, fun i Q hR => ?_⟩
  obtain ⟨q, s1', e1, hR', hl'⟩ := h3 Q _ hR
  refine .inr ⟨_, s1', (e (S i)).trans (M.bind_ok e1), ?_, hR'⟩
  show _ = decide ((u.at q).isKw cs!"function" ∧ (S i).current.lineNum = q.line)
  show decide (u.isKw cs!"function" ∧ s.current.lineNum = u.lineNum) = decide (u.isKw cs!"function" ∧ (S i).current.lineNum = q.line)
  rw [decide_eq_decide, hl']

theorem simAt_startSpan {k : PM α} {k' : ι → PM α} (h : SimAt C k k') :
    SimAt C (startSpan >>= fun _ => k) (fun i => startSpan >>= fun _ => k' i) := by
  have e : ∀ s : Parser, startSpan s = .ok ((), { s with markerStack := ⟨s.current.lineNum, s.current.col, s.current.start⟩ :: s.markerStack }) :=
    fun _ => rfl
  have key : ∀ {Q : List Said} {s s' : Parser}, R Q s s' →
      R Q { s with markerStack := ⟨s.current.lineNum, s.current.col, s.current.start⟩ :: s.markerStack }
        { s' with markerStack := ⟨s'.current.lineNum, s'.current.col, s'.current.start⟩ :: s'.markerStack } := by
    intro Q s s' hR
    cases hR with
    | mk h hm => exact .mk (s := { s with markerStack := _ :: s.markerStack }) h (by simp [hm])
  constructor
  · intro o s S a s1 hc hf ho hm
    obtain ⟨u, s2, h1, h2⟩ := bind_ok_inv hm
    cases h1
    obtain ⟨P, f1, t1, g1, l1, o1⟩ := h.ok o _ (fun i => { S i with markerStack := ⟨(S i).current.lineNum, (S i).current.col, (S i).current.start⟩ :: (S i).markerStack }) a s1 (by exact hc) (by exact hf) (by exact ho) h2
    refine ⟨P, f1, t1, g1, l1, fun i Q hR => ?_⟩
    show Out Q a s1 ((startSpan >>= fun _ => k' i) (S i))
    rw [M.bind_ok (e (S i))]
    exact o1 i Q (key hR)
  · intro o s S er hc hf ho hm ht
    rw [M.bind_ok (e s)] at hm
    obtain ⟨P, r, g1, o1⟩ := h.err o _ (fun i => { S i with markerStack := ⟨(S i).current.lineNum, (S i).current.col, (S i).current.start⟩ :: (S i).markerStack }) er (by exact hc) (by exact hf) (by exact ho) hm ht
    refine ⟨P, r, g1, o1.imp id fun o1 i Q hR => ?_⟩
    show Bad er ((startSpan >>= fun _ => k' i) (S i))
    rw [M.bind_ok (e (S i))]
    exact o1 i Q (key hR)
  · intro o s S er hc hf ho hm ht
    rw [M.bind_ok (e s)] at hm
    obtain ⟨P, r, g1, hv, o1⟩ := h.dead o _ (fun i => { S i with markerStack := ⟨(S i).current.lineNum, (S i).current.col, (S i).current.start⟩ :: (S i).markerStack }) er (by exact hc) (by exact hf) (by exact ho) hm ht
    refine ⟨P, r, g1, hv, fun i Q hR => ?_⟩
    show ∃ f, (startSpan >>= fun _ => k' i) (S i) = .error f
    rw [M.bind_ok (e (S i))]
    exact o1 i Q (key hR)

end Layout
end Giron

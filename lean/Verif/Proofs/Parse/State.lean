import Verif.Proofs.ScanSafe3
import Verif.Proofs.WF
import Verif.Model.Parser.Module
/-
The invariant of parser states, and what the utility methods do to it.
-/
namespace Giron
open M Spec
variable [Env]

/-- How the parser may fail on a text of `L` lines: errors point into the text; panics are those of the scanner
and the listed ones; the model's recursion budget is never exhausted. -/
def ParseFail (L : Nat) : Fail → Prop
  | .err e => 1 ≤ e.line ∧ e.line ≤ L
  | .panic p =>
    match p with
    | .escOverflow | .tokenEndUnderflow | .arrayLenUnderflow => Env.checked = true
    | .unterminatedTemplate | .tokenNotStr | .invalidPunctuator | .spanStack | .exprSpan | .importString => True
    | .unreachableArm line => line = 2965
    | _ => False
  | .fuel => False

theorem ScanFail.parse {L : Nat} {f : Fail} (h : ScanFail L f) : ParseFail L f := by
  cases f with
  | err e => exact h
  | fuel => exact h
  | panic p => rcases h with ⟨rfl, h⟩ | rfl | ⟨rfl, h⟩ <;> simp_all [ParseFail]

namespace Parser

/-- The parsing context of a state, apart from the position. -/
structure Cx where
  ctx : Context
  params : Params
  stack : List Params

/-- The invariant of parser states of a text of `L` lines. -/
structure Inv (L : Nat) (s : Parser) : Prop where
  pos : Pos L s.scanner
  cur : TokOk L s.current
  back : ∀ t, s.scanner.unscanned = some t → TokOk L t ∧ (t.tokentype = .eof → s.scanner.rest = [])
  eof : s.current.tokentype = .eof → s.scanner.rest = [] ∧ ∀ t, s.scanner.unscanned = some t → t.tokentype = .eof
  markers : ∀ m ∈ s.markerStack, LineOk L m

/-- `s` is a good state with context `c`, current token `t`, and size less than `n`. -/
structure St (L : Nat) (c : Cx) (n : Nat) (t : Token) (s : Parser) : Prop where
  inv : Inv L s
  ctx : s.ctx = c.ctx
  params : s.params = c.params
  stack : s.paramsStack = c.stack
  size : s.size < n
  current : s.current = t

variable {L : Nat} {c : Cx} {n : Nat} {t : Token} {s : Parser} {α β : Type}

omit [Env] in
theorem St.mono {m : Nat} (h : St L c n t s) (hm : n ≤ m) : St L c m t s :=
  ⟨h.inv, h.ctx, h.params, h.stack, Nat.lt_of_lt_of_le h.size hm, h.current⟩

omit [Env] in
theorem St.tok (h : St L c n t s) : TokOk L t := h.current ▸ h.inv.cur

/-- What `next` does: it returns the pushed back token or scans a new one. -/
theorem next_sat {sc : Scanner} (goal : LexGoal) (hp : Pos L sc)
    (hb : ∀ t, sc.unscanned = some t → TokOk L t ∧ (t.tokentype = .eof → sc.rest = [])) :
    Sat (ScanFail L) (Scanner.next goal) sc (fun t sc' =>
      TokOk L t ∧ Pos L sc' ∧ sc.line ≤ sc'.line ∧ sc'.state = sc.state ∧ sc'.unscanned = none ∧
      ∃ k, sc'.rest = sc.rest.drop k ∧
        ((∃ t0, sc.unscanned = some t0 ∧ t = t0 ∧ k = 0 ∧ (t.tokentype = .eof → sc.rest = [])) ∨
         (sc.unscanned = none ∧ ((t.tokentype = .eof ∧ sc'.rest = []) ∨
           (t.tokentype ≠ .eof ∧ sc'.rest.length < sc.rest.length))))) := by
  cases hu : sc.unscanned with
  | some t =>
    have e : Scanner.next goal sc = .ok (t, { sc with unscanned := none }) := by unfold Scanner.next; rw [hu]
    unfold Sat; rw [e]
    exact ⟨(hb t hu).1, hp, Nat.le_refl _, rfl, rfl, 0, by simp, Or.inl ⟨t, rfl, rfl, rfl, (hb t hu).2⟩⟩
  | none =>
    have e : Scanner.next goal sc = Scanner.scanFresh goal sc := by unfold Scanner.next; rw [hu]
    unfold Sat; rw [e]
    refine (Scanner.scanFresh_sat hp goal).mono ?_
    rintro t sc' ⟨h1, -, h3, h4, h5, h6, w, k, hw, hr, -, -, -, h7⟩
    refine ⟨h1, ⟨Nat.le_trans hp.1 h3, by rw [h4]; exact hp.2⟩, h3, h6, by rw [h5, hu], w + k, hr, Or.inr ⟨rfl, ?_⟩⟩
    rcases h7 with ⟨a, b, -⟩ | ⟨a, b⟩
    · exact Or.inl ⟨a, b⟩
    · exact Or.inr ⟨a, by rw [hr, List.length_drop]; omega⟩

/-- `advance` keeps the state good; it makes progress unless the input is exhausted. -/
theorem advance_sat' (goal : LexGoal) (h : St L c n t s) :
    Sat (ParseFail L) (advance goal) s (fun a s' => a = t ∧
      (∃ t', St L c n t' s') ∧ ∀ m, n = m + 1 → t.tokentype ≠ .eof → ∃ t', St L c m t' s') := by
  have hn := next_sat goal h.inv.pos h.inv.back
  unfold Sat at *
  cases hx : s.scanner.next goal with
  | error f =>
    have e : advance goal s = .error f := by unfold advance; rw [hx]
    rw [hx] at hn; rw [e]; exact hn.parse
  | ok p =>
    obtain ⟨t', sc'⟩ := p
    have e : advance goal s = .ok (s.current, { s with scanner := sc', current := t', hasLineTerminator := decide (t'.lineNum > s.current.lineNum) }) := by
      unfold advance; rw [hx]
    rw [hx] at hn; rw [e]
    obtain ⟨h1, h2, -, -, h5, k, hr, h6⟩ := hn
    have inv' : Inv L { s with scanner := sc', current := t', hasLineTerminator := decide (t'.lineNum > s.current.lineNum) } := by
      refine ⟨h2, h1, by simp [h5], ?_, h.inv.markers⟩
      intro he
      refine ⟨?_, by simp [h5]⟩
      rcases h6 with ⟨t0, -, -, rfl, hb⟩ | ⟨-, ⟨-, hb⟩ | ⟨hb, -⟩⟩
      · simp only [List.drop_zero] at hr; rw [hr]; exact hb he
      · exact hb
      · exact absurd he hb
    have hlen : sc'.rest.length ≤ s.scanner.rest.length := by rw [hr, List.length_drop]; omega
    have key : ∀ d, (d = 1 → s.current.tokentype ≠ .eof) → d ≤ 1 →
        size { s with scanner := sc', current := t', hasLineTerminator := decide (t'.lineNum > s.current.lineNum) } + d
          ≤ s.size := by
      intro d hd hd1
      unfold size
      simp only [h5]
      have e0 := h.inv.eof
      rcases h6 with ⟨t0, hu, rfl, rfl, -⟩ | ⟨hu, ⟨he, hb⟩ | ⟨he, hb⟩⟩
      · simp only [hu]
        by_cases hc : s.current.tokentype = .eof
        · have := (e0 hc).2 _ hu
          simp_all
          omega
        · simp only [List.drop_zero] at hr
          simp only [if_neg hc, hr]
          omega
      · simp only [hu, if_pos he, hb, List.length_nil]
        by_cases hc : s.current.tokentype = .eof
        · simp only [if_pos hc]
          have : d ≠ 1 := fun h1 => hd h1 hc
          omega
        · simp only [if_neg hc]; omega
      · simp only [hu, if_neg he]
        by_cases hc : s.current.tokentype = .eof
        · have := (e0 hc).1
          simp [this] at hb
        · simp only [if_neg hc]; omega
    refine ⟨h.current, ⟨t', inv', h.ctx, h.params, h.stack, ?_, rfl⟩, ?_⟩
    · have := key 0 (by omega) (by omega); have := h.size; omega
    · intro m hm ht
      refine ⟨t', inv', h.ctx, h.params, h.stack, ?_, rfl⟩
      have := key 1 (fun _ => by rw [h.current]; exact ht) (by omega); have := h.size; omega

theorem advance_sat (goal : LexGoal) (h : St L c (n + 1) t s) (ht : t.tokentype ≠ .eof) :
    Sat (ParseFail L) (advance goal) s (fun a s' => a = t ∧ ∃ t', St L c n t' s') :=
  (advance_sat' goal h).mono (fun _ _ ⟨h1, _, h3⟩ => ⟨h1, h3 n rfl ht⟩)

theorem advance_keep (goal : LexGoal) (h : St L c n t s) :
    Sat (ParseFail L) (advance goal) s (fun a s' => a = t ∧ ∃ t', St L c n t' s') :=
  (advance_sat' goal h).mono (fun _ _ ⟨h1, h2, _⟩ => ⟨h1, h2⟩)

/-! ### Errors never return -/

theorem error_sat {e : ErrorType} {t' : Token} {Q : α → Parser → Prop} (h : TokOk L t') :
    Sat (ParseFail L) (error t' e : PM α) s Q := ⟨h.2.1, h.2.2⟩

theorem unexpected_sat {t' : Token} {Q : α → Parser → Prop} (h : TokOk L t') :
    Sat (ParseFail L) (unexpected t' : PM α) s Q := error_sat h

theorem errorCurrent_sat {e : ErrorType} {Q : α → Parser → Prop} (h : St L c n t s) :
    Sat (ParseFail L) (errorCurrent e : PM α) s Q :=
  Sat.bind (advance_keep _ h) (fun _ _ ⟨h1, _⟩ => error_sat (h1 ▸ h.tok))

theorem unexpectedCurrent_sat {Q : α → Parser → Prop} (h : St L c n t s) :
    Sat (ParseFail L) (unexpectedCurrent : PM α) s Q :=
  Sat.bind (advance_keep _ h) (fun _ _ ⟨h1, _⟩ => unexpected_sat (h1 ▸ h.tok))

/-! ### One-step rules -/

theorem cur_bind {f : Token → PM α} {Q : α → Parser → Prop} (h : St L c n t s)
    (hf : Sat (ParseFail L) (f t) s Q) : Sat (ParseFail L) (cur >>= f) s Q :=
  Sat.bind (P := fun a s' => a = t ∧ s' = s) ⟨h.current, rfl⟩ (by rintro _ _ ⟨rfl, rfl⟩; exact hf)

theorem get_bind {f : Parser → PM α} {Q : α → Parser → Prop} (h : St L c n t s)
    (hf : ∀ s0 : Parser, s0.current = t → s0.ctx = c.ctx → s0.params = c.params → Sat (ParseFail L) (f s0) s Q) :
    Sat (ParseFail L) (get >>= f) s Q :=
  Sat.bind (P := fun a s' => a = s ∧ s' = s) ⟨rfl, rfl⟩
    (by rintro _ _ ⟨rfl, rfl⟩; exact hf _ h.current h.ctx h.params)

omit [Env] in
theorem LineOk_of_tok {t : Token} (h : TokOk L t) (col idx : Nat) : LineOk L ⟨t.lineNum, col, idx⟩ := h.2

theorem startSpan_bind {f : Unit → PM α} {Q : α → Parser → Prop} (h : St L c n t s)
    (hf : ∀ s', St L c n t s' → Sat (ParseFail L) (f ()) s' Q) : Sat (ParseFail L) (startSpan >>= f) s Q :=
  Sat.bind (P := fun _ s' => St L c n t s')
    ⟨⟨h.inv.pos, h.inv.cur, h.inv.back, h.inv.eof, by
      intro m hm
      rcases List.mem_cons.1 hm with rfl | hm
      · exact LineOk_of_tok h.inv.cur _ _
      · exact h.inv.markers m hm⟩, h.ctx, h.params, h.stack, h.size, h.current⟩
    (fun _ _ h' => hf _ h')

theorem peekSpan_bind {f : Span → PM α} {Q : α → Parser → Prop} (h : St L c n t s)
    (hf : ∀ sp, SpanOk L sp → Sat (ParseFail L) (f sp) s Q) : Sat (ParseFail L) (peekSpan >>= f) s Q := by
  refine Sat.bind (P := fun sp s' => SpanOk L sp ∧ s' = s) ?_ (by rintro sp _ ⟨h1, rfl⟩; exact hf sp h1)
  cases hm : s.markerStack with
  | nil => simp [Sat, peekSpan, hm, ParseFail]
  | cons m ms =>
    have e : peekSpan s = .ok (⟨m, endMarker s⟩, s) := by unfold peekSpan; rw [hm]
    unfold Sat; rw [e]
    exact ⟨h.inv.markers m (by simp [hm]), rfl⟩

theorem endSpan_sat (h : St L c n t s) :
    Sat (ParseFail L) endSpan s (fun sp s' => SpanOk L sp ∧ St L c n t s') := by
  cases hm : s.markerStack with
  | nil => simp [Sat, endSpan, hm, ParseFail]
  | cons m ms =>
    have e : endSpan s = .ok (⟨m, endMarker s⟩, { s with markerStack := ms }) := by unfold endSpan; rw [hm]
    unfold Sat; rw [e]
    exact ⟨h.inv.markers m (by simp [hm]), ⟨h.inv.pos, h.inv.cur, h.inv.back, h.inv.eof,
      fun m' hm' => h.inv.markers m' (by rw [hm]; exact List.mem_cons_of_mem _ hm')⟩,
      h.ctx, h.params, h.stack, h.size, h.current⟩

theorem endSpan_bind {f : Span → PM α} {Q : α → Parser → Prop} (h : St L c n t s)
    (hf : ∀ sp s', SpanOk L sp → St L c n t s' → Sat (ParseFail L) (f sp) s' Q) :
    Sat (ParseFail L) (endSpan >>= f) s Q :=
  Sat.bind (endSpan_sat h) (fun sp s' ⟨h1, h2⟩ => hf sp s' h1 h2)

/-- updating the context flags -/
theorem modifyCtx_bind {g : Context → Context} {f : Unit → PM α} {Q : α → Parser → Prop} (h : St L c n t s)
    (hf : ∀ s', St L { c with ctx := g c.ctx } n t s' → Sat (ParseFail L) (f ()) s' Q) :
    Sat (ParseFail L) (modify (fun s => { s with ctx := g s.ctx }) >>= f) s Q :=
  Sat.bind (P := fun _ s' => St L { c with ctx := g c.ctx } n t s')
    ⟨⟨h.inv.pos, h.inv.cur, h.inv.back, h.inv.eof, h.inv.markers⟩, by simp [h.ctx], h.params, h.stack, h.size,
      h.current⟩
    (fun _ _ h' => hf _ h')

end Parser
end Giron

import Verif.Proofs.Shift.Stmt
import Verif.Proofs.Frame.Walk
import Verif.Spec.Grammar
/-
Modules and strict scripts: the two runs.
-/
set_option maxRecDepth 20000
namespace Giron
open M Spec

namespace Parser
variable [Env] {α β : Type}

/-! ### imports and exports are imports and exports -/

/-- every result of `m` is an import or an export -/
def Mod (m : PM Node) : Prop := ∀ s a s', m s = .ok (a, s') → isImportExport a = true

theorem mod_bind {m : PM α} {k : α → PM Node} (h : ∀ a, Mod (k a)) : Mod (m >>= k) := by
  intro s b s' hb
  obtain ⟨a, s1, -, h2⟩ := bind_ok_inv hb
  exact h a _ _ _ h2

theorem mod_pure {a : Node} (h : isImportExport a = true) : Mod (pure a) := by
  intro s b s' hb
  cases hb
  exact h

theorem mod_ite {c : Prop} [Decidable c] {m n : PM Node} (h : Mod m) (h' : Mod n) : Mod (if c then m else n) := by
  split <;> assumption

theorem mod_unexpectedCurrent : Mod unexpectedCurrent := by
  intro s b s' hb
  unfold unexpectedCurrent at hb
  obtain ⟨a, s1, -, h2⟩ := bind_ok_inv hb
  cases h2

theorem mod_panic {p : PanicSite} : Mod (M.panic p) := by
  intro s b s' hb
  cases hb

/-- one step -/
macro "md1" : tactic => `(tactic| first
  | with_reducible exact mod_unexpectedCurrent
  | with_reducible exact mod_panic
  | with_reducible exact mod_pure rfl
  | with_reducible assumption
  | (with_reducible refine mod_ite ?_ ?_)
  | (refine mod_bind (fun _ => ?_)))

theorem mod_importFrom {l} : Mod (parseImportFrom l) := by
  unfold parseImportFrom; repeat md1

theorem mod_importDclr : Mod parseImportDclr := by
  have h := @mod_importFrom
  unfold parseImportDclr parseImportDefault
  repeat (first | exact mod_importFrom | md1)

theorem mod_exportDclr {r : Rec} : Mod (parseExportDclr r) := by
  unfold parseExportDclr parseExportDefault parseExportNamed parseExportAll
  repeat md1

/-! ### statements do not begin with `import` or `export` -/

/-- the keyword `import` or `export` -/
def IEKw (t : Token) : Prop := t.tokentype = .keyword ∧ (t.value = .str cs!"import" ∨ t.value = .str cs!"export")

/-- `m` fails at `import` and `export`. -/
def Bad (m : PM α) : Prop := ∀ s, IEKw s.current → ∃ f, m s = .error f

theorem bad_fail {f : Fail} : Bad (M.fail f : PM α) := fun _ _ => ⟨_, rfl⟩

theorem bad_bind {m : PM α} {k : α → PM β} (h : Bad m) : Bad (m >>= k) := by
  intro s hs
  obtain ⟨f, hf⟩ := h s hs
  exact ⟨f, M.bind_err hf⟩

theorem bad_span {m : Unit → PM α} (h : Bad (m ())) : Bad (startSpan >>= m) := fun _ hs => h _ hs

theorem bad_cur {k : Token → PM α} (h : ∀ t, IEKw t → Bad (k t)) : Bad (cur >>= k) := fun s hs => h _ hs s hs

theorem bad_get {k : Parser → PM α} (h : ∀ s, IEKw s.current → Bad (k s)) : Bad (M.get >>= k) := fun s hs => h s hs s hs

theorem bad_else {c : Prop} [Decidable c] {m n : PM α} (hc : ¬ c) (h : Bad n) : Bad (if c then m else n) := by
  rw [if_neg hc]; exact h

theorem bad_withParams {f : Params → Params} {m : PM α} (h : Bad m) : Bad (withParams f m) := by
  intro s hs
  obtain ⟨e, he⟩ := h { s with params := f s.params, paramsStack := s.params :: s.paramsStack } hs
  refine ⟨e, ?_⟩
  unfold withParams saveParams
  simp only [M.bind_apply, M.modify]
  rw [he]

theorem bad_unexpectedCurrent : Bad (unexpectedCurrent : PM α) := by
  intro s _
  unfold unexpectedCurrent
  rw [M.bind_apply]
  cases advance .regExp s with
  | error f => exact ⟨f, rfl⟩
  | ok p => exact ⟨_, rfl⟩

theorem bad_errorCurrent {e : ErrorType} : Bad (errorCurrent e : PM α) := by
  intro s _
  unfold errorCurrent
  rw [M.bind_apply]
  cases advance .regExp s with
  | error f => exact ⟨f, rfl⟩
  | ok p => exact ⟨_, rfl⟩

/-- close a condition at `import` or `export` -/
macro "iekw" h:ident : tactic => `(tactic| (
  obtain ⟨h1, h2⟩ := $h:ident
  rcases h2 with h2 | h2 <;>
  simp [Token.isKw, Token.isId, Token.isP, Token.matchesStr, Token.matchesPunc, Token.isIterationKw, Token.isIdOrKw,
    Token.isHoistableDclrKw, Token.isLexicalDclrKw, Token.isUpdateOp, Token.isUnaryOp, Token.isUnaryPunc,
    Token.isUnaryKeyword, Token.toStr?, isLiteralToken, h1, h2]))

variable {r : Rec}

theorem bad_idReference : Bad parseIdReference := by
  unfold parseIdReference
  refine bad_span ?_
  intro s hs
  rw [M.bind_apply]
  cases hc : strictReservedCheck s with
  | error f => exact ⟨f, rfl⟩
  | ok p =>
    obtain ⟨_, s1⟩ := p
    have h1 : s1.current = s.current := by
      unfold strictReservedCheck at hc
      obtain ⟨_, _, h0, hc⟩ := bind_ok_inv hc; cases h0
      split at hc
      · obtain ⟨b, s2, h2, hc⟩ := bind_ok_inv hc
        cases hb : s.current.isStrictReservedKw with
        | none => rw [hb] at h2; cases h2
        | some b' =>
          rw [hb] at h2
          cases h2
          split at hc
          · obtain ⟨e, he⟩ := bad_errorCurrent (α := Unit) (e := .unexpectedStrictReserved) s hs
            rw [he] at hc; cases hc
          · cases hc; rfl
      · cases hc; rfl
    have hs1 : IEKw s1.current := h1 ▸ hs
    refine bad_get (k := _) (fun s0 h0 => ?_) s1 hs1
    refine bad_else ?_ (bad_else ?_ (bad_else ?_ bad_unexpectedCurrent)) <;> iekw h0

theorem bad_primary : Bad (parsePrimaryExpr r) := by
  unfold parsePrimaryExpr
  refine bad_cur (fun t h => ?_)
  refine bad_else ?_ (bad_else ?_ (bad_else ?_ (bad_else ?_ ?_)))
  · iekw h
  · iekw h
  · iekw h
  · iekw h
  · rw [if_pos]
    · exact bad_idReference
    · iekw h

theorem bad_leftHandSide : Bad (parseLeftHandSideExpr r) := by
  unfold parseLeftHandSideExpr
  refine bad_cur (fun t h => bad_else (by iekw h) ?_)
  unfold parseCallExpr
  refine bad_span (bad_bind ?_)
  unfold parseCallHead
  refine bad_cur (fun t h => bad_else (by iekw h) ?_)
  unfold parseMemberExpr
  refine bad_bind ?_
  unfold parseMemberHead
  refine bad_cur (fun t h => bad_else (by iekw h) ?_)
  exact bad_primary

theorem bad_assignment : Bad (parseAssignmentExpr r) := by
  unfold parseAssignmentExpr
  refine bad_get (fun s h => bad_else (by iekw h) ?_)
  refine bad_span (bad_bind ?_)
  unfold parseConditionalExpr
  refine bad_span (bad_bind ?_)
  unfold parseBinaryExpr
  refine bad_span (bad_bind ?_)
  unfold parseExponentiationExpr
  refine bad_get (fun s h => ?_)
  have hu : s.current.isUnaryOp s.params.hasAwait = some false := by iekw h
  rw [hu]
  show Bad (parsePow r)
  unfold parsePow
  refine bad_span (bad_bind ?_)
  unfold parseUpdateExpr
  refine bad_cur (fun t h => bad_else (by iekw h) ?_)
  unfold parsePostfix
  refine bad_span (bad_cur fun t h => bad_bind ?_)
  exact bad_leftHandSide

theorem bad_item {n : Nat} : Bad (run n).stmtListItem := by
  cases n with
  | zero => exact bad_fail
  | succ n =>
    show Bad (parseStmtListItem (run n))
    unfold parseStmtListItem
    refine bad_cur (fun t h => ?_)
    iterate 17 (refine bad_else (by iekw h) ?_)
    unfold parseExpressionOrLabelled
    refine bad_span (bad_bind (bad_withParams ?_))
    unfold parseExpression
    refine bad_span (bad_bind ?_)
    cases n with
    | zero => exact bad_fail
    | succ n => exact bad_assignment

/-! ### the two runs -/

variable {μ : Mode} [Mv α]

theorem sim_moduleParams {m m' : PM α} (h : Sim μ m m') (hf : ∀ s a s', m s = .ok (a, s') → s'.params = s.params)
    {s s' : Parser} (hs : R μ s s') (hp : s.params = Params.new) :
    Out μ s s' (withParams moduleParams m s) (m' s') := by
  have e : withParams moduleParams m s = match m { s with paramsStack := s.params :: s.paramsStack } with
      | .ok (a, t) => (restoreParams >>= fun _ => pure a) t
      | .error e => .error e := by
    unfold withParams saveParams
    have : moduleParams s.params = s.params := by rw [hp]; rfl
    simp only [M.bind_apply, M.modify]
    rw [this]
    cases m { s with paramsStack := s.params :: s.paramsStack } <;> rfl
  rw [e]
  have hR : R μ { s with paramsStack := s.params :: s.paramsStack } s' := by
    cases hs with | mk h => exact .mk h
  rcases h.out _ _ hR with h | h | ⟨h, hx⟩ | ⟨f, h, h'⟩ | ⟨a, t, t', h, h', hR, h1, h2⟩
  · rw [h]; exact .inl rfl
  · rw [h]; exact .inr (.inl rfl)
  · rw [h]; exact .inr (.inr (.inl ⟨rfl, hx⟩))
  · rw [h, h']; exact Out.err rfl
  · have h1 : t.paramsStack = s.params :: s.paramsStack := h1
    have h3 : t.params = s.params := hf { s with paramsStack := s.params :: s.paramsStack } _ _ h
    rw [h, h']
    have e : (restoreParams >>= fun _ => (pure a : PM α)) t = .ok (a, { t with paramsStack := s.paramsStack }) := by
      rw [M.bind_apply]
      unfold restoreParams
      rw [h1, ← h3]
      rfl
    dsimp only
    rw [e]
    refine Out.ok ?_ rfl rfl h2
    cases hR with | mk hm => exact .mk hm

/-- items: the two runs do the same, or the second fails while the first reads an import or export -/
theorem items_out {r r' : Rec} [RecSim μ r r'] [RecFr r] (hb : Bad r'.stmtListItem) :
    ∀ (n : Nat) (s s' : Parser), R μ s s' → s.params = Params.new →
      Out μ s s' (untilEofF (parseModuleItem r) n s) (untilEofF r'.stmtListItem n s') ∨
      ((∃ f, untilEofF r'.stmtListItem n s' = .error f) ∧
        ∀ l t, untilEofF (parseModuleItem r) n s = .ok (l, t) → ∃ a ∈ l, isImportExport a = true) := by
  intro n
  induction n with
  | zero => intro s s' _ _; exact .inl (.inl rfl)
  | succ n ih =>
    intro s s' hs hp
    unfold untilEofF
    have hc : (s'.current.tokentype = .eof) ↔ s.current.tokentype = .eof := by cases hs; rfl
    rw [M.bind_ok (show cur s = .ok (s.current, s) from rfl), M.bind_ok (show cur s' = .ok (s'.current, s') from rfl)]
    by_cases he : s.current.tokentype = .eof
    · rw [if_pos he, if_pos (hc.2 he)]
      exact .inl (Out.ok hs rfl rfl rfl)
    rw [if_neg he, if_neg (fun h => he (hc.1 h))]
    by_cases hk : IEKw s.current
    · right
      have hk' : IEKw s'.current := by cases hs; exact hk
      obtain ⟨f, hf⟩ := hb s' hk'
      refine ⟨⟨f, M.bind_err hf⟩, ?_⟩
      intro l t h
      obtain ⟨a, s1, h1, h⟩ := bind_ok_inv h
      obtain ⟨xs, s2, h2, h⟩ := bind_ok_inv h
      cases h
      refine ⟨a, List.mem_cons_self, ?_⟩
      unfold parseModuleItem at h1
      rw [M.bind_ok (show cur s = .ok (s.current, s) from rfl)] at h1
      split at h1
      · exact mod_importDclr _ _ _ h1
      · rename_i hi
        rw [if_pos] at h1
        · exact mod_exportDclr _ _ _ h1
        · obtain ⟨k1, k2 | k2⟩ := hk
          · exact absurd (by simp [Token.isKw, Token.matchesStr, k1, k2]) hi
          · simp [Token.isKw, Token.matchesStr, k1, k2]
    · have hi : parseModuleItem r s = withParams moduleParams r.stmtListItem s := by
        unfold parseModuleItem
        rw [M.bind_ok (show cur s = .ok (s.current, s) from rfl), if_neg, if_neg]
        · intro h
          simp only [Token.isKw, Token.matchesStr, Bool.and_eq_true, decide_eq_true_eq, beq_iff_eq] at h
          exact hk ⟨h.1, .inr h.2⟩
        · intro h
          simp only [Token.isKw, Token.matchesStr, Bool.and_eq_true, decide_eq_true_eq, beq_iff_eq] at h
          exact hk ⟨h.1, .inl h.2⟩
      have h0 := sim_moduleParams (μ := μ) (m := r.stmtListItem) (m' := r'.stmtListItem) inferInstance
        (fun s a s' h => ((inferInstance : Fr r.stmtListItem).out _ _ _ h).2.1) hs hp
      rw [← hi] at h0
      rcases h0 with h | h | ⟨h, hx⟩ | ⟨f, h, h'⟩ | ⟨a, t, t', h, h', hR, h1, h2⟩
      · exact .inl (.inl (M.bind_err h))
      · exact .inl (.inr (.inl (M.bind_err h)))
      · exact .inl (.inr (.inr (.inl ⟨M.bind_err h, hx⟩)))
      · rw [M.bind_err h, M.bind_err h']; exact .inl (Out.err rfl)
      · have hp' : t.params = Params.new := by
          rw [← hp]; exact ((fr_parseModuleItem (r := r)).out _ _ _ h).2.1
        rw [M.bind_ok h, M.bind_ok h']
        rcases ih t t' hR hp' with (h | h | ⟨h, hx⟩ | ⟨f, h, h'⟩ | ⟨b, u, u', h, h', hR', h1', h2'⟩) | ⟨⟨f, h⟩, hb⟩
        · exact .inl (.inl (M.bind_err h))
        · exact .inl (.inr (.inl (M.bind_err h)))
        · exact .inl (.inr (.inr (.inl ⟨M.bind_err h, hx⟩)))
        · rw [M.bind_err h, M.bind_err h']; exact .inl (Out.err rfl)
        · rw [M.bind_ok h, M.bind_ok h']
          exact .inl (Out.ok hR' rfl (h1'.trans h1) (h2'.trans h2))
        · right
          refine ⟨⟨f, M.bind_err h⟩, ?_⟩
          intro l v hl
          obtain ⟨xs, s2, h2, hl⟩ := bind_ok_inv hl
          cases hl
          obtain ⟨c, hc, hm⟩ := hb _ _ h2
          exact ⟨c, List.mem_cons_of_mem _ hc, hm⟩

/-- the whole module and the whole script -/
theorem body_out {r r' : Rec} [RecSim μ r r'] [RecFr r] (hb : Bad r'.stmtListItem) (hx : μ.extra = []) {s s' : Parser}
    (hs : R μ { s with ctx := { s.ctx with strict := true } } s') (hp : s.params = Params.new) :
    parseModuleBody r s = .error .fuel ∨ parseScriptBody r' s' = .error .fuel ∨
    (∃ f, parseModuleBody r s = .error f ∧ parseScriptBody r' s' = .error (f.moved μ.ℓ)) ∨
    (∃ b sp t t', parseModuleBody r s = .ok (.program b cs!"module" sp, t) ∧
      parseScriptBody r' s' = .ok (.program (mv μ.d μ.ℓ b) cs!"script" (mv μ.d μ.ℓ sp), t')) ∨
    ((∃ f, parseScriptBody r' s' = .error f) ∧
      ∀ b sp t, parseModuleBody r s = .ok (.program b cs!"module" sp, t) → ∃ a ∈ b, isImportExport a = true) := by
  unfold parseModuleBody parseScriptBody
  have e1 : startSpan s = .ok ((), { s with markerStack := ⟨s.current.lineNum, s.current.col, s.current.start⟩ :: s.markerStack }) := rfl
  have e1' : startSpan s' = .ok ((), { s' with markerStack := ⟨s'.current.lineNum, s'.current.col, s'.current.start⟩ :: s'.markerStack }) := rfl
  rw [M.bind_ok e1, M.bind_ok e1', M.bind_ok (show (M.modify fun s : Parser => { s with ctx := { s.ctx with strict := true } }) _ =
    .ok ((), _) from rfl)]
  dsimp only
  have hs1 : R μ (⟨s.scanner, s.hasLineTerminator, s.current, { s.ctx with strict := true }, s.params, s.paramsStack,
      ⟨s.current.lineNum, s.current.col, s.current.start⟩ :: s.markerStack⟩)
      { s' with markerStack := ⟨s'.current.lineNum, s'.current.col, s'.current.start⟩ :: s'.markerStack } := by
    cases hs with
    | mk h => exact R.mk (s := ⟨s.scanner, s.hasLineTerminator, s.current, { s.ctx with strict := true }, s.params, s.paramsStack,
      _ :: s.markerStack⟩) h
  generalize hg : (⟨s.scanner, s.hasLineTerminator, s.current, { s.ctx with strict := true }, s.params, s.paramsStack,
      ⟨s.current.lineNum, s.current.col, s.current.start⟩ :: s.markerStack⟩ : Parser) = s1 at *
  generalize { s' with markerStack := ⟨s'.current.lineNum, s'.current.col, s'.current.start⟩ :: s'.markerStack } = s1' at *
  have hp1 : s1.params = Params.new := by rw [← hg]; exact hp
  have h0 := sim_moduleParams (μ := μ) (m := parseDirectivePrologues r) (m' := parseDirectivePrologues r') inferInstance
    (fun s a s' h => (frS_parseDirectivePrologues.out _ _ _ h).2.2.1) hs1 hp1
  rcases h0 with h | h | ⟨h, hx'⟩ | ⟨f, h, h'⟩ | ⟨a, t, t', h, h', hR, -, -⟩
  · exact .inl (M.bind_err h)
  · exact .inr (.inl (M.bind_err h))
  · exact absurd hx hx'
  · exact .inr (.inr (.inl ⟨f, M.bind_err h, M.bind_err h'⟩))
  have hp2 : t.params = Params.new := by
    rw [← hp1]; exact ((frS_withParams frS_parseDirectivePrologues).out _ _ _ h).2.2.1
  rw [M.bind_ok h, M.bind_ok h']
  have hi := items_out (μ := μ) (r := r) hb (t.size + 1) t t' hR hp2
  have hz := hR.size
  have e2 : untilEof (parseModuleItem r) t = untilEofF (parseModuleItem r) (t.size + 1) t := rfl
  have e3 : untilEof r'.stmtListItem t' = untilEofF r'.stmtListItem (t.size + 1) t' := by rw [← hz]; rfl
  rw [← e2, ← e3] at hi
  rcases hi with (h | h | ⟨h, hx'⟩ | ⟨f, h, h'⟩ | ⟨b, u, u', h, h', hR', -, -⟩) | ⟨⟨f, h⟩, hd⟩
  · exact .inl (M.bind_err h)
  · exact .inr (.inl (M.bind_err h))
  · exact absurd hx hx'
  · exact .inr (.inr (.inl ⟨f, M.bind_err h, M.bind_err h'⟩))
  · rw [M.bind_ok h, M.bind_ok h']
    rcases (sim_endSpan (μ := μ)).out _ _ hR' with h | h | ⟨h, hx'⟩ | ⟨f, h, h'⟩ | ⟨c, v, v', h, h', hR'', -, -⟩
    · exact .inl (M.bind_err h)
    · exact .inr (.inl (M.bind_err h))
    · exact absurd hx hx'
    · exact .inr (.inr (.inl ⟨f, M.bind_err h, M.bind_err h'⟩))
    · rw [M.bind_ok h, M.bind_ok h']
      refine .inr (.inr (.inr (.inl ⟨a ++ b, c, v, v', rfl, ?_⟩)))
      rw [show mv μ.d μ.ℓ (a ++ b) = mv μ.d μ.ℓ a ++ mv μ.d μ.ℓ b from List.map_append]
      rfl
  · refine .inr (.inr (.inr (.inr ⟨⟨f, M.bind_err h⟩, ?_⟩)))
    intro b sp v hm
    obtain ⟨l, w, h1, hm⟩ := bind_ok_inv hm
    obtain ⟨_, w', h2, hm⟩ := bind_ok_inv hm
    cases hm
    obtain ⟨c, hc, hcm⟩ := hd _ _ h1
    exact ⟨c, List.mem_append_right _ hc, hcm⟩

end Parser
end Giron

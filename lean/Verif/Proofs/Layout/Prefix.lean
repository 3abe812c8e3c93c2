import Verif.Proofs.Layout.Top
import Verif.Proofs.Layout.Barrier
import Verif.Proofs.Spell.Module
import Verif.Spec.Reasons
/-
The statements at the beginning of a program depend only on the words up to the one after them.
-/
namespace Giron
open M Spec

namespace Layout
open Parser
variable [Env] {α β : Type} [Er α] [Er β] {κ : Type}

/-- one choice of words for all runs on the right -/
theorem uni {m : PM α} {m' : κ → PM α} (h : Sim (ι := κ × Parser) m (fun i => m' i.1)) {o : Bool} {s s1 : Parser} {a : α}
    (hf : Ready s) (ho : Safe o s.scanner) (hm : m s = .ok (a, s1)) :
    ∃ P, Ready s1 ∧ Safe (o || anyOpens P) s1.scanner ∧ Goes o s.scanner.rest P s1.scanner.rest ∧ Lead s P s1 ∧
      ∀ k s' Q, R (P ++ Q) s s' → Out Q a s1 (m' k s') := by
  obtain ⟨P, h1, h2, h3, h4, h5⟩ := h.out.ok o s (fun i => i.2) a s1 trivial hf ho hm
  exact ⟨P, h1, h2, h3, h4, fun k s' Q hR => h5 (k, s') Q hR⟩

/-- the list begins with these statements, but for positions -/
def StartsLike (pre l : List Node) : Prop := ∃ pre' more, l = pre' ++ more ∧ pre.map bareNode = pre'.map bareNode

/-- on the way from `s`, the state `s1` is the one after the statements `pre` -/
structure Half (o : Bool) (s : Parser) (past : List Word) (w : Word) (text : Str) (pre : List Node) (P : List Said) (s1 : Parser) : Prop where
  ready : Ready s1
  goes : Goes o s.scanner.rest P s1.scanner.rest
  lead : Lead s P s1
  more : s1.current.tokentype ≠ .eof
  reads : ∃ ms past' w' text', Stands s1 past' w' text' ∧ Passes past w text ms past' w' text' ∧ Spell.nodes pre ms

/-- If `m` succeeds with a list of statements, `pre` and some more, there are words up to the one after `pre`, such that the
run on the right, which begins with these words, fails or succeeds with a list that begins with `pre`. -/
def Part (m : PM α) (m' : κ → PM α) (f : α → List Node) : Prop :=
  ∀ (o : Bool) (s : Parser) (a : α) (s2 : Parser) (past : List Word) (w : Word) (text : Str) (pre post : List Node), Ready s →
    Safe o s.scanner → Stands s past w text → m s = .ok (a, s2) → f a = pre ++ post → post ≠ [] →
    ∃ P s1, Half o s past w text pre P s1 ∧
      ∀ k s' Q a' s'', R (P ++ Q) s s' → m' k s' = .ok (a', s'') → StartsLike pre (f a')

omit [Er α] in
theorem StartsLike.of_eq {pre l : List Node} {f : α → List Node} {a : α} (h : StartsLike pre l) (he : f a = l) : StartsLike pre (f a) := he ▸ h

omit [Er β] in
/-- a step that reads nothing -/
theorem part_skip {m : PM Unit} {m' : κ → PM Unit} {n : Unit → PM β} {n' : κ → Unit → PM β} {f : β → List Node}
    (h : Sim (ι := κ × Parser) m (fun i => m' i.1)) (hq : Quiet m) (hn : Part (n ()) (fun k => n' k ()) f) :
    Part (m >>= n) (fun k => m' k >>= n' k) f := by
  intro o s b s2 past w text pre post hf ho hs hm he hp
  obtain ⟨a, s1, h1, h2⟩ := bind_ok_inv hm
  obtain ⟨P, k1, k2, k3, k4, k5⟩ := uni h hf ho h1
  obtain ⟨q1, q2, q3⟩ := hq.out _ _ _ h1
  have hs1 := hs.of_eq q1 q2 q3
  obtain ⟨P', s1', ⟨j1, j2, j3, j4, j5⟩, j6⟩ := hn _ _ _ _ _ _ _ _ _ k1 k2 hs1 h2 he hp
  refine ⟨P ++ P', s1', ⟨j1, k3.trans j2, k4.trans j3, j4, j5⟩, fun k s' Q a' s'' hR hx => ?_⟩
  obtain ⟨u, sm, h1', h2'⟩ := bind_ok_inv hx
  rw [List.append_assoc] at hR
  rcases k5 k s' _ hR with hF | ⟨_, sn, e, _, hR'⟩
  · rw [hF] at h1'; cases h1'
  · rw [e] at h1'; cases h1'
    exact j6 k _ Q a' s'' hR' h2'

omit [Er α] [Er β] in
/-- steps after -/
theorem part_tail {m : PM α} {m' : κ → PM α} {n : α → PM β} {n' : κ → α → PM β} {f : α → List Node} {g : β → List Node}
    (h : Part m m' f) (hn : ∀ a s b s', n a s = .ok (b, s') → g b = f a) (hn' : ∀ k a s b s', n' k a s = .ok (b, s') → g b = f a) :
    Part (m >>= n) (fun k => m' k >>= n' k) g := by
  intro o s b s2 past w text pre post hf ho hs hm he hp
  obtain ⟨a, s1, h1, h2⟩ := bind_ok_inv hm
  obtain ⟨P, s1', hh, j6⟩ := h _ _ _ _ _ _ _ _ _ hf ho hs h1 ((hn _ _ _ _ h2).symm.trans he) hp
  refine ⟨P, s1', hh, fun k s' Q a' s'' hR hx => ?_⟩
  obtain ⟨u, sm, h1', h2'⟩ := bind_ok_inv hx
  rw [hn' _ _ _ _ _ h2']
  exact j6 k _ Q _ _ hR h1'

/-! ### loops -/

/-- a loop that goes on while the current token is such -/
def whileF (g : Token → Prop) [DecidablePred g] (f : PM Node) : Nat → PM (List Node)
  | 0 => fail .fuel
  | n + 1 => do
    let t ← cur
    if g t then do
      let x ← f
      let xs ← whileF g f n
      pure (x :: xs)
    else pure []

omit [Env] in
theorem untilEofF_while {f : PM Node} (n : Nat) : untilEofF f n = whileF (fun t => ¬ t.tokentype = .eof) f n := by
  induction n with
  | zero => rfl
  | succ n ih => unfold untilEofF whileF; rw [ih]; simp only [ite_not]

theorem prologues_while {r : Rec} (n : Nat) : directiveProloguesF r n = whileF (fun t => t.tokentype = .stringLiteral) (parseDirective r) n := by
  induction n with
  | zero => rfl
  | succ n ih => unfold directiveProloguesF whileF; rw [ih]

theorem part_while {g : Token → Prop} [DecidablePred g] {m : PM Node} {m' : κ → PM Node} (h : Sim (ι := κ × Parser) m (fun i => m' i.1))
    (hr : ∀ c l k st e, g (c.token l k st e) → Reads c m fun a ms _ => Spell.node a ms) (ha : ∀ t p, g (t.at p) ↔ g t)
    (hg : ∀ t, g t → t.tokentype ≠ .eof) (n : Nat) :
    Part (κ := κ × Nat) (whileF g m n) (fun k => whileF g (m' k.1) k.2) id := by
  induction n with
  | zero => intro o s b s2 past w text pre post hf ho hs hm; cases hm
  | succ n ih =>
    intro o s l s2 past w text pre post hf ho hs hm he hp
    change l = pre ++ post at he
    unfold whileF at hm
    obtain ⟨t, s0, h1, h2⟩ := bind_ok_inv hm
    cases h1
    have hc : g s.current := by
      refine Decidable.byContradiction fun hc => ?_
      rw [if_neg hc] at h2
      cases h2
      exact absurd (List.append_eq_nil_iff.1 he.symm).2 hp
    rw [if_pos hc] at h2
    cases pre with
    | nil =>
      exact ⟨[], s, ⟨hf, .stop, .refl rfl rfl, hg _ hc, [], past, w, text, hs, .here, rfl⟩, fun k s' Q a' s'' _ _ => ⟨[], a', rfl, rfl⟩⟩
    | cons y pre =>
      obtain ⟨x, s3, h3, h4⟩ := bind_ok_inv h2
      obtain ⟨xs, s4, h5, h6⟩ := bind_ok_inv h4
      cases h6
      rw [List.cons_append] at he
      injection he with he1 he2
      subst he1
      obtain ⟨P, k1, k2, k3, k4, k5⟩ := uni h hf ho h3
      obtain ⟨c, nl⟩ := w
      have hc' := hc
      obtain ⟨l0, kk, st, e, ht⟩ := hs.cur
      rw [ht] at hc'
      obtain ⟨ms, past1, w1, text1, q1, q2, q3⟩ := hr c _ _ _ _ hc' _ _ _ _ _ _ hs h3
      obtain ⟨P', s1', ⟨j1, j2, j3, j4, ms', past2, w2, text2, j5, j7, j8⟩, j6⟩ := ih _ _ _ _ _ _ _ _ _ k1 k2 q1 h5 he2 hp
      refine ⟨P ++ P', s1', ⟨j1, k3.trans j2, k4.trans j3, j4, ms ++ ms', past2, w2, text2, j5, q2.trans j7, _, _, rfl, q3, j8⟩,
        fun k s' Q a' s'' hR hx => ?_⟩
      obtain ⟨k, n'⟩ := k
      rw [List.append_assoc] at hR
      cases n' with
      | zero => cases hx
      | succ n' =>
        change whileF g (m' k) (n' + 1) s' = _ at hx
        unfold whileF at hx
        obtain ⟨t', s0', b1, b2⟩ := bind_ok_inv hx
        cases b1
        have hcur : g s'.current := by
          cases hR with
          | mk => exact (ha _ _).2 hc
        rw [if_pos hcur] at b2
        obtain ⟨x', s3', b3, b4⟩ := bind_ok_inv b2
        obtain ⟨xs', s4', b5, b6⟩ := bind_ok_inv b4
        cases b6
        rcases k5 k s' _ hR with hF | ⟨_, sn, e', he', hR'⟩
        · rw [hF] at b3; cases b3
        · rw [e'] at b3; cases b3
          obtain ⟨pre', more, d1, d2⟩ := j6 (k, n') _ Q _ _ hR' b5
          change xs' = _ at d1
          exact ⟨x' :: pre', more, by rw [d1]; rfl, by rw [List.map_cons, List.map_cons, d2]; exact congrArg (· :: _) he'⟩

theorem part_untilEof {m : PM Node} {m' : κ → PM Node} (h : Sim (ι := κ × Parser) m (fun i => m' i.1)) (hr : Spells m Spell.node) :
    Part (untilEof m) (fun k => untilEof (m' k)) id := by
  intro o s l s2 past w text pre post hf ho hs hm he hp
  unfold untilEof at hm
  rw [untilEofF_while] at hm
  obtain ⟨P, s1, h1, h2⟩ := part_while h (fun c _ _ _ _ _ => hr c) (fun _ _ => .rfl) (fun t h => h) _ o s l s2 past w text pre post hf ho hs hm he hp
  refine ⟨P, s1, h1, fun k s' Q a' s'' hR hx => ?_⟩
  change untilEofF (m' k) (s'.size + 1) s' = _ at hx
  rw [untilEofF_while] at hx
  exact h2 (k, _) s' Q a' s'' hR hx

theorem part_prologues {r : Rec} {r' : κ → Rec} (h : RecSim (ι := κ × Parser) r (fun i => r' i.1)) (hr : RecSpells r) :
    Part (parseDirectivePrologues r) (fun k => parseDirectivePrologues (r' k)) id := by
  intro o s l s2 past w text pre post hf ho hs hm he hp
  unfold parseDirectivePrologues at hm
  rw [prologues_while] at hm
  obtain ⟨P, s1, h1, h2⟩ := part_while (m' := fun k => parseDirective (r' k)) sim_parseDirective (fun c _ _ _ _ hc => parseDirective_reads hr c (by rintro rfl; cases hc))
    (fun _ _ => .rfl) (fun t h => by rw [h]; decide) _ o s l s2 past w text pre post hf ho hs hm he hp
  refine ⟨P, s1, h1, fun k s' Q a' s'' hR hx => ?_⟩
  change directiveProloguesF (r' k) (s'.size + 1) s' = _ at hx
  rw [prologues_while] at hx
  exact h2 (k, _) s' Q a' s'' hR hx

/-- directives, then statements -/
theorem part_both {D T : PM (List Node)} {D' T' : κ → PM (List Node)} (hD : Sim (ι := κ × Parser) D (fun i => D' i.1))
    (hs : Spells D Spell.nodes) (pD : Part D D' id) (pT : Part T T' id) {n : List Node → List Node → PM Node} {f : Node → List Node}
    (hn : ∀ d t s b s', n d t s = .ok (b, s') → f b = d ++ t) :
    Part (D >>= fun d => T >>= fun t => n d t) (fun k => D' k >>= fun d => T' k >>= fun t => n d t) f := by
  intro o s b s2 past w text pre post hf ho hst hm he hp
  obtain ⟨d, s1, h1, h2⟩ := bind_ok_inv hm
  obtain ⟨t, s3, h3, h4⟩ := bind_ok_inv h2
  rw [hn _ _ _ _ _ h4] at he
  have key : (∃ c, pre = d ++ c ∧ t = c ++ post) ∨ ∃ y c, d = pre ++ y :: c := by
    rcases List.append_eq_append_iff.1 he with ⟨c, e1, e2⟩ | ⟨c, e1, e2⟩
    · exact .inl ⟨c, e1, e2⟩
    · cases c with
      | nil => exact .inl ⟨[], by rw [e1]; simp, e2.symm⟩
      | cons y c => exact .inr ⟨y, c, e1⟩
  rcases key with ⟨c, e1, e2⟩ | ⟨y, c, e1⟩
  · -- `pre` is `d ++ c`, `t` is `c ++ post`
    obtain ⟨P, k1, k2, k3, k4, k5⟩ := uni hD hf ho h1
    obtain ⟨ms, past1, w1, text1, q1, q2, q3⟩ := hs w.c _ _ _ _ _ _ hst h1
    obtain ⟨P', s1', ⟨j1, j2, j3, j4, ms', past2, w2, text2, j5, j7, j8⟩, j6⟩ := pT _ _ _ _ _ _ _ _ _ k1 k2 q1 h3 e2 hp
    subst e1
    refine ⟨P ++ P', s1', ⟨j1, k3.trans j2, k4.trans j3, j4, ms ++ ms', past2, w2, text2, j5, q2.trans j7, nodes_append q3 j8⟩,
        fun k s' Q a' s'' hR hx => ?_⟩
    rw [List.append_assoc] at hR
    obtain ⟨d', sa, b1, b2⟩ := bind_ok_inv hx
    obtain ⟨t', sb, b3, b4⟩ := bind_ok_inv b2
    rcases k5 k s' _ hR with hF | ⟨_, sn, e', he', hR'⟩
    · rw [hF] at b1; cases b1
    · rw [e'] at b1; cases b1
      obtain ⟨pre', more, d1, d2⟩ := j6 k _ Q _ _ hR' b3
      change t' = _ at d1
      refine ⟨d' ++ pre', more, by rw [hn _ _ _ _ _ b4, d1, List.append_assoc], ?_⟩
      rw [List.map_append, List.map_append, d2]
      exact congrArg (· ++ _) he'
  · -- `d` is `pre ++ c`
    obtain ⟨P, s1', hh, j6⟩ := pD _ _ _ _ _ _ _ _ _ hf ho hst h1 e1 (by simp)
    refine ⟨P, s1', hh, fun k s' Q a' s'' hR hx => ?_⟩
    obtain ⟨d', sa, b1, b2⟩ := bind_ok_inv hx
    obtain ⟨t', sb, b3, b4⟩ := bind_ok_inv b2
    obtain ⟨pre', more, d1, d2⟩ := j6 k _ Q _ _ hR b1
    change d' = _ at d1
    exact ⟨pre', more ++ t', by rw [hn _ _ _ _ _ b4, d1, List.append_assoc], d2⟩

theorem sim_set {ι : Type} {f : Context → Context} : Sim (ι := ι) (M.modify fun s : Parser => { s with ctx := f s.ctx })
    (fun _ => M.modify fun s => { s with ctx := f s.ctx }) :=
  sim_modify (fun _ => ⟨rfl, rfl⟩) (fun _ _ s _ h => by cases h with | mk h hm => exact .mk (s := ⟨_, _, _, _, _, _, _⟩) h hm)

theorem sim_set' {ι : Type} {f : Params → Params} : Sim (ι := ι) (M.modify fun s : Parser => { s with params := f s.params })
    (fun _ => M.modify fun s => { s with params := f s.params }) :=
  sim_modify (fun _ => ⟨rfl, rfl⟩) (fun _ _ s _ h => by cases h with | mk h hm => exact .mk (s := ⟨_, _, _, _, _, _, _⟩) h hm)

/-- the statements of a program -/
def bodyOf : Node → List Node
  | .program body _ _ => body
  | _ => []

theorem part_script {n : Nat} : Part (parseScriptBody (run n)) (fun k => parseScriptBody (run k)) bodyOf := by
  unfold parseScriptBody
  refine part_skip inferInstance inferInstance (part_both inferInstance (parseDirectivePrologues_reads (run_spells n))
    (part_prologues inferInstance (run_spells n)) (part_untilEof (recSim_run (ι := Nat × Parser) n (fun i => i.1)).stmtListItem (run_spells n).stmtListItem) ?_)
  intro d t s b s' h
  obtain ⟨sp, s1, h1, h2⟩ := bind_ok_inv h
  cases h2
  rfl

theorem part_module {n : Nat} : Part (parseModuleBody (run n)) (fun k => parseModuleBody (run k)) bodyOf := by
  unfold parseModuleBody
  refine part_skip inferInstance inferInstance (part_skip (sim_set (f := fun c => { c with strict := true })) quiet_ctx (part_both inferInstance
    (fun c => .withParams (parseDirectivePrologues_reads (run_spells n) c)) ?_
    (part_untilEof inferInstance (parseModuleItem_reads (run_spells n))) ?_))
  · unfold withParams
    refine part_skip inferInstance inferInstance (part_skip sim_set' quiet_params (part_tail
      (part_prologues inferInstance (run_spells n)) ?_ ?_))
    · intro a s b s' h
      obtain ⟨_, _, _, h2⟩ := bind_ok_inv h
      cases h2; rfl
    · intro _ a s b s' h
      obtain ⟨_, _, _, h2⟩ := bind_ok_inv h
      cases h2; rfl
  · intro d t s b s' h
    obtain ⟨sp, s1, h1, h2⟩ := bind_ok_inv h
    cases h2
    rfl

/-! ### the text up to the word after -/

theorem opensWith_tok {source : Str} {ws : List Word} {text text' : Str} {w : Word} (h : OpensWith source ws text) (ht : Tok text w text') :
    OpensWith source (ws ++ [w]) text' := by
  obtain ⟨c, n⟩ := w
  obtain ⟨g, b, tr, x, rfl, k1, k2, k3, k4⟩ := ht
  change n = _ at k4
  subst k4
  exact .word h k1 k2 k3

theorem passes_opens {source : Str} {past past' : List Word} {w w' : Word} {text text' : Str} {ms : List Mark}
    (hp : Passes past w text ms past' w' text') (h : OpensWith source (past.reverse ++ [w]) text) :
    OpensWith source (past'.reverse ++ [w']) text' ∧ past'.reverse.map (·.c) = past.reverse.map (·.c) ++ Spec.wordsOf ms := by
  induction hp with
  | here => exact ⟨h, by simp [Spec.wordsOf]⟩
  | step hc ht _ ih =>
    obtain ⟨h1, h2⟩ := ih (by simpa using opensWith_tok h ht)
    exact ⟨h1, by rw [h2]; simp [Spec.wordsOf]⟩
  | @mark _ _ _ _ _ _ m _ hm _ ih =>
    obtain ⟨h1, h2⟩ := ih h
    refine ⟨h1, by rw [h2]; cases m with
      | word => exact hm.elim
      | _ => rfl⟩

/-- The words up to the one after the statements `pre`, and what comes of a source that begins with them. -/
theorem body_part {f : Rec → PM Node} (hpart : ∀ n, Part (f (run n)) (fun k => f (run k)) bodyOf) {source : Str} {p p1 : Parser} {t : Node}
    {n : Nat} {pre post : List Node} (h : Parser.new source = .ok p) (hb : f (run n) p = .ok (t, p1)) (he : bodyOf t = pre ++ post)
    (hp : post ≠ []) :
    ∃ c P ms ws w text, Spell.nodes pre ms ∧ ws.map (·.c) = Spec.wordsOf ms ∧ OpensWith source (ws ++ [w]) text ∧ w.c ≠ .eof ∧
      MadeOf c P source ∧ (¬ LooksAhead w.c → ∃ U, source = U ++ text ∧ ∀ z, Wall z → MadeOf c P (U ++ z)) ∧
      ∀ source', source' ≠ [] → MadeOf c P source' → ∃ p', Parser.new source' = .ok p' ∧
        ∀ k t' s', f (run k) p' = .ok (t', s') → StartsLike pre (bodyOf t') := by
  obtain ⟨w, x, r, c, hsrc, hw, hst, hl, rfl, hf, -, hen, hsafe, hnew⟩ := first_inv h
  obtain ⟨w0, text0, hs0, ht0⟩ := new_stands h
  obtain ⟨P, s1, ⟨j1, j2, j3, j4, ms, past', w', text', j5, j6, j7⟩, j8⟩ := hpart n _ _ _ _ _ _ _ _ _ hf hsafe hs0 hb he hp
  obtain ⟨o1, o2⟩ := passes_opens j6 (by simpa using opensWith_tok .nil ht0)
  have hne : w'.c ≠ .eof := by
    intro e
    obtain ⟨_, _, _, _, ht⟩ := j5.cur
    rw [e] at ht
    rw [ht] at j4
    exact j4 rfl
  refine ⟨c, P, ms, past'.reverse, w', text', j7, by simpa using o2, o1, hne, ?_, fun hla => ?_, fun source' hne' hm => ?_⟩
  · rw [hsrc]; exact .mk hw hst hl (j2.begins _)
  · have hu : s1.scanner.unscanned = none ∧ s1.scanner.rest = text' := by
      rcases j5.text with h | ⟨_, _, _, _, _, _, v, hv, e⟩
      · exact h
      · exfalso
        apply hla
        rw [e]
        unfold LooksAhead
        simpa using hv
    obtain ⟨hu, rfl⟩ := hu
    obtain ⟨q, hq⟩ := j3.2
    have hend : ends s1 = [false] := by
      unfold ends
      rw [hu]
      simpa using j4
    rw [hen, hend] at hq
    have hlast : (isEnd c :: endsOf P).getLast? = some false := by
      show ([isEnd c] ++ endsOf P).getLast? = _
      rw [hq]; simp
    obtain ⟨pre', y, d, k1, k2⟩ := made_last hw hst hl j2
    have hd : isEnd d = false := by
      have e2 : isEnd c :: endsOf P = (c :: P.map Said.says).map isEnd := by simp [endsOf]
      rw [e2, List.getLast?_map, k2] at hlast
      exact Option.some.inj hlast
    have hde : d ≠ .eof := by rintro rfl; cases hd
    have hP : ∀ u ∈ P, u.says ≠ .eof := by
      intro u hu he
      cases hl : P.getLast? with
      | none => rw [List.getLast?_eq_none_iff.1 hl] at hu; cases hu
      | some l =>
        have := goes_eof j2 hu he hl
        apply hde
        cases P with
        | nil => cases hl
        | cons q P =>
          rw [List.map_cons, List.getLast?_cons_cons, ← List.map_cons, List.getLast?_map, hl] at k2
          cases k2
          exact this
    have hc : c ≠ .eof := by
      rintro rfl
      have hr := eof_lexeme hl
      cases P with
      | nil => cases k2; exact hde rfl
      | cons q P => exact hP q List.mem_cons_self (goes_nil j2 hr q List.mem_cons_self)
    obtain ⟨U, e, hU⟩ := made_wall hw hst hl j2 hc hP
    exact ⟨U, hsrc.trans e, hU⟩
  · obtain ⟨p', hp', hR⟩ := hnew source' (P ++ []) hne' (by rw [List.append_nil]; exact hm)
    exact ⟨p', hp', fun k t' s' hx => j8 k p' [] t' s' hR hx⟩

end Layout
end Giron

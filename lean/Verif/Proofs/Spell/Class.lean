import Verif.Proofs.Spell.Patterns
/-
The words read by the parser methods for classes.
-/
namespace Giron
open M Spec Spec.Lang
namespace Parser
variable [Env] {α β : Type} {c : Content} {R : β → List Mark → Content → Prop} {r : Rec}

theorem parseComputedPropertyName_reads (hr : RecSpells r) : Spells (parseComputedPropertyName r) fun k ws =>
    ∃ n, k = .expression n ∧ (pun .lBracket ⬝ Spell.node n ⬝ pun .rBracket) ws := by
  intro c
  unfold parseComputedPropertyName
  exact .consume fun _ c _ _ => .bind (.withIn (hr.assignmentExpr c)) fun n w c h => .consume fun _ c _ _ => .pure ⟨n, rfl, tk (sq h rfl)⟩

/-- the words of the name of a method -/
def MemberKey : PropertyKey → Bool → Lang
  | .identifier id, false => word id.name
  | .expression n, true => pun .lBracket ⬝ Spell.node n ⬝ pun .rBracket
  | _, _ => nothing

theorem MemberKey.key {k : PropertyKey} {b : Bool} {ws : List Mark} (h : MemberKey k b ws) : Spell.key b k ws := by
  cases k <;> cases b <;> first | exact h | exact h.elim

/-- The name has been read, or it is a string or number that has not been read. -/
theorem parsePropertyName_reads (hr : RecSpells r) (c : Content) : Reads c (parsePropertyName r) fun x ws c' =>
    MemberKey x.1 x.2 ws ∨ ∀ p, c' ≠ .punct p := by
  unfold parsePropertyName
  refine .cur fun t ht => .ite (fun _ => .quiet fun _ => .idName fun v c' hc _ => .quiet fun sp => .pure (.inl ?_)) fun _ =>
    .ite (fun h => .quiet fun _ => .quiet fun _ => .pure (.inr ?_)) fun _ => .ite (fun _ => ?_) fun _ => .fails
  · exact rfl
  · obtain ⟨v, rfl⟩ | ⟨v, o, rfl⟩ | ⟨v, rfl⟩ := (ht.value (.inr h)).2 <;> exact fun p h => nomatch h
  · refine .bind (parseComputedPropertyName_reads hr c) fun k w c h => .pure (.inl ?_)
    obtain ⟨n, rfl, h⟩ := h
    exact last (A := pun .lBracket ⬝ Spell.node n ⬝ pun .rBracket) h

theorem member_mk {k : PropertyKey} {computed st : Bool} {f : FnExpr} {kind : Str} {w wp wk wm : List Mark}
    (hs : (Lang.pre st (word cs!"static")) w) (hp : Spell.methodPrefix computed k.asNode kind (some f) wp) (hk : MemberKey k computed wk)
    (hm : Spell.method f wm) : Spell.member (.mk k.asNode computed (some f) kind st) (w ++ (wp ++ (wk ++ wm))) := by
  cases computed with
  | false =>
    cases k with
    | identifier id => exact sq hs (sq hp (nil (sq hk (nil hm))))
    | _ => exact hk.elim
  | true =>
    cases k with
    | expression n =>
      obtain ⟨a, b, rfl, h1, a', b', rfl, h2, h3⟩ := hk
      simp only [List.append_assoc]
      exact sq hs (sq hp (sq h1 (sq h2 (sq h3 hm))))
    | _ => exact hk.elim

/-- the words of a method after `static` -/
def MethodWords (st : Bool) (m : MethodDefinition) : Lang := fun ws =>
  ∀ w, (Lang.pre st (word cs!"static")) w → Spell.member m (w ++ ws)

theorem classGetter_reads (hr : RecSpells r) {st : Bool} : Reads (.name cs!"get") (classGetter r st) fun m ws _ => MethodWords st m ws := by
  unfold classGetter
  refine .advance fun _ c _ => .bind (parsePropertyName_reads hr c) fun ⟨k, computed⟩ wk c hk => .consume fun _ c1 hc _ => .consume fun _ c2 _ _ =>
    .bind (.withYieldAwait (parseFunctionBody_reads hr c2)) fun b w c h => .pure ?_
  rcases hk with hk | hk
  · intro ws hs
    exact member_mk hs (wp := [.name cs!"get"]) rfl hk (tk (nil (tk (last h))))
  · exact absurd hc (hk _)

theorem classSetter_reads (hr : RecSpells r) {st : Bool} : Reads (.name cs!"set") (classSetter r st) fun m ws _ => MethodWords st m ws := by
  unfold classSetter
  refine .advance fun _ c _ => .bind (parsePropertyName_reads hr c) fun ⟨k, computed⟩ wk c hk =>
    .bind (parseParamsAndBody_reads hr c) fun ⟨ps, b⟩ w c' h => .pure ?_
  rcases hk with hk | hk
  · intro ws hs
    exact member_mk hs (wp := [.name cs!"set"]) rfl hk (last (A := Spell.method (.mk none ps b false false false)) h.2)
  · exact absurd h.1 (hk _)

theorem classAsync_reads (hr : RecSpells r) {st : Bool} : Reads (.name cs!"async") (classAsync r st) fun m ws _ => MethodWords st m ws := by
  unfold classAsync
  refine .advance fun _ c _ => ?_
  have fin : ∀ (g : Bool) (c : Content) (wg : List Mark), (Lang.mark (if g then .joined else .broken) ⬝ Lang.pre g (pun .star)) wg →
      Reads c (do
        let (key, computed) ← parsePropertyName r
        let (params, body) ← parseParamsAndBody r g true
        pure (.mk key.asNode computed (some (.mk none params body g false true)) cs!"method" st))
        fun m ws _ => MethodWords st m (.name cs!"async" :: (wg ++ ws)) := by
    intro g c wg hg
    refine .bind (parsePropertyName_reads hr c) fun ⟨k, computed⟩ wk c hk =>
      .bind (parseParamsAndBody_reads hr c) fun ⟨ps, b⟩ w c' h => .pure ?_
    rcases hk with hk | hk
    · intro ws hs
      refine member_mk hs (wp := .name cs!"async" :: wg) ?_ hk (last (A := Spell.method (.mk none ps b g false true)) h.2)
      obtain ⟨a, b, rfl, h1, h2⟩ := hg
      cases g <;> exact sq (a := .name cs!"async" :: a) (tk h1) h2
    · exact absurd h.1 (hk _)
  have plain : ∀ c : Content, Reads c (do
      let s ← M.get
      if false = false ∧ s.hasLineTerminator = false then unexpectedCurrent
      else do
        let (key, computed) ← parsePropertyName r
        let (params, body) ← parseParamsAndBody r false true
        pure (.mk key.asNode computed (some (.mk none params body false false true)) cs!"method" st))
      fun m ws _ => MethodWords st m (.name cs!"async" :: ws) := fun c =>
    .getLine (fun s hs hl => ⟨some .broken, .inr (.inl rfl), .ite (fun _ => .fails) fun _ => fin false c [.broken] (tk rfl)⟩)
      fun s hs hl => ⟨none, .inl rfl, .ite (fun _ => .fails) fun h => absurd ⟨rfl, hl⟩ h⟩
  refine .getLine (fun s hs hl => ⟨none, .inl rfl, ?_⟩) fun s hs hl => ?_
  · rw [if_neg (by rw [hl]; simp)]
    exact plain c
  · by_cases h : s.current.tokentype = .punctuator ∧ s.hasLineTerminator = false ∧ s.current.matchesPunc .star = true
    · refine ⟨some .joined, .inr rfl, ?_⟩
      rw [if_pos h]
      have := hs.punc h.2.2
      subst this
      refine .bind (Q := fun g ws _ => g = true ∧ ws = [.punct .star]) (.advance fun _ _ _ => .pure ⟨rfl, rfl⟩) ?_
      rintro g ws c ⟨rfl, rfl⟩
      exact .get fun _ _ => .ite (fun h => by cases h.1) fun _ => fin true c [.joined, .punct .star] (tk rfl)
    · refine ⟨none, .inl rfl, ?_⟩
      rw [if_neg h]
      exact plain c

theorem classGenerator_reads (hr : RecSpells r) {st : Bool} : Reads (.punct .star) (classGenerator r st) fun m ws _ => MethodWords st m ws := by
  unfold classGenerator
  refine .advance fun _ c _ => .bind (parsePropertyName_reads hr c) fun ⟨k, computed⟩ wk c hk =>
    .bind (parseParamsAndBody_reads hr c) fun ⟨ps, b⟩ w c' h => .pure ?_
  rcases hk with hk | hk
  · intro ws hs
    exact member_mk hs (wp := [.punct .star]) (nil rfl) hk (last (A := Spell.method (.mk none ps b true false false)) h.2)
  · exact absurd h.1 (hk _)

theorem methodKind_prefix {k : PropertyKey} {computed : Bool} {ps : List FunctionParameter} {b : Node} {ws : List Mark}
    (hk : MemberKey k computed ws) : Spell.methodPrefix computed k.asNode (methodKind k) (some (.mk none ps b false false false)) [] := by
  have e : methodKind k = Spell.plainKind computed k.asNode := by
    cases computed with
    | false =>
      cases k with
      | identifier id =>
        change (if id.name = _ then _ else _) = (if (!false && id.name == cs!"constructor") = true then _ else _)
        by_cases h : id.name = cs!"constructor"
        · rw [if_pos h, if_pos (by rw [h]; rfl)]
        · rw [if_neg h, if_neg (by simpa using h)]
      | _ => exact hk.elim
    | true =>
      cases k with
      | expression n => cases n <;> rfl
      | _ => exact hk.elim
  have h : methodKind k = cs!"constructor" ∨ methodKind k = cs!"method" := by
    unfold methodKind
    split
    · split <;> simp
    · split <;> simp
    · simp
  have e' : (methodKind k == if (false || false) = true then cs!"method" else Spell.plainKind computed k.asNode) = true := by
    rw [← e]; exact beq_self_eq_true _
  have ha : Spell.accessor (methodKind k) = none := by rcases h with h | h <;> rw [h] <;> rfl
  unfold Spell.methodPrefix
  rw [ha]
  dsimp only
  rw [e']
  exact nil rfl

theorem classMethod_reads (hr : RecSpells r) {st : Bool} (c : Content) : Reads c (classMethod r st) fun m ws _ => MethodWords st m ws := by
  unfold classMethod
  refine .bind (parsePropertyName_reads hr c) fun ⟨k, computed⟩ wk c hk =>
    .bind (parseParamsAndBody_reads hr c) fun ⟨ps, b⟩ w c' h => .pure ?_
  rcases hk with hk | hk
  · intro ws hs
    exact member_mk hs (wp := []) (methodKind_prefix hk) hk (last (A := Spell.method (.mk none ps b false false false)) h.2)
  · exact absurd h.1 (hk _)

theorem classItem_reads (hr : RecSpells r) (c : Content) : Reads c (classItem r) fun x w _ =>
    (x = none ∧ w = [.punct .semicolon]) ∨ ∃ m, x = some m ∧ Spell.member m w := by
  unfold classItem
  refine .cur fun t ht => .ite (fun h => ?_) fun _ => .bind (Q := fun st w _ => (Lang.pre st (word cs!"static")) w)
    (.ite (fun h => ?_) fun _ => .pure rfl) fun st w c hs => .cur fun t ht => .bind (Q := fun m ws _ => MethodWords st m ws) ?_
      fun m w' c' h => .pure (.inr ⟨m, rfl, ?_⟩)
  · have := ht.isP h
    subst this
    exact .advance fun _ _ _ => .pure (.inl ⟨rfl, rfl⟩)
  · have := ht.isKw h
    subst this
    exact .advance fun _ _ _ => .pure rfl
  · refine .ite (fun h => ?_) fun _ => .ite (fun h => ?_) fun _ => .ite (fun h => ?_) fun _ => .ite (fun h => ?_) fun _ => classMethod_reads hr c
    · rw [ht.isId h]; exact classGetter_reads hr
    · rw [ht.isId h]; exact classSetter_reads hr
    · rw [ht.isId h]; exact classAsync_reads hr
    · rw [ht.isP h]; exact classGenerator_reads hr
  · rw [List.append_nil]; exact h _ hs

theorem members_semicolon {l : List MethodDefinition} {ws : List Mark} (h : Spell.members l ws) :
    Spell.members l (.punct .semicolon :: ws) := by
  have key : ∀ w, semicolons w → semicolons (.punct .semicolon :: w) := fun w h c hc => by
    rcases List.mem_cons.1 hc with rfl | hc
    · rfl
    · exact h c hc
  cases l with
  | nil => exact key _ h
  | cons m l =>
    obtain ⟨a, b, rfl, h1, h2⟩ := h
    exact sq (a := .punct .semicolon :: a) (key _ h1) h2

theorem parseClassBody_reads (hr : RecSpells r) : Spells (parseClassBody r) Spell.members := by
  intro c
  unfold parseClassBody
  refine .bind (untilPunc_reads (I := fun items => Spell.members (items.filterMap id)) (fun c h => nomatch h)
    (fun c _ => (classItem_reads hr c).mono fun x w _ h xs ws _ hs => ?_) c) fun items w c h => .pure (last h.1)
  rcases h with ⟨rfl, rfl⟩ | ⟨m, rfl, h⟩
  · exact members_semicolon hs
  · exact ⟨[], _, rfl, (fun c h => nomatch h : semicolons []), sq h hs⟩

theorem parseClassTail_reads (hr : RecSpells r) {id : Option Node} {w : List Mark} (hw : Spell.optNode id w) (c : Content) :
    Reads c (parseClassTail r id) fun n ws _ => Spell.node n (.name cs!"class" :: (w ++ ws)) := by
  unfold parseClassTail
  refine .cur fun t ht => .bind (Q := fun (e : Option Node) ws _ => (Lang.pre e.isSome (word cs!"extends") ⬝ Spell.optNode e) ws) (.ite (fun h => ?_) fun _ => .pure (nil rfl))
    fun e we c he => .consume fun _ c _ _ => .bind (parseClassBody_reads hr c) fun ms wm c hm => .consume fun _ _ _ _ => .quiet fun _ => .pure ?_
  · have := ht.isKw h
    subst this
    exact .advance fun _ c _ => .bind (hr.leftHandSideExpr c) fun n w c h => .pure (tk (last (A := Spell.node n) h))
  · obtain ⟨a, b, rfl, h1, h2⟩ := he
    simp only [List.append_assoc]
    exact tk (sq hw (sq h1 (sq h2 (tk (sq hm rfl)))))

theorem bindingId_node {k : Node → PM β}
    (h : ∀ n v c', c = .name v → Spell.node n [.name v] → Reads c' (k n) fun b ws c'' => R b (.name v :: ws) c'') :
    Reads c (parseBindingId >>= fun b => bindingIdNode b >>= k) R := by
  refine .bind (parseBindingId_reads c) fun b w c' hb => ?_
  obtain ⟨v, sp, hc, rfl, rfl⟩ := hb
  exact h (.bindingIdentifier v sp) v c' hc rfl

theorem parseClassDclr_reads (hr : RecSpells r) : Spells (parseClassDclr r) Spell.node := by
  intro c
  unfold parseClassDclr
  exact .get fun _ _ => .ctx fun _ => .quiet fun _ => .consumeKw fun _ c _ _ => bindingId_node fun n v c _ hn =>
    .bind (parseClassTail_reads hr (id := some n) hn c) fun x w c h => .ctx fun _ => .pure (by rw [List.append_nil]; exact h)

theorem parseClassExpr_reads (hr : RecSpells r) : Spells (parseClassExpr r) Spell.node := by
  intro c
  unfold parseClassExpr
  refine .get fun _ _ => .ctx fun _ => .quiet fun _ => .consumeKw fun _ c _ _ => .get fun s _ => .bind (Q := fun id w _ => Spell.optNode id w)
    (.ite (fun _ => bindingId_node fun n v c _ hn => .pure hn) fun _ => .ite (fun _ => .pure rfl) fun _ => .fails) fun id w c hw =>
    .bind (parseClassTail_reads hr hw c) fun x w' c h => .ctx fun _ => .pure (by rw [List.append_nil]; exact h)

end Parser
end Giron

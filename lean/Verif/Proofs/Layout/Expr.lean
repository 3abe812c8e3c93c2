import Verif.Proofs.Layout.Primary
/-
Texts made of the same words: operators.
-/
namespace Giron
open M Spec

namespace Layout
open Parser
variable [Env] {α β γ : Type} [Er α] [Er β] [Er γ] {ι : Type} {r : Rec} {r' : ι → Rec} {C : Token → Prop}

instance sim_parseComputedMemberExpr [RecSim r r'] {object : Node} {object' : ι → Node} [h : Rel object object'] : Sim (parseComputedMemberExpr r object) (fun i => parseComputedMemberExpr (r' i) (object' i)) := by
  relfact h
  unfold parseComputedMemberExpr; lsim

instance sim_parseStaticMemberExpr {object : Node} {object' : ι → Node} [h : Rel object object'] : Sim (parseStaticMemberExpr object) (fun i => parseStaticMemberExpr (object' i)) := by
  relfact h
  unfold parseStaticMemberExpr; lsim

instance sim_parseSuper : Sim (ι := ι) (parseSuper ) (fun _ => parseSuper) := by
  unfold parseSuper; lsim

theorem sim_loopN {F : Nat → Node → PM α} {F' : ι → Nat → Node → PM α} (h0 : ∀ x, F 0 x = M.fail .fuel) (h0' : ∀ i x, F' i 0 x = M.fail .fuel)
    (hs : ∀ n, (∀ (n' : ι → Nat) x x' [Rel x x'], Sim (F n x) (fun i => F' i (n' i) (x' i))) →
      ∀ (n' : ι → Nat) x x' [Rel x x'], Sim (F (n + 1) x) (fun i => F' i (n' i + 1) (x' i)))
    (n : Nat) (n' : ι → Nat) (x : Node) (x' : ι → Node) [Rel x x'] : Sim (F n x) (fun i => F' i (n' i) (x' i)) := by
  have key : ∀ (n' : ι → Nat) x x' [Rel x x'], Sim (F n x) (fun i => F' i (n' i) (x' i)) := by
    induction n with
    | zero => intro n' x x' _; rw [h0]; exact inferInstance
    | succ n ih =>
      intro n' x x' _
      refine sim_fuel (m'' := fun i => F' i (n' i - 1 + 1) (x' i)) (hs n ih _ _ _) (fun i => ?_)
      rcases Nat.eq_zero_or_pos (n' i) with h | h
      · rw [h]; exact .inr (h0' i _)
      · rw [Nat.sub_add_cancel h]; exact .inl rfl
  exact key n' x x'

instance sim_memberLoop [RecSim r r'] {x : Node} {x' : ι → Node} [Rel x x'] :
    Sim (fun s => memberLoopF r (s.size + 1) x s) (fun i s => memberLoopF (r' i) (s.size + 1) (x' i) s) :=
  sim_budget (F := fun n => memberLoopF r n x) (F' := fun i n => memberLoopF (r' i) n (x' i)) fun n n' =>
    sim_loopN (F := memberLoopF r) (F' := fun i => memberLoopF (r' i)) (fun _ => rfl) (fun _ _ => rfl)
      (fun n ih n' x x' h => by
        have := ih n'
        relfact h
        unfold memberLoopF; lsim) n n' x x'

instance sim_parseMemberHead [RecSim r r'] : Sim (ι := ι) (parseMemberHead r) (fun i => parseMemberHead (r' i)) := by
  unfold parseMemberHead; lsim

instance sim_parseMemberExpr [RecSim r r'] : Sim (ι := ι) (parseMemberExpr r) (fun i => parseMemberExpr (r' i)) := by
  unfold parseMemberExpr; lsim

omit [Env] in
instance rel_call {c : Node} {c' : ι → Node} [h : Rel c c'] {a : List ArgumentListElement} {a' : ι → List ArgumentListElement}
    [h' : Rel a a'] {t sp} {sp' : ι → Span} : Rel (Node.callExpression c a t sp) (fun i => .callExpression (c' i) (a' i) t (sp' i)) :=
  ⟨fun i => by relfact h; relfact h'; ersimp⟩

omit [Env] in
instance rel_new {c : Node} {c' : ι → Node} [h : Rel c c'] {a : List ArgumentListElement} {a' : ι → List ArgumentListElement}
    [h' : Rel a a'] {t sp} {sp' : ι → Span} : Rel (Node.newExpression c a t sp) (fun i => .newExpression (c' i) (a' i) t (sp' i)) :=
  ⟨fun i => by relfact h; relfact h'; ersimp⟩

instance sim_callLoop [RecSim r r'] {x : Node} {x' : ι → Node} [Rel x x'] :
    Sim (fun s => callLoopF r (s.size + 1) x s) (fun i s => callLoopF (r' i) (s.size + 1) (x' i) s) :=
  sim_budget (F := fun n => callLoopF r n x) (F' := fun i n => callLoopF (r' i) n (x' i)) fun n n' =>
    sim_loopN (F := callLoopF r) (F' := fun i => callLoopF (r' i)) (fun _ => rfl) (fun _ _ => rfl)
      (fun n ih n' x x' h => by
        have := ih n'
        relfact h
        unfold callLoopF; lsim) n n' x x'

instance sim_parseCallExprTail [RecSim r r'] {n : Node} {n' : ι → Node} [h : Rel n n'] :
    Sim (parseCallExprTail r n) (fun i => parseCallExprTail (r' i) (n' i)) := by
  unfold parseCallExprTail; lsim

instance sim_parseCallHead [RecSim r r'] : Sim (ι := ι) (parseCallHead r) (fun i => parseCallHead (r' i)) := by
  unfold parseCallHead; lsim

instance sim_parseCallExpr [RecSim r r'] : Sim (ι := ι) (parseCallExpr r) (fun i => parseCallExpr (r' i)) := by
  unfold parseCallExpr; lsim

instance sim_parseNewTarget {t : Token} {p : ι → Place} {sp : Span} {sp' : ι → Span} :
    Sim (parseNewTarget t sp) (fun i => parseNewTarget (t.at (p i)) (sp' i)) := by
  unfold parseNewTarget; lsim

instance sim_parseNewCallee [RecSim r r'] : Sim (ι := ι) (parseNewCallee r) (fun i => parseNewCallee (r' i)) := by
  unfold parseNewCallee; lsim

instance sim_parseNewExpr [RecSim r r'] : Sim (ι := ι) (parseNewExpr r) (fun i => parseNewExpr (r' i)) := by
  unfold parseNewExpr; lsim

instance sim_parseLeftHandSideExpr [RecSim r r'] : Sim (ι := ι) (parseLeftHandSideExpr r) (fun i => parseLeftHandSideExpr (r' i)) := by
  unfold parseLeftHandSideExpr; lsim

omit [Env] in
theorem att_rel {n : Node} {n' : ι → Node} (h : Rel n n') (i : ι) : (n' i).assignTargetType = n.assignTargetType := by
  rw [← assignTargetType_er, ← assignTargetType_er n, show bareNode n = bareNode (n' i) from h.out i]

instance sim_parsePrefixUpdate [RecSim r r'] : Sim (ι := ι) (parsePrefixUpdate r) (fun i => parsePrefixUpdate (r' i)) := by
  unfold parsePrefixUpdate
  lsim1; lsim1; lsim1
  refine sim_bind inferInstance fun e e' h => ?_
  simp only [att_rel h]
  relfact h
  lsim

instance sim_parsePostfix [RecSim r r'] : Sim (ι := ι) (parsePostfix r) (fun i => parsePostfix (r' i)) := by
  unfold parsePostfix
  lsim1; lsim1
  refine sim_bind inferInstance fun e e' h => ?_
  simp only [att_rel h]
  relfact h
  lsim

instance sim_parseUpdateExpr [RecSim r r'] : Sim (ι := ι) (parseUpdateExpr r) (fun i => parseUpdateExpr (r' i)) := by
  unfold parseUpdateExpr; lsim

instance sim_parseUnaryOp [RecSim r r'] : Sim (ι := ι) (parseUnaryOp r) (fun i => parseUnaryOp (r' i)) := by
  unfold parseUnaryOp; lsim

instance sim_parseUnaryExpr [RecSim r r'] : Sim (ι := ι) (parseUnaryExpr r) (fun i => parseUnaryExpr (r' i)) := by
  unfold parseUnaryExpr; lsim

instance sim_parsePow [RecSim r r'] : Sim (ι := ι) (parsePow r) (fun i => parsePow (r' i)) := by
  unfold parsePow; lsim

instance sim_parseExponentiationExpr [RecSim r r'] : Sim (ι := ι) (parseExponentiationExpr r) (fun i => parseExponentiationExpr (r' i)) := by
  unfold parseExponentiationExpr; lsim

theorem at_precedence (t : Token) (p : Place) (b) : (t.at p).precedence b = t.precedence b := rfl

instance sim_rClimb [h : RecSim r r'] {n : Node} {n' : ι → Node} [hn : Rel n n'] {k} :
    Sim (r.precedenceClimbing n k) (fun i => (r' i).precedenceClimbing (n' i) k) := h.precedenceClimbing n n' k hn

instance sim_climbInner [RecSim r r'] {p : Nat} {x : Node} {x' : ι → Node} [Rel x x'] :
    Sim (fun s => climbInnerF r p (s.size + 1) x s) (fun i s => climbInnerF (r' i) p (s.size + 1) (x' i) s) :=
  sim_budget (F := fun n => climbInnerF r p n x) (F' := fun i n => climbInnerF (r' i) p n (x' i)) fun n n' =>
    sim_loopN (F := climbInnerF r p) (F' := fun i => climbInnerF (r' i) p) (fun _ => rfl) (fun _ _ => rfl)
      (fun n ih n' x x' h => by
        have := ih n'
        relfact h
        unfold climbInnerF; lsim1; lsim1
        · simp only [at_precedence]; lsim
        · lsim) n n' x x'

instance sim_climbStep [RecSim r r'] {n : Node} {n' : ι → Node} [h : Rel n n'] :
    Sim (climbStep r n) (fun i => climbStep (r' i) (n' i)) := by
  relfact h
  unfold climbStep; lsim1; lsim1; lsim1; simp only [at_precedence]; lsim

instance sim_climb [RecSim r r'] {p : Nat} {x : Node} {x' : ι → Node} [Rel x x'] :
    Sim (fun s => climbF r p (s.size + 1) x s) (fun i s => climbF (r' i) p (s.size + 1) (x' i) s) :=
  sim_budget (F := fun n => climbF r p n x) (F' := fun i n => climbF (r' i) p n (x' i)) fun n n' =>
    sim_loopN (F := climbF r p) (F' := fun i => climbF (r' i) p) (fun _ => rfl) (fun _ _ => rfl)
      (fun n ih n' x x' h => by
        have := ih n'
        relfact h
        unfold climbF; lsim) n n' x x'

instance sim_precedenceClimbing [RecSim r r'] {n : Node} {n' : ι → Node} [h : Rel n n'] {k} :
    Sim (precedenceClimbing r n k) (fun i => precedenceClimbing (r' i) (n' i) k) := by
  unfold precedenceClimbing; lsim

instance sim_parseBinaryExpr [RecSim r r'] : Sim (ι := ι) (parseBinaryExpr r) (fun i => parseBinaryExpr (r' i)) := by
  unfold parseBinaryExpr; lsim

instance sim_parseConditionalExpr [RecSim r r'] : Sim (ι := ι) (parseConditionalExpr r) (fun i => parseConditionalExpr (r' i)) := by
  unfold parseConditionalExpr; lsim

instance sim_parseSingleParamArrow [RecSim r r'] {name} : Sim (ι := ι) (parseSingleParamArrow r name) (fun i => parseSingleParamArrow (r' i) name) := by
  unfold parseSingleParamArrow; lsim

instance sim_parseYieldExpr [RecSim r r'] : Sim (ι := ι) (parseYieldExpr r) (fun i => parseYieldExpr (r' i)) := by
  unfold parseYieldExpr; lsim

/-- the name an expression consists of -/
def idOf : Node → Option Identifier
  | .identifier name _ span => some ⟨name, span⟩
  | _ => none

omit [Env] in
theorem idOf_bare (n : Node) : idOf (bareNode n) = (idOf n).map bareIdentifier := by cases n <;> rfl

omit [Env] in
theorem idOf_rel {n : Node} {n' : ι → Node} [h : Rel n n'] : Rel (idOf n) (fun i => idOf (n' i)) :=
  ⟨fun i => by show (idOf n).map bareIdentifier = (idOf (n' i)).map bareIdentifier
               rw [← idOf_bare, ← idOf_bare, show bareNode n = bareNode (n' i) from h.out i]⟩

omit [Env] in
/-- cases of an optional value -/
theorem rel_option {o : Option α} {o' : ι → Option α} (h : Rel o o') :
    (o = none ∧ o' = fun _ => none) ∨ ∃ a a', o = some a ∧ (o' = fun i => some (a' i)) ∧ Rel a a' := by
  cases o with
  | none =>
    refine .inl ⟨rfl, funext fun i => ?_⟩
    have := h.out i
    cases ho : o' i with
    | none => rfl
    | some b => rw [ho] at this; cases this
  | some a =>
    have key : ∀ i, ∃ b, o' i = some b := fun i => by
      have := h.out i
      cases ho : o' i with
      | none => rw [ho] at this; cases this
      | some b => exact ⟨b, rfl⟩
    refine .inr ⟨a, fun i => Classical.choose (key i), rfl, funext fun i => Classical.choose_spec (key i), ⟨fun i => ?_⟩⟩
    have := h.out i
    rw [Classical.choose_spec (key i)] at this
    exact Option.some.inj this

theorem arrowIfIdentifier_eq (r : Rec) (n : Node) : arrowIfIdentifier r n = (match idOf n with
    | some x => cur >>= fun t => if t.isP .fatArrow then parseSingleParamArrow r x.name else pure n
    | none => pure n) := by
  cases n <;> rfl

instance sim_arrowIfIdentifier [RecSim r r'] {n : Node} {n' : ι → Node} [h : Rel n n'] :
    Sim (arrowIfIdentifier r n) (fun i => arrowIfIdentifier (r' i) (n' i)) := by
  simp only [arrowIfIdentifier_eq]
  rcases rel_option (idOf_rel (n := n) (n' := n')) with ⟨h1, h2⟩ | ⟨a, a', h1, h2, h3⟩
  · have h2 := fun i => congrFun h2 i
    simp only [h1, h2]
    exact sim_pure h.out
  · have h2 := fun i => congrFun h2 i
    have e : ∀ i, (a' i).name = a.name := fun i => show (bareIdentifier (a' i)).name = (bareIdentifier a).name from congrArg Identifier.name (h3.out i).symm
    simp only [h1, h2, e]
    relfact h
    lsim

instance sim_toAssignmentPattern {n : Node} {n' : ι → Node} [h : Rel n n'] :
    Sim (M.ofExcept (toAssignmentPattern n)) (fun i => M.ofExcept (toAssignmentPattern (n' i))) :=
  sim_ofExcept (fun _ => Pos.toAssignmentPattern_plain) fun i => by
    rw [← toAssignmentPattern_er, ← toAssignmentPattern_er, show bareNode n = bareNode (n' i) from h.out i]

instance sim_parseAssignTail [RecSim r r'] {n : Node} {n' : ι → Node} [h : Rel n n'] : Sim (parseAssignTail r n) (fun i => parseAssignTail (r' i) (n' i)) := by
  unfold parseAssignTail
  lsim1
  refine sim_bind inferInstance fun e e' h => ?_
  simp only [att_rel h]
  relfact h
  lsim

instance sim_parseOpAssignTail [RecSim r r'] {n : Node} {n' : ι → Node} [h : Rel n n'] : Sim (parseOpAssignTail r n) (fun i => parseOpAssignTail (r' i) (n' i)) := by
  unfold parseOpAssignTail
  simp only [att_rel h]
  relfact h
  lsim

instance sim_parseAssignmentExpr [RecSim r r'] : Sim (ι := ι) (parseAssignmentExpr r) (fun i => parseAssignmentExpr (r' i)) := by
  unfold parseAssignmentExpr; lsim

end Layout
end Giron

import Verif.Proofs.Why.Patterns
/-
There is a reason for every error.  (One instance per method.)
-/
namespace Giron
namespace Why
open M Giron.Parser Layout Spec
variable [Env] {R : Src} {r : Rec}

instance wy_parseComputedPropertyName [RecWy R r] : Wy R (parseComputedPropertyName r) := by
  unfold parseComputedPropertyName; wy

instance wy_parsePropertyName [RecWy R r] : Wy R (parsePropertyName r) := by
  unfold parsePropertyName; wy

instance wy_classGetter {isStatic : Bool} [RecWy R r] : Wy R (classGetter r isStatic) := by
  unfold classGetter; wy

instance wy_classSetter {isStatic : Bool} [RecWy R r] : Wy R (classSetter r isStatic) := by
  unfold classSetter; wy

instance wy_classAsync {isStatic : Bool} [RecWy R r] : Wy R (classAsync r isStatic) := by
  unfold classAsync; wy

instance wy_classGenerator {isStatic : Bool} [RecWy R r] : Wy R (classGenerator r isStatic) := by
  unfold classGenerator; wy

instance wy_classMethod {isStatic : Bool} [RecWy R r] : Wy R (classMethod r isStatic) := by
  unfold classMethod; wy

instance wy_classItem [RecWy R r] : Wy R (classItem r) := by
  unfold classItem; wy

instance wy_parseClassBody [RecWy R r] : Wy R (parseClassBody r) := by
  unfold parseClassBody; wy

instance wy_parseClassTail {id : Option Node} [RecWy R r] : Wy R (parseClassTail r id) := by
  unfold parseClassTail; wy

instance wy_bindingIdNode {x0 : Binding}  : Wy R (bindingIdNode x0) := by
  unfold bindingIdNode; wy

/-- another word than the one wanted -/
theorem Wp.notKw {α : Type} {s s1 : Parser} {past : List Word} {w : Word} {v : Str} {g : LexGoal} {k : Token → PM α}
    {Q : α → Parser → List Word → Word → Prop} (h : Here R s past w) (hv : w.c ≠ .name v) (e1 : s1.current = s.current)
    (e2 : s1.scanner = s.scanner) : Wp R (Parser.consumeKw v g >>= k) s1 past w Q := by
  have hk : s1.current.isKw v = false := by
    cases hb : s1.current.isKw v with
    | false => rfl
    | true => rw [e1] at hb; exact absurd (h.cur.isKw hb) hv
  have he : (Parser.consumeKw v g >>= k) s1 = (unexpectedCurrent >>= k) s1 := by
    show ((if s1.current.isKw v = true then Parser.advance g else unexpectedCurrent) >>= k) s1 = _
    rw [hk]
    rfl
  constructor
  · intro a s' ha
    rw [he] at ha
    obtain ⟨_, _, h1, _⟩ := bind_ok_inv ha
    exact absurd h1 (fails_unexpectedCurrent.out _ _ _)
  · intro e ha
    rw [he] at ha
    rcases Pos.bind_err_inv ha with h1 | ⟨_, _, h1, _⟩
    · unfold unexpectedCurrent at h1
      rcases Pos.bind_err_inv h1 with h1 | ⟨_, _, _, h1⟩
      · unfold Parser.advance at h1
        split at h1 <;> cases h1
        next hn =>
        obtain ⟨text, hs, _⟩ := h.place
        rw [e2] at hn
        exact lexErr_because h (Pos.next_stop' hs.fresh hn)
      · cases h1
        exact h.because trivial
    · exact absurd h1 (fails_unexpectedCurrent.out _ _ _)

instance wy_parseClassDclr [RecWy R r] : Wy R (parseClassDclr r) := by
  unfold parseClassDclr
  constructor
  intro s past w h
  by_cases hw : w.c = .name cs!"class"
  · have hm : MadeStrict R.module (w :: past) := .inr (.inl ⟨w, List.mem_cons_self, hw⟩)
    refine Wp.get (Wp.setCtx h (fun _ => hm) fun h1 => Wp.step h1 fun _ s1 p1 w1 h1 l1 => Wp.step h1 fun _ s2 p2 w2 h2 l2 =>
      Wp.step h2 fun _ s3 p3 w3 h3 l3 => Wp.step h3 fun _ s4 p4 w4 h4 l4 => Wp.step h4 fun _ s5 p5 w5 h5 l5 => ?_)
    exact Wp.setCtx (f := fun x => { x.ctx with strict := s.ctx.strict }) h5
      (fun hs => madeStrict_mono (h.strict hs) (l1.trans (l2.trans (l3.trans (l4.trans l5))))) fun h6 => Wp.last h6
  · have := Wp.notKw (R := R) (Q := fun _ _ _ _ => True) (g := .regExp)
      (s1 := { s with ctx := { s.ctx with strict := true }, markerStack := ⟨s.current.lineNum, s.current.col, s.current.start⟩ :: s.markerStack })
      (k := fun _ => do
        let b ← parseBindingId
        let id ← bindingIdNode b
        let res ← parseClassTail r (some id)
        M.modify fun x => { x with ctx := { x.ctx with strict := s.ctx.strict } }
        pure res) h hw rfl rfl
    exact ⟨this.out, this.bad⟩

instance wy_parseClassExpr [RecWy R r] : Wy R (parseClassExpr r) := by
  unfold parseClassExpr
  constructor
  intro s past w h
  by_cases hw : w.c = .name cs!"class"
  · have hm : MadeStrict R.module (w :: past) := .inr (.inl ⟨w, List.mem_cons_self, hw⟩)
    refine Wp.get (Wp.setCtx h (fun _ => hm) fun h1 => Wp.step h1 fun _ s1 p1 w1 h1 l1 => Wp.step h1 fun _ s2 p2 w2 h2 l2 =>
      Wp.get ((by wy : Wy R _).out _ _ _ h2 |>.bind fun id s3 p3 w3 h3 l3 _ => Wp.step h3 fun _ s4 p4 w4 h4 l4 => ?_))
    exact Wp.setCtx (f := fun x => { x.ctx with strict := s.ctx.strict }) h4
      (fun hs => madeStrict_mono (h.strict hs) (l1.trans (l2.trans (l3.trans l4)))) fun h6 => Wp.last h6
  · have := Wp.notKw (R := R) (Q := fun _ _ _ _ => True) (g := .regExp)
      (s1 := { s with ctx := { s.ctx with strict := true }, markerStack := ⟨s.current.lineNum, s.current.col, s.current.start⟩ :: s.markerStack })
      (k := fun _ => do
        let s1 ← get
        let id ← (
          if s1.current.isIdOrKw then do
            let b ← parseBindingId
            let n ← bindingIdNode b
            pure (some n)
          else if s1.params.hasDefault then pure none
          else unexpectedCurrent)
        let res ← parseClassTail r id
        M.modify fun x => { x with ctx := { x.ctx with strict := s.ctx.strict } }
        pure res) h hw rfl rfl
    exact ⟨this.out, this.bad⟩

end Why
end Giron

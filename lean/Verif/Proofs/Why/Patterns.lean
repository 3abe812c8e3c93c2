import Verif.Proofs.Why.Names
/-
There is a reason for every error.  (One instance per method.)
-/
namespace Giron
namespace Why
open M Giron.Parser Layout Spec
variable [Env] {R : Src} {r : Rec}


/-- what is bound is not an expression -/
theorem wy_bound {β : Type} [h : RecWy R r] {k : Binding → PM β} (hk : ∀ b, (∀ n, b ≠ .expression n) → Wy R (k b)) :
    Wy R (r.bindingIdOrPat >>= k) := by
  constructor
  intro s past w hs
  have := h.bindingIdOrPat.out s past w hs
  constructor
  · intro b s'' hb
    obtain ⟨a, s', h1, h2⟩ := bind_ok_inv hb
    obtain ⟨p, v, j1, j2, _⟩ := this.out _ _ h1
    obtain ⟨p', v', l1, l2, l3⟩ := ((hk a (h.pattern _ _ _ h1)).out _ _ _ j1).out _ _ h2
    exact ⟨p', v', l1, j2.trans l2, l3⟩
  · intro e hb
    rcases Pos.bind_err_inv hb with h1 | ⟨a, s', h1, h2⟩
    · exact this.bad _ h1
    · obtain ⟨p, v, j1, j2, _⟩ := this.out _ _ h1
      exact ((hk a (h.pattern _ _ _ h1)).out _ _ _ j1).bad _ h2

instance wy_valueToKey {v : ValueOrExpr} {literal : Bool} {span : Span}  : Wy R (valueToKey v literal span) := by
  unfold valueToKey; wy

instance wy_objPatName [RecWy R r] : Wy R (objPatName r) := by
  unfold objPatName; wy

instance wy_shorthandName {v : ValueOrExpr}  : Wy R (shorthandName v) := by
  unfold shorthandName; wy

theorem wy_bindingToPropertyValue {line col : Nat} {x0 : Binding} (hx : ∀ n, x0 ≠ .expression n) : Wy R (bindingToPropertyValue line col x0) := by
  cases x0 with
  | expression n => exact absurd rfl (hx n)
  | _ => exact wy_still (hm := still_pure)

instance wy_objPatValue [RecWy R r] : Wy R (objPatValue r) := by
  unfold objPatValue
  refine wy_bind inferInstance fun _ => wy_bound fun b hb => ?_
  have := fun l c => wy_bindingToPropertyValue (R := R) (line := l) (col := c) hb
  wy

instance wy_objPatItem [RecWy R r] : Wy R (objPatItem r) := by
  unfold objPatItem; wy

instance wy_parseObjBindingPat [RecWy R r] : Wy R (parseObjBindingPat r) := by
  unfold parseObjBindingPat; wy

theorem wy_bindingToElement {line col : Nat} {x0 : Binding} (hx : ∀ n, x0 ≠ .expression n) : Wy R (bindingToElement line col x0) := by
  cases x0 with
  | expression n => exact absurd rfl (hx n)
  | _ => exact wy_still (hm := still_pure)

instance wy_arrPatItem [RecWy R r] : Wy R (arrPatItem r) := by
  unfold arrPatItem
  refine wy_bind inferInstance fun _ => wy_ite (by wy) (wy_ite (by wy) (wy_bound fun b hb => ?_))
  have := fun l c => wy_bindingToElement (R := R) (line := l) (col := c) hb
  wy

instance wy_parseArrBindingPat [RecWy R r] : Wy R (parseArrBindingPat r) := by
  unfold parseArrBindingPat; wy

instance wy_parseBindingIdOrPat [RecWy R r] : Wy R (parseBindingIdOrPat r) := by
  unfold parseBindingIdOrPat; wy

theorem wy_bindingToParam {line col : Nat} {x0 : Binding} (hx : ∀ n, x0 ≠ .expression n) : Wy R (bindingToParam line col x0) := by
  cases x0 with
  | expression n => exact absurd rfl (hx n)
  | _ => exact wy_still (hm := still_pure)

instance wy_formalParam [RecWy R r] : Wy R (formalParam r) := by
  unfold formalParam
  refine wy_bind inferInstance fun _ => wy_ite (by wy) (wy_bound fun b hb => ?_)
  have := fun l c => wy_bindingToParam (R := R) (line := l) (col := c) hb
  wy

instance wy_parseFormalParams [RecWy R r] : Wy R (parseFormalParams r) := by
  unfold parseFormalParams; wy

instance wy_parseParamsAndBody {generator async : Bool} [RecWy R r] : Wy R (parseParamsAndBody r generator async) := by
  unfold parseParamsAndBody; wy

end Why
end Giron

import Verif.Proofs.Why.Basic
/-
There is a reason for every error.  (One instance per method.)
-/
namespace Giron
namespace Why
open M Giron.Parser Layout Spec
variable [Env] {R : Src} {r : Rec}

variable {α : Type} {m : PM α}
instance [Wy R m] {b} : Wy R (withIn b m) := wy_withParams
instance [Wy R m] {b} : Wy R (withDefault b m) := wy_withParams
instance [Wy R m] {b} : Wy R (withReturn b m) := wy_withParams
instance [Wy R m] {b} : Wy R (withYield b m) := wy_withParams
instance [Wy R m] {b} : Wy R (withAwait b m) := wy_withParams
instance [Wy R m] {a b} : Wy R (withYieldAwait a b m) := wy_withParams

instance wy_consume {p : Punctuator} {g : LexGoal} : Wy R (consume p g) := by
  unfold consume; wy

instance wy_consumeKw {p : Str} {g : LexGoal} : Wy R (consumeKw p g) := by
  unfold consumeKw; wy

instance wy_consumeId {p : Str} {g : LexGoal} : Wy R (consumeId p g) := by
  unfold consumeId; wy

instance wy_consumeSemicolon {g : LexGoal} : Wy R (consumeSemicolon g) := by
  unfold consumeSemicolon; wy

section
variable {β : Type} {s : Parser} {past : List Word} {w : Word} {Q' : β → Parser → List Word → Word → Prop}

theorem fails_then {f : PM α} {k : α → PM β} [hf : Fails f] [hw : Wy R f] (h : Here R s past w) : Wp R (f >>= k) s past w Q' := by
  have := hw.out s past w h
  refine ⟨fun b s' hb => ?_, fun e he => ?_⟩
  · obtain ⟨a, s1, h1, _⟩ := bind_ok_inv hb
    exact absurd h1 (hf.out _ _ _)
  · rcases Pos.bind_err_inv he with h1 | ⟨a, s1, h1, _⟩
    · exact this.bad _ h1
    · exact absurd h1 (hf.out _ _ _)

theorem fails_any {f : PM α} {Q : α → Parser → List Word → Word → Prop} [hf : Fails f] [hw : Wy R f] (h : Here R s past w) :
    Wp R f s past w Q :=
  ⟨fun _ _ h1 => absurd h1 (hf.out _ _ _), (hw.out s past w h).bad⟩

theorem Wp.consume {p : Punctuator} {g : LexGoal} {k : Token → PM β} (h : Here R s past w)
    (hk : ∀ t s' w', w.c = .punct p → Here R s' (w :: past) w' → s'.ctx = s.ctx → Wp R (k t) s' (w :: past) w' Q') :
    Wp R (Parser.consume p g >>= k) s past w Q' := by
  unfold Parser.consume
  rw [bind_assoc]
  refine Wp.cur ?_
  split
  · next hp => exact Wp.advance h fun s' w' h' e => hk _ s' w' (h.cur.punc hp) h' e
  · exact fails_then h

theorem Wp.consumeKw {v : Str} {g : LexGoal} {k : Token → PM β} (h : Here R s past w)
    (hk : ∀ t s' w', w.c = .name v → Here R s' (w :: past) w' → s'.ctx = s.ctx → Wp R (k t) s' (w :: past) w' Q') :
    Wp R (Parser.consumeKw v g >>= k) s past w Q' := by
  unfold Parser.consumeKw
  rw [bind_assoc]
  refine Wp.cur ?_
  split
  · next hp => exact Wp.advance h fun s' w' h' e => hk _ s' w' (h.cur.isKw hp) h' e
  · exact fails_then h

theorem Wp.consumeId {v : Str} {g : LexGoal} {k : Token → PM β} (h : Here R s past w)
    (hk : ∀ t s' w', w.c = .name v → Here R s' (w :: past) w' → s'.ctx = s.ctx → Wp R (k t) s' (w :: past) w' Q') :
    Wp R (Parser.consumeId v g >>= k) s past w Q' := by
  unfold Parser.consumeId
  rw [bind_assoc]
  refine Wp.cur ?_
  split
  · next hp => exact Wp.advance h fun s' w' h' e => hk _ s' w' (h.cur.isId hp) h' e
  · exact fails_then h
end

/-! ### From some places -/

/-- true of these words, and then of more -/
class Since (D : List Word → Prop) : Prop where
  more : ∀ l l', l <:+ l' → D l → D l'

/-- from a place where this is true -/
def WyAt (R : Src) (D : List Word → Prop) (m : PM α) : Prop :=
  ∀ s past w, Here R s past w → D (w :: past) → Wp R m s past w fun _ _ _ _ => True

variable {β : Type} {D : List Word → Prop} [hD : Since D]
omit hD in
theorem Wy.at {m : PM α} (h : Wy R m) : WyAt R D m := fun s past w hs _ => h.out s past w hs
theorem wyAt_bind {m : PM α} {k : α → PM β} (h : WyAt R D m) (hk : ∀ a, WyAt R D (k a)) : WyAt R D (m >>= k) :=
  fun s past w hs hd => (h s past w hs hd).bind fun a s' p v h1 h2 _ => hk a s' p v h1 (hD.more _ _ h2 hd)
omit hD in
theorem wyAt_ite {c : Prop} [Decidable c] {m n : PM α} (h : WyAt R D m) (h' : WyAt R D n) : WyAt R D (if c then m else n) := by
  split <;> assumption
theorem wyAt_withParams {f : Params → Params} {m : PM α} (h : WyAt R D m) : WyAt R D (withParams f m) := by
  unfold withParams
  exact wyAt_bind (Wy.at inferInstance) fun _ =>
    wyAt_bind (Wy.at (inferInstance : Wy R (M.modify fun s => { s with params := (fun s => f s.params) s })))
    fun _ => wyAt_bind h fun a => wyAt_bind (Wy.at inferInstance) fun _ => Wy.at inferInstance
theorem wyAt_whilePuncF {p} {m : PM α} (h : WyAt R D m) (n : Nat) : WyAt R D (whilePuncF p m n) := by
  induction n with
  | zero => exact Wy.at (wy_still (hm := still_fuel))
  | succ n ih =>
    unfold whilePuncF
    exact wyAt_bind (Wy.at inferInstance) fun _ => wyAt_ite (wyAt_bind h fun _ => wyAt_bind ih fun _ => Wy.at inferInstance) (Wy.at inferInstance)
theorem wyAt_whilePunc {p} {m : PM α} (h : WyAt R D m) : WyAt R D (whilePunc p m) := fun s past w hs hd =>
  let h := wyAt_whilePuncF h (s.size + 1) s past w hs hd; ⟨h.out, h.bad⟩
theorem wyAt_untilPuncF {p} {m : PM α} (h : WyAt R D m) (n : Nat) : WyAt R D (untilPuncF p m n) := by
  induction n with
  | zero => exact Wy.at (wy_still (hm := still_fuel))
  | succ n ih =>
    unfold untilPuncF
    exact wyAt_bind (Wy.at inferInstance) fun _ => wyAt_ite (Wy.at inferInstance) (wyAt_bind h fun _ => wyAt_bind ih fun _ => Wy.at inferInstance)
theorem wyAt_untilPunc {p} {m : PM α} (h : WyAt R D m) : WyAt R D (untilPunc p m) := fun s past w hs hd =>
  let h := wyAt_untilPuncF h (s.size + 1) s past w hs hd; ⟨h.out, h.bad⟩

instance since_seen {v : Str} : Since (Seen v) := ⟨fun _ _ h h' => seen_mono h' h⟩
instance since_or {A B : List Word → Prop} [a : Since A] [b : Since B] : Since (fun l => A l ∨ B l) :=
  ⟨fun l l' h h' => h'.imp (a.more l l' h) (b.more l l' h)⟩
instance since_and {A B : List Word → Prop} [a : Since A] [b : Since B] : Since (fun l => A l ∧ B l) :=
  ⟨fun l l' h h' => h'.imp (a.more l l' h) (b.more l l' h)⟩
/-- true of the words before the last one -/
abbrev Before (D : List Word → Prop) (l : List Word) : Prop := D l.tail
instance since_before [hD : Since D] : Since (Before D) := by
  refine ⟨fun l l' h hd => hD.more l.tail l'.tail ?_ hd⟩
  cases l' with
  | nil => rw [List.suffix_nil.1 h]; exact List.suffix_refl _
  | cons a l' =>
    rcases List.suffix_cons_iff.1 h with rfl | h
    · exact List.suffix_refl _
    · exact (List.tail_suffix _).trans h
theorem suf_of_later {past past' : List Word} {w w' : Word} (h : Later past w past' w') : past <:+ past' := by
  rcases List.suffix_cons_iff.1 h with h | h
  · cases h; exact List.suffix_refl _
  · exact (List.suffix_cons _ _).trans h

end Why
end Giron

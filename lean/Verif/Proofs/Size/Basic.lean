import Verif.Spec.Size
import Verif.Spec.Spells
import Verif.Proofs.WF
/-
How many words a language has at least.
-/
namespace Giron.Size
open Giron Spec Lang

/-- what a word weighs: at most the number of its characters -/
def weight : Content → Nat
  | .eof => 0
  | .template _ _ _ _ => 2
  | .regexp _ flags => 2 + flags.length
  | _ => 1

/-- what words weigh -/
def load : List Mark → Nat
  | [] => 0
  | .word c :: ms => weight c + load ms
  | _ :: ms => load ms

theorem load_append (a b : List Mark) : load (a ++ b) = load a + load b := by
  induction a with
  | nil => simp [load]
  | cons m a ih => cases m <;> simp [load, ih, Nat.add_assoc]

/-- all sequences weigh at least `(n - d) / 12` -/
def Least (A : Lang) (n d : Nat) : Prop := ∀ ms, A ms → n ≤ 12 * load ms + d

variable {A B : Lang} {n d n' d' : Nat}

theorem Least.mono (h : Least A n d) (hn : n' + d ≤ n + d') : Least A n' d' := fun ms hm => by
  have := h ms hm; omega
theorem Least.any : Least A 0 0 := fun _ _ => Nat.zero_le _
theorem Least.free : Least A n n := fun _ _ => Nat.le_add_left _ _
theorem Least.nothing : Least Lang.nothing n d := fun _ h => h.elim
theorem Least.cat (h : Least A n d) (h' : Least B n' d') : Least (A ⬝ B) (n + n') (d + d') := by
  rintro _ ⟨a, b, rfl, ha, hb⟩
  have := h a ha
  have := h' b hb
  rw [load_append]
  omega
theorem Least.left (h : Least A n d) : Least (A ⬝ B) n d := (h.cat .any).mono (by omega)
theorem Least.right (h : Least B n d) : Least (A ⬝ B) n d := (Least.any.cat h).mono (by omega)
theorem Least.or (h : Least A n d) (h' : Least B n d) : Least (A.or B) n d := fun ms hm => hm.elim (h ms) (h' ms)
theorem Least.ite {c : Prop} [Decidable c] (h : c → Least A n d) (h' : ¬ c → Least B n d) : Least (if c then A else B) n d := by
  split
  · next hc => exact h hc
  · next hc => exact h' hc
theorem Least.only {b : Bool} (h : b = true → Least A n d) : Least (Lang.only b A) n d := by
  cases b
  · exact .nothing
  · exact h rfl
theorem Least.notFirst {bad : List Content} (h : Least A n d) : Least (Lang.notFirst bad A) n d := fun ms hm => h ms hm.1
theorem Least.pun {p : Punctuator} : Least (Lang.pun p) 12 0 := by rintro _ rfl; simp [load, weight]
theorem Least.word {v : Str} : Least (Lang.word v) 12 0 := by rintro _ rfl; simp [load, weight]
theorem Least.one {f : Content → Prop} (h : ∀ c, f c → 1 ≤ weight c) : Least (Lang.one f) 12 0 := by
  rintro _ ⟨c, rfl, hc⟩
  have := h c hc
  simp only [load]
  omega
theorem Least.sameLine (h : Least A n d) : Least (Spell.sameLine A) n d := .right h
theorem Least.sameLineIf {b : Bool} (h : Least A n d) : Least (Spell.sameLineIf b A) n d := by
  cases b
  · exact h
  · exact .sameLine h
theorem Least.bracketed {b : Bool} (h : Least A n d) : Least (Spell.bracketed b A) (n + 24) d :=
  .ite (fun _ => (Least.pun.cat (h.cat .pun)).mono (by omega)) fun _ => .nothing
theorem Least.plain {b : Bool} (h : Least A n d) : Least (Spell.plain b A) n d := .ite (fun _ => .nothing) fun _ => h
theorem Least.sign {op : Str} : Least (Spell.sign op) 12 0 := .one (by rintro _ ⟨p, rfl, _⟩; simp [weight])
theorem Least.operator {op : Str} : Least (Spell.operator op) 12 0 :=
  .one (by rintro _ (⟨p, rfl, _⟩ | ⟨_, rfl⟩) <;> simp [weight])
theorem value_weight {c : Content} {v : Value} (h : c.value? = some v) : 1 ≤ weight c := by
  cases c <;> first | exact Nat.le_refl _ | cases h
theorem Least.literalWord [Env] {v : Value} {raw : Str} : Least (Spell.literalWord v raw) 12 0 :=
  .one fun _ h => value_weight h.1
theorem Least.stringWord [Env] {l : Literal} : Least (Spell.stringWord l) 12 0 :=
  .one (by rintro _ ⟨v, o, rfl, _⟩; simp [weight])
theorem Least.patternName [Env] {s : Str} : Least (Spell.patternName s) 12 0 :=
  .one (by rintro _ ⟨v, h, _⟩; exact value_weight h)
theorem Least.quasi {first : Bool} {q : TemplateElement} : Least (Spell.quasi first q) 24 0 := by
  rintro _ ⟨c, rfl, head, rfl, _⟩
  simp [load, weight]
theorem Least.regexp {p f : Str} : Least (Lang.tok (.regexp p f)) (24 + 12 * f.length) 0 := by
  rintro _ rfl
  simp only [load, weight]
  omega
theorem Least.commaBetween {α : Type} {x : α} {l : List α} : Least (Spell.commaBetween (x :: l)) 12 0 := .pun
theorem Least.commaAfter {α : Type} {x : α} {l : List α} : Least (Spell.commaAfter (x :: l)) 12 0 := .pun

/-! ### Well-formed trees -/

/-- a part of a well-formed tree -/
def Ok (it : Item) : Prop := ∃ L c, WF L c it

theorem Ok.kids {it : Item} (h : Ok it) (k : Item) (hk : k ∈ children it) : Ok k := by
  obtain ⟨L, c, h⟩ := h
  cases h with
  | mk h hk' => exact ⟨_, _, hk' k hk⟩

/-- an expression statement -/
def isWrapped : Node → Bool
  | .expressionStatement _ _ => true
  | _ => false

theorem Ok.expr {n : Node} (h : Ok (.node .expr n)) : isWrapped n = false := by
  obtain ⟨L, c, h⟩ := h
  cases h with
  | mk h _ =>
    have : isExpr n = true := h.1
    cases n <;> first | rfl | cases this

/-- an expression may yet become a statement, without any further words -/
def slack (n : Node) : Nat := if isWrapped n then 0 else 2

end Giron.Size

import Verif.Spec.Atoms
/-
Weights of words and of the objects of the JSON.
-/
namespace Giron.Atoms
open Giron Spec Lang

/-- what words weigh -/
def load (w : Content → Nat) : List Mark → Nat
  | [] => 0
  | .word c :: ms => w c + load w ms
  | _ :: ms => load w ms

theorem load_append (w : Content → Nat) (a b : List Mark) : load w (a ++ b) = load w a + load w b := by
  induction a with
  | nil => simp [load]
  | cons m a ih => cases m <;> simp [load, ih, Nat.add_assoc]

/-- the types of the objects that may have a weight -/
def special : List Str := [cs!"Literal", cs!"Identifier", cs!"BindingIdentifier", cs!"Regex", cs!"TemplateElement"]

/-- Weights of words and of objects such that objects weigh no more (`lo`, `up`), and words no more (`dn`, `hi`). -/
structure Probe [Env] where
  up : Content → Nat
  dn : Content → Nat
  lo : List (Str × Json) → Nat
  hi : List (Str × Json) → Nat
  zero : ∀ T ms, T ∉ special → lo ((cs!"type", .str T) :: ms) = 0
  quietName : ∀ v, dn (.name v) = 0
  quietPun : ∀ p, dn (.punct p) = 0
  name : ∀ v, lo [(cs!"type", .str cs!"Identifier"), (cs!"name", .str v)] + lo [(cs!"type", .str cs!"Identifier"), (cs!"name", .str v)] ≤ up (.name v)
  bind : ∀ v, lo [(cs!"type", .str cs!"BindingIdentifier"), (cs!"name", .str v)] ≤ up (.name v)
  key : ∀ c v, c.value? = some v →
    lo [(cs!"type", .str cs!"Identifier"), (cs!"name", .str v.toString)] + lo [(cs!"type", .str cs!"Identifier"), (cs!"name", .str v.toString)] ≤ up c ∧
    dn c ≤ hi [(cs!"type", .str cs!"Identifier"), (cs!"name", .str v.toString)]
  lit : ∀ c v raw, c.value? = some v → lo [(cs!"type", .str cs!"Literal"), (cs!"value", valueJson v), (cs!"raw", .str raw)] ≤ up c ∧
    dn c ≤ hi [(cs!"type", .str cs!"Literal"), (cs!"value", valueJson v), (cs!"raw", .str raw)]
  regex : ∀ p f, lo [(cs!"type", .str cs!"Regex"), (cs!"pattern", .str p), (cs!"flags", .arr (f.map fun c => .str [c]))] ≤ up (.regexp p f) ∧
    dn (.regexp p f) ≤ hi [(cs!"type", .str cs!"Regex"), (cs!"pattern", .str p), (cs!"flags", .arr (f.map fun c => .str [c]))]
  chunk : ∀ r c h t, lo [(cs!"type", .str cs!"TemplateElement"),
      (cs!"value", tagged cs!"TemplateElementValue" [(cs!"cooked", .str c), (cs!"raw", .str r)]), (cs!"tail", .bool t)] ≤ up (.template r c h t) ∧
    dn (.template r c h t) ≤ hi [(cs!"type", .str cs!"TemplateElement"),
      (cs!"value", tagged cs!"TemplateElementValue" [(cs!"cooked", .str c), (cs!"raw", .str r)]), (cs!"tail", .bool t)]

variable [Env] {P : Probe} {A B : Lang} {l h l' h' : Nat}

/-- the words of all sequences weigh at least `l` and at most `h` -/
def Fits (P : Probe) (A : Lang) (l h : Nat) : Prop := ∀ ms, A ms → l ≤ load P.up ms ∧ load P.dn ms ≤ h

theorem Fits.mono (H : Fits P A l h) (hl : l' ≤ l) (hh : h ≤ h') : Fits P A l' h' := fun ms hm =>
  ⟨Nat.le_trans hl (H ms hm).1, Nat.le_trans (H ms hm).2 hh⟩
theorem Fits.nothing : Fits P Lang.nothing l h := fun _ h => h.elim
theorem Fits.eps : Fits P Lang.eps 0 0 := by rintro _ rfl; exact ⟨Nat.le_refl _, Nat.le_refl _⟩
theorem Fits.cat (H : Fits P A l h) (H' : Fits P B l' h') : Fits P (A ⬝ B) (l + l') (h + h') := by
  rintro _ ⟨a, b, rfl, ha, hb⟩
  rw [load_append, load_append]
  exact ⟨Nat.add_le_add (H a ha).1 (H' b hb).1, Nat.add_le_add (H a ha).2 (H' b hb).2⟩
theorem Fits.or (H : Fits P A l h) (H' : Fits P B l h) : Fits P (A.or B) l h := fun ms hm => hm.elim (H ms) (H' ms)
theorem Fits.ite {c : Prop} [Decidable c] (H : c → Fits P A l h) (H' : ¬ c → Fits P B l h) : Fits P (if c then A else B) l h := by
  split
  · exact H ‹_›
  · exact H' ‹_›
theorem Fits.only {b : Bool} (H : b = true → Fits P A l h) : Fits P (Lang.only b A) l h := by
  cases b
  · exact .nothing
  · exact H rfl
theorem Fits.notFirst {bad : List Content} (H : Fits P A l h) : Fits P (Lang.notFirst bad A) l h := fun ms hm => H ms hm.1
theorem Fits.pun {p : Punctuator} : Fits P (Lang.pun p) 0 0 := by
  rintro _ rfl; exact ⟨Nat.zero_le _, by simp [load, P.quietPun]⟩
theorem Fits.word {v : Str} : Fits P (Lang.word v) (P.up (.name v)) 0 := by
  rintro _ rfl; exact ⟨by simp [load], by simp [load, P.quietName]⟩
theorem Fits.keyword {v : Str} : Fits P (Lang.word v) 0 0 := Fits.word.mono (Nat.zero_le _) (Nat.le_refl _)
theorem Fits.mark {m : Mark} (hm : ∀ c, m ≠ .word c) : Fits P (Lang.mark m) 0 0 := by
  rintro _ rfl
  cases m <;> first | exact absurd rfl (hm _) | exact ⟨Nat.zero_le _, Nat.le_refl _⟩
theorem Fits.one {f : Content → Prop} (H : ∀ c, f c → l ≤ P.up c ∧ P.dn c ≤ h) : Fits P (Lang.one f) l h := by
  rintro _ ⟨c, rfl, hc⟩
  exact ⟨by simpa [load] using (H c hc).1, by simpa [load] using (H c hc).2⟩
theorem Fits.opt (H : Fits P A 0 0) : Fits P (Lang.opt A) 0 0 := .or H .eps
theorem Fits.pre {b : Bool} (H : Fits P A 0 0) : Fits P (Lang.pre b A) 0 0 := .ite (fun _ => H) fun _ => .eps
theorem Fits.semicolons : Fits P Lang.semicolons 0 0 := by
  intro ms hm
  refine ⟨Nat.zero_le _, ?_⟩
  induction ms with
  | nil => exact Nat.le_refl _
  | cons m ms ih =>
    rw [hm m (.head _)]
    simpa [load, P.quietPun] using ih fun c hc => hm c (.tail _ hc)
theorem Fits.semi : Fits P Spell.semi 0 0 := .or .pun (.mark nofun)
theorem Fits.sameLine (H : Fits P A l h) : Fits P (Spell.sameLine A) l h :=
  (Fits.cat (.mark (m := .joined) nofun) H).mono (Nat.le_of_eq (Nat.zero_add _).symm) (Nat.le_of_eq (Nat.zero_add _))
theorem Fits.sameLineIf {b : Bool} (H : Fits P A l h) : Fits P (Spell.sameLineIf b A) l h := .ite (fun _ => H.sameLine) fun _ => H
theorem Fits.zero2 (H : Fits P A l h) (H' : Fits P B 0 0) : Fits P (A ⬝ B) l h := H.cat H'
theorem Fits.bracketed {b : Bool} (H : Fits P A l h) : Fits P (Spell.bracketed b A) l h :=
  .ite (fun _ => (Fits.cat .pun (.cat H .pun)).mono (by omega) (by omega)) fun _ => .nothing
theorem Fits.plain {b : Bool} (H : Fits P A l h) : Fits P (Spell.plain b A) l h := .ite (fun _ => .nothing) fun _ => H
theorem Fits.sign {op : Str} : Fits P (Spell.sign op) 0 0 := .one (by rintro _ ⟨p, rfl, _⟩; exact ⟨Nat.zero_le _, Nat.le_of_eq (P.quietPun p)⟩)
theorem Fits.operator {op : Str} : Fits P (Spell.operator op) 0 0 :=
  .one (by
    rintro _ (⟨p, rfl, _⟩ | ⟨_, rfl⟩)
    · exact ⟨Nat.zero_le _, Nat.le_of_eq (P.quietPun p)⟩
    · exact ⟨Nat.zero_le _, Nat.le_of_eq (P.quietName _)⟩)
theorem Fits.commaBetween {α : Type} {l : List α} : Fits P (Spell.commaBetween l) 0 0 := .ite (fun _ => .eps) fun _ => .pun
theorem Fits.commaAfter {α : Type} {l : List α} : Fits P (Spell.commaAfter l) 0 0 := .ite (fun _ => .opt .pun) fun _ => .pun
theorem Fits.arrowBody {e : Bool} (H : Fits P A l h) : Fits P (Spell.arrowBody e A) l h := .ite (fun _ => .notFirst H) fun _ => H
theorem Fits.loopWord : Fits P (Lang.opt (Lang.one fun c => ∃ v ∈ [cs!"var", cs!"let", cs!"const"], c = .name v)) 0 0 :=
  .opt (.one (by rintro _ ⟨v, _, rfl⟩; exact ⟨Nat.zero_le _, Nat.le_of_eq (P.quietName _)⟩))
theorem Fits.accessor {kind : Str} {A : Lang} (H : Spell.accessor kind = some A) : Fits P A 0 0 := by
  unfold Spell.accessor at H
  split at H
  · cases H; exact .keyword
  · split at H
    · cases H; exact .keyword
    · cases H
theorem Fits.modifiers {f : FnExpr} : Fits P (Spell.modifiers f) 0 0 := by
  cases f; exact Fits.zero2 (.pre .keyword) (.pre .pun)
theorem Fits.propertyPrefix {kind : Str} {v : Option PropertyValue} : Fits P (Spell.propertyPrefix kind v) 0 0 := by
  unfold Spell.propertyPrefix
  split
  · exact .accessor ‹_›
  · exact .only fun _ => .modifiers
  · exact .only fun _ => .modifiers
  · exact .only fun _ => .opt .keyword
theorem Fits.methodPrefix {c : Bool} {k : Node} {kind : Str} {v : Option FnExpr} : Fits P (Spell.methodPrefix c k kind v) 0 0 := by
  unfold Spell.methodPrefix
  split
  · exact .accessor ‹_›
  · exact .only fun _ => Fits.zero2 (.pre (.zero2 .keyword (.mark (by intro c; split <;> exact nofun)))) (.pre .pun)
  · exact .nothing
theorem Fits.propertyMark {v : Option PropertyValue} {a b : Bool} : Fits P (Spell.propertyMark v a b) 0 0 := by
  unfold Spell.propertyMark
  split
  · exact .ite (fun _ => .eps) fun _ => .nothing
  · exact .ite (fun _ => .eps) fun _ => .nothing
  · exact .ite (fun _ => .eps) fun _ => .nothing
  · exact .ite (fun _ => .nothing) fun _ => .ite (fun _ => .pun) fun _ => .pun

/-! ### The objects -/

theorem tally_plain (T : Str) (ms : List (Str × Json)) (hT : decide (T ∉ special) = true) :
    tally P.lo (tagged T ms) = tallyMembers P.lo ms := by
  rw [tagged, tally, P.zero T ms (of_decide_eq_true hT), tallyMembers, tallyMember, tally]; omega
theorem tally_tagged (w : List (Str × Json) → Nat) (T : Str) (ms : List (Str × Json)) :
    tally w (tagged T ms) = w ((cs!"type", .str T) :: ms) + tallyMembers w ms := by
  rw [tagged, tally, tallyMembers, tallyMember, tally]; omega
theorem tally_hi (T : Str) (ms : List (Str × Json)) :
    tally P.hi (tagged T ms) = P.hi ((cs!"type", .str T) :: ms) + tallyMembers P.hi ms := tally_tagged _ _ _
theorem tally_lit (ms : List (Str × Json)) :
    tally P.lo (tagged cs!"Literal" ms) = P.lo ((cs!"type", .str cs!"Literal") :: ms) + tallyMembers P.lo ms := tally_tagged _ _ _
theorem tally_id (ms : List (Str × Json)) :
    tally P.lo (tagged cs!"Identifier" ms) = P.lo ((cs!"type", .str cs!"Identifier") :: ms) + tallyMembers P.lo ms := tally_tagged _ _ _
theorem tally_bind (ms : List (Str × Json)) :
    tally P.lo (tagged cs!"BindingIdentifier" ms) = P.lo ((cs!"type", .str cs!"BindingIdentifier") :: ms) + tallyMembers P.lo ms := tally_tagged _ _ _
theorem tally_regex (ms : List (Str × Json)) :
    tally P.lo (tagged cs!"Regex" ms) = P.lo ((cs!"type", .str cs!"Regex") :: ms) + tallyMembers P.lo ms := tally_tagged _ _ _
theorem tally_chunk (ms : List (Str × Json)) :
    tally P.lo (tagged cs!"TemplateElement" ms) = P.lo ((cs!"type", .str cs!"TemplateElement") :: ms) + tallyMembers P.lo ms := tally_tagged _ _ _
theorem tally_value (v : Value) : tally P.lo (valueJson v) = 0 := by
  cases v with
  | punc p => cases p <;> exact tally_plain _ _ (by decide)
  | _ => rfl
theorem tally_flags (w : List (Str × Json) → Nat) (f : Str) : tallyItems w (f.map fun c => Json.str [c]) = 0 := by
  induction f with
  | nil => rfl
  | cons c f ih => simp only [List.map, tallyItems, tally, ih]

end Giron.Atoms

import Verif.Proofs.JsonText
import Verif.Thm.Json
import Verif.Thm.LexicalWitness
import Verif.Thm.Witness
/-
C55 and C56: the numbers of the output, and the JSON text that giron-wasm hands to `JSON.parse`.
-/
namespace Giron
open Spec

/-! ### C55: numbers -/

theorem Num.val_nonneg (x : Num) : 0 ≤ x.val := by
  unfold Num.val
  exact Rat.mul_nonneg (Rat.natCast_nonneg) (Rat.le_of_lt (Rat.zpow_pos (by decide)))

/-- C55: the double of a literal is the nearest to the number that is written, and there is only one such double. -/
theorem C55_nearest (x : Num) (y : F64) : Nearest x.val y ↔ y = x.toF64 := by
  constructor
  · intro h
    exact nearest_unique h (round_nearest x.val_nonneg)
  · rintro rfl
    exact round_nearest x.val_nonneg

/-- C55: the numbers of the specification's `JSON.parse` are the nearest doubles, too. -/
theorem C55_reader_nearest {v : Rat} (h : 0 ≤ v) (y : F64) : Nearest v y ↔ y = F64.round v :=
  ⟨fun h' => nearest_unique h' (round_nearest h), fun h' => h' ▸ round_nearest h⟩

theorem nearest_inf {v : Rat} {y : F64} (h : Nearest v y) : y = .inf ↔ tooLarge ≤ v := by
  cases h with
  | fin h1 h2 => exact ⟨fun h => F64.noConfusion h, fun h => absurd h (Rat.not_le.mpr h2)⟩
  | inf h => exact ⟨fun _ => h, fun _ => rfl⟩

theorem readNumber_nonneg {s r : Str} {q : Rat} (h : readNumber s = some (q, r)) : 0 ≤ q := by
  unfold readNumber at h
  dsimp only at h
  split at h
  · cases h
  · simp only [Option.bind_eq_bind, Option.bind_eq_some_iff, Option.some.injEq, Prod.mk.injEq] at h
    obtain ⟨_, -, _, -, rfl, -⟩ := h
    exact Rat.mul_nonneg (Rat.natCast_nonneg) (Rat.le_of_lt (Rat.zpow_pos (by decide)))

/-- The value of a number literal in the tree, as it is written in the JSON text and read by `JSON.parse`. -/
theorem C55_value (tie : Nat → Bool) (x : Num) :
    (x.val < tooLarge → ∃ y, Nearest x.val y ∧ jsonParse ((valueJson (.num x)).text tie) = some (.num false y)) ∧
    (tooLarge ≤ x.val → jsonParse ((valueJson (.num x)).text tie) = some .null) := by
  have hn := (C55_nearest x x.toF64).2 rfl
  have hp := jsonParse_text tie (.num x)
  simp only [view] at hp
  constructor
  · intro h
    refine ⟨x.toF64, hn, ?_⟩
    rw [if_neg (fun h' => absurd ((nearest_inf hn).1 h') (Rat.not_le.mpr h))] at hp
    exact hp
  · intro h
    rw [if_pos ((nearest_inf hn).2 h)] at hp
    exact hp

/-- C55: a number literal of the source reaches JavaScript as the double nearest to what is written there, unless that is
infinity. -/
theorem C55_literal [Env] {source : Str} {s s' : Scanner} {t : Token} {goal : LexGoal} (hs : Reached source s)
    (h : Scanner.next goal s = .ok (t, s')) (ht : t.tokentype = .numericLiteral) (tie : Nat → Bool) :
    ∃ w x n, s.rest = w ++ x ++ s'.rest ∧ Trivia w (x ++ s'.rest) ∧ Number x s'.rest n ∧
      (n.val < tooLarge → ∃ y, Nearest n.val y ∧ jsonParse ((valueJson t.value).text tie) = some (.num false y)) ∧
      (tooLarge ≤ n.val → jsonParse ((valueJson t.value).text tie) = some .null) := by
  obtain ⟨w, x, n, h1, h2, h3, h4⟩ := C22_number hs h ht
  rw [h4]
  exact ⟨w, x, n, h1, h2, h3, C55_value tie n⟩

/-- C55: the `raw` of a number, read as a number, has the same nearest double; of a number too large it is `inf`. -/
theorem C55_raw [Env] (tie : Nat → Bool) (henv : ∀ x, Env.showNum x = x.toF64.display tie) (x : Num) :
    (x.val < tooLarge → ∃ q, readNumber (Value.toString (.num x)) = some (q, []) ∧
      ∀ y, Nearest x.val y → Nearest q y) ∧
    (tooLarge ≤ x.val → Value.toString (.num x) = cs!"inf") := by
  have hn := (C55_nearest x x.toF64).2 rfl
  have hs : Value.toString (.num x) = x.toF64.display tie := henv x
  rw [hs]
  constructor
  · intro h
    cases he : x.toF64 with
    | inf => exact absurd ((nearest_inf hn).1 he) (Rat.not_le.mpr h)
    | fin m e =>
      obtain ⟨q, hq, hr⟩ := readNumber_display tie (toF64_isDouble he)
      refine ⟨q, hq, fun y hy => ?_⟩
      have hy' := (C55_nearest x y).1 hy
      rw [hy', he, ← hr]
      refine round_nearest (readNumber_nonneg hq)
  · intro h
    rw [(nearest_inf hn).2 h]
    rfl

/-- C55: line, column and offset reach JavaScript unchanged as long as they are below `2 ^ 53`. -/
theorem C55_position_exact (tie : Nat → Bool) {n : Nat} (h : n < 2 ^ 53) :
    ∃ m e, IsDouble m e ∧ doubleVal m e = n ∧ jsonParse ((natJson n).text tie) = some (.num false (.fin m e)) := by
  have hp := jsonParse_text tie (natJson n)
  simp only [natJson, view] at hp
  have key : ∃ m e, IsDouble m e ∧ doubleVal m e = (n : Rat) := by
    by_cases h0 : n = 0
    · subst h0
      exact ⟨0, -1074, ⟨by decide, .inr rfl, by decide, by decide⟩, by rw [doubleVal]; exact Rat.zero_mul _⟩
    · have hl : n.log2 < 53 := (Nat.log2_lt h0).2 h
      have h1 := Nat.log2_self_le h0
      have h2 := Nat.lt_log2_self (n := n)
      have e52 : 2 ^ n.log2 * 2 ^ (52 - n.log2) = 2 ^ 52 := by rw [← Nat.pow_add]; congr 1; omega
      refine ⟨n * 2 ^ (52 - n.log2), -((52 - n.log2 : Nat) : Int), ⟨?_, .inl ?_, by omega, by omega⟩, ?_⟩
      · calc n * 2 ^ (52 - n.log2) < 2 ^ (n.log2 + 1) * 2 ^ (52 - n.log2) :=
              Nat.mul_lt_mul_of_pos_right h2 (Nat.pow_pos (by decide))
          _ = 2 ^ 53 := by rw [← Nat.pow_add]; congr 1; omega
      · rw [← e52]; exact Nat.mul_le_mul_right _ h1
      · rw [doubleVal]
        have hc : ((n * 2 ^ (52 - n.log2) : Nat) : Rat) = (n : Rat) * (2 : Rat) ^ ((52 - n.log2 : Nat) : Int) := by
          rw [two_nat, Rat.natCast_mul]
        rw [hc, Rat.mul_assoc, Rat.mul_comm ((2 : Rat) ^ _), two_neg, Rat.mul_one]
  obtain ⟨m, e, hd, hv⟩ := key
  refine ⟨m, e, hd, hv, ?_⟩
  rw [← hv, round_double hd] at hp
  exact hp

/-- C55: 0.1 is not a double; the nearest one is taken. -/
example : (⟨1, -1⟩ : Num).toF64 = .fin 7205759403792794 (-56) ∧ (⟨1, -1⟩ : Num).val < tooLarge := by decide +kernel
/-- C55: `2 ^ 53 + 1` is half way between two doubles; the even one is taken. -/
example : (⟨9007199254740993, 0⟩ : Num).toF64 = .fin 4503599627370496 1 := by decide +kernel
/-- C55: the largest double and the first number that is too large. -/
example : (⟨17976931348623157, 292⟩ : Num).toF64 = .fin 9007199254740991 971 ∧ (⟨1, 309⟩ : Num).toF64 = .inf ∧
    tooLarge ≤ (⟨1, 309⟩ : Num).val := by decide +kernel
/-- C55: the smallest double, and half of it. -/
example : (⟨5, -324⟩ : Num).toF64 = .fin 1 (-1074) ∧ (⟨2, -324⟩ : Num).toF64 = .fin 0 (-1074) := by decide +kernel
/-- C55: how they are written. -/
example : (F64.fin 7205759403792794 (-56)).json (fun _ => true) = cs!"0.1" ∧
    (F64.fin 9007199254740991 971).json (fun _ => true) = cs!"1.7976931348623157e308" ∧
    (F64.fin 1 (-1074)).json (fun _ => true) = cs!"5e-324" ∧
    (F64.fin 5629499534213120 (-52)).display (fun _ => true) = cs!"1.25" := by decide +kernel

set_option maxRecDepth 20000 in
/-- C55: a reachable scanner that reads a number literal which is no double. -/
example : letI := ascii; ∃ s t s', Reached cs!"x = 0.1;" s ∧ Scanner.next .regExp s = .ok (t, s') ∧
    (decide (t.tokentype = .numericLiteral ∧ t.value = .num ⟨1, -1⟩)) = true :=
  letI := ascii; scanCheck_reached (goals := [.regExp, .div]) (by decide +kernel)

/-! ### C56: the text -/

/-- A value within a value. -/
inductive Spec.Val.Within : Val → Val → Prop
  | refl {v : Val} : Within v v
  | arr {v u : Val} {l : List Val} (h : Within v u) (hu : u ∈ l) : Within v (.arr l)
  | obj {v u : Val} {key : Str} {l : List (Str × Val)} (h : Within v u) (hu : (key, u) ∈ l) : Within v (.obj l)

theorem viewItems_eq (l : List Json) : viewItems l = l.map view := by
  induction l with
  | nil => rfl
  | cons j l ih => rw [viewItems, ih]; rfl

theorem viewMembers_eq (l : List (Str × Json)) : viewMembers l = l.map fun m => (m.1, view m.2) := by
  induction l with
  | nil => rfl
  | cons m l ih => rw [viewMembers, ih]; cases m; rfl

theorem view_num_ne {x : Num} {l : List (Str × Val)} : view (.num x) ≠ .obj l := by
  simp only [view]; split <;> exact fun h => by cases h

theorem view_obj {j : Json} {l : List (Str × Val)} (h : view j = .obj l) :
    ∃ ms, j = .obj ms ∧ l = ms.map fun m => (m.1, view m.2) := by
  cases j with
  | obj ms => simp only [view, Val.obj.injEq] at h; exact ⟨ms, rfl, by rw [← h, viewMembers_eq]⟩
  | num x => exact absurd h view_num_ne
  | _ => simp [view] at h

theorem view_within {v u : Val} (h : Val.Within v u) : ∀ j, u = view j → ∃ k, Within k j ∧ v = view k := by
  induction h with
  | refl => exact fun j h => ⟨j, .refl, h⟩
  | arr h hu ih =>
    intro j hj
    cases j with
    | arr items =>
      simp only [view, Val.arr.injEq, viewItems_eq] at hj
      subst hj
      obtain ⟨i, hi, rfl⟩ := List.mem_map.1 hu
      obtain ⟨k, hk, e⟩ := ih i rfl
      exact ⟨k, .arr hk hi, e⟩
    | num x => simp only [view] at hj; split at hj <;> cases hj
    | _ => simp [view] at hj
  | obj h hu ih =>
    intro j hj
    obtain ⟨ms, rfl, e⟩ := view_obj hj.symm
    subst e
    obtain ⟨m, hm, e⟩ := List.mem_map.1 hu
    cases e
    obtain ⟨k, hk, e⟩ := ih m.2 rfl
    exact ⟨k, .obj (key := m.1) hk hm, e⟩

/-- C56: what giron-wasm hands to `JSON.parse` is a JSON text, and it denotes the tree, value for value and in order; an
error is no JSON text. -/
theorem C56_reads_back [Env] {source : Str} {r : JsResult} (tie : Nat → Bool)
    (h : wasmParseScript source = some r ∨ wasmParseModule source = some r) :
    (∃ t text, Accepted source t ∧ r.json tie = some text ∧ jsonParse text = some (view (nodeJson t))) ∨
    (∃ e, r = .text e.debug ∧ r.json tie = none ∧
      (parseScript source = .error (.err e) ∨ parseModule source = .error (.err e))) := by
  have key : ∀ x : Except Fail Node, jsResult x = some r → (∀ t, x = .ok t → Accepted source t) →
      (∀ e, x = .error (.err e) → parseScript source = .error (.err e) ∨ parseModule source = .error (.err e)) →
      (∃ t text, Accepted source t ∧ r.json tie = some text ∧ jsonParse text = some (view (nodeJson t))) ∨
      (∃ e, r = .text e.debug ∧ r.json tie = none ∧
        (parseScript source = .error (.err e) ∨ parseModule source = .error (.err e))) := by
    intro x hx h1 h2
    unfold jsResult at hx
    split at hx
    · rename_i t
      cases hx
      exact Or.inl ⟨t, _, h1 t rfl, rfl, jsonParse_text tie _⟩
    · rename_i e
      cases hx
      exact Or.inr ⟨e, rfl, rfl, h2 e rfl⟩
    · cases hx
  rcases h with h | h
  · exact key _ h (fun t e => Or.inl e) fun e h => Or.inl h
  · exact key _ h (fun t e => Or.inr e) fun e h => Or.inr h

/-- C56: no object that JavaScript gets has two members of one name in the text, so no member is lost. -/
theorem C56_no_member_lost [Env] {source : Str} {t : Node} (ht : Accepted source t) (tie : Nat → Bool) {v : Val}
    (hv : jsonParse ((nodeJson t).text tie) = some v) {members : List (Str × Val)} (h : Val.Within (.obj members) v) :
    (members.map Prod.fst).Nodup := by
  rw [jsonParse_text, Option.some.injEq] at hv
  obtain ⟨k, hk, e⟩ := view_within h _ hv.symm
  obtain ⟨ms, rfl, e'⟩ := view_obj e.symm
  have := C36_keys_distinct ht hk
  rw [e', List.map_map]
  exact this

/-- C56: how the shortest digits of a number are chosen if two are as near makes no difference: JavaScript gets the same. -/
theorem C56_ties_unseen (tie tie' : Nat → Bool) (j : Json) : jsonParse (j.text tie) = jsonParse (j.text tie') := by
  rw [jsonParse_text, jsonParse_text]

/-- C56: two trees with the same text are the same to JavaScript. -/
theorem C56_injective (tie tie' : Nat → Bool) {j k : Json} (h : j.text tie = k.text tie') : view j = view k := by
  have := jsonParse_text tie j
  rw [h, jsonParse_text, Option.some.injEq] at this
  exact this.symm

/-- the text of a result -/
def textOf [Env] (tie : Nat → Bool) (r : Option JsResult) : Option Str := r.bind (JsResult.json tie)

set_option maxRecDepth 20000 in
/-- C56: a whole text, with an escape, a fraction and a number that is too large for a double (it becomes `null`). -/
example : letI := ascii; textOf (fun _ => true) (wasmParseScript cs!"f('\\n', 0.5, 1e400)") = some
    cs!"{\"type\":\"Program\",\"body\":[{\"type\":\"ExpressionStatement\",\"expression\":{\"type\":\"CallExpression\",\"callee\":{\"type\":\"Identifier\",\"name\":\"f\"},\"arguments\":[{\"type\":\"Literal\",\"value\":\"\\n\",\"raw\":\"\\n\"},{\"type\":\"Literal\",\"value\":0.5,\"raw\":\"5\"},{\"type\":\"Literal\",\"value\":null,\"raw\":\"1\"}]}}],\"sourceType\":\"script\"}" := by
  decide +kernel

set_option maxRecDepth 20000 in
/-- C56: the reader of the specification reads what others write, and refuses what is not JSON. -/
example :
    (match jsonParse cs!" { \"a\" : [ 1e0 , -2.50E+1, \"\\u0041\\ud83d\\ude00\" ] } " with
      | some (.obj [(k, .arr [.num a x, .num b y, .str s])]) => decide (k = cs!"a" ∧ a = false ∧
          x = .fin 4503599627370496 (-52) ∧ b = true ∧ y = .fin 7036874417766400 (-48) ∧ s = cs!"A😀")
      | _ => false) = true ∧
    (jsonParse cs!"[01]").isNone ∧ (jsonParse cs!"[1,]").isNone ∧ (jsonParse cs!"{a:1}").isNone ∧
    (jsonParse cs!"inf").isNone ∧ (jsonParse cs!"\"a\nb\"").isNone := by
  decide +kernel

end Giron

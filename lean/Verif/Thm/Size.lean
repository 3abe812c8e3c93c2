import Verif.Proofs.Size.Tree
import Verif.Proofs.Layout.Barrier
import Verif.Thm.Spell
import Verif.Thm.Path
/-
C54: the tree is not much bigger than the source.
-/
set_option maxRecDepth 20000
namespace Giron
open Spec

namespace Size
variable [Env]

theorem tail_length {x r v : Str} (h : IdTail x r v) : v.length ≤ x.length := by
  induction h with
  | done => exact Nat.le_refl _
  | char _ _ _ ih => simpa using ih
  | escape _ _ ih => simp; omega

theorem lexeme_length {g : LexGoal} {b : Bool} {x r : Str} {c : Content} (h : Lexeme g b x r c) : weight c ≤ x.length := by
  cases h with
  | eof => exact Nat.zero_le _
  | name => simp [weight]
  | number h => exact List.length_pos_iff.mpr (Layout.lexeme_ne (g := .div) (q := false) (.number h) nofun)
  | string => simp [weight]
  | template h => cases h <;> simp [weight] <;> omega
  | regexp _ _ _ h => have := tail_length h; simp [weight]; omega
  | punct h h1 h2 h3 => exact List.length_pos_iff.mpr (Layout.lexeme_ne (.punct h h1 h2 h3) nofun)

theorem lexes_length {text : Str} {ws : List Word} (h : Lexes text ws) : (ws.map fun w => weight w.c).sum ≤ text.length := by
  induction h with
  | done => simp [weight]
  | word _ _ h _ _ ih => have := lexeme_length h; simp; omega

theorem obeys_load {passed : List Word} {ms : List Mark} {ws : List Word} (h : Obeys passed ms ws) :
    load ms ≤ (ws.map fun w => weight w.c).sum := by
  induction h with
  | done => exact Nat.zero_le _
  | word _ ih => simpa [load] using ih
  | @mark _ m _ _ _ hm _ ih =>
    cases m <;> first | exact ih | exact hm.elim

end Size

/-- C54.  The JSON of the tree of a source of `n` characters has at most `12 n + 4` values: there is nothing in the source that
makes the tree grow out of proportion. -/
theorem C54_tree_is_linear [Env] {source : Str} {t : Node} (h : Accepted source t) :
    count (nodeJson t) ≤ 12 * source.length + 4 := by
  obtain ⟨ws, ms, hl, hf, hs⟩ := C43_tree_spells_source h
  have h1 := Size.lexes_length hl
  have h2 := Size.obeys_load hf
  have hw : Size.Ok (.node .program t) := ⟨_, _, h.wf⟩
  cases t with
  | program body st sp =>
    have h3 := Size.nodes_least body (r := if st = cs!"module" then .moduleItem else .stmt)
      (fun x hx => hw.kids _ (List.mem_map.mpr ⟨x, hx, rfl⟩)) ms hs
    simp only [nodeJson, tagged, count, countMembers, countMember]
    omega
  | _ => exact hs.elim

/-- The same of what JavaScript gets. -/
theorem C54_json_is_linear [Env] {source : Str} {j : Json}
    (h : wasmParseScript source = some (.tree j) ∨ wasmParseModule source = some (.tree j)) :
    count j ≤ 12 * source.length + 4 := by
  have key : ∀ {r : Except Fail Node}, jsResult r = some (.tree j) → ∃ t, r = .ok t ∧ j = nodeJson t := fun {r} h => by
    cases r with
    | ok t => cases h; exact ⟨t, rfl, rfl⟩
    | error f => cases f <;> cases h
  rcases h with h | h
  · obtain ⟨t, ht, rfl⟩ := key h; exact C54_tree_is_linear (.inl ht)
  · obtain ⟨t, ht, rfl⟩ := key h; exact C54_tree_is_linear (.inr ht)

/-! ### Witnesses -/

theorem tree_of {e : Except Fail Node} {n : Nat} (h : (match result? e with | some t => decide (n ≤ count (nodeJson t)) | none => false) = true) :
    ∃ t, e = .ok t ∧ n ≤ count (nodeJson t) := by
  cases e with
  | ok a => exact ⟨a, rfl, of_decide_eq_true h⟩
  | error f => cases h

/-- Witness for C54: a source of 15 characters whose tree has 144 values. -/
example : letI := ascii; ∃ t, Accepted cs!"({a,a,a,a,a,a})" t ∧ 144 ≤ count (nodeJson t) := by
  letI := ascii
  obtain ⟨t, h, h'⟩ := tree_of (e := parseScript cs!"({a,a,a,a,a,a})") (n := 144) (by decide +kernel)
  exact ⟨t, .inl h, h'⟩

end Giron

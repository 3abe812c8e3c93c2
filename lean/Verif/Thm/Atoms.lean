import Verif.Proofs.Atoms.Tree
import Verif.Thm.Spell
import Verif.Thm.Path
import Verif.Thm.Witness
/-
C57: the tree has the literals, names, regular expressions and templates of the source, and no others.
-/
namespace Giron
open Spec

namespace Atoms
variable [Env]

theorem obeys_load (p : Content → Bool) (hp : p .eof = false) {passed : List Word} {ms : List Mark} {ws : List Word} (h : Obeys passed ms ws) :
    load (fun c => (p c).toNat) ms = wordCount p ws := by
  induction h with
  | done => simp [load, wordCount, hp]
  | @word _ w _ _ _ ih =>
    rw [load, ih, wordCount, wordCount, List.filter_cons]
    cases p w.c <;> simp <;> omega
  | @mark _ m _ _ _ hm _ ih => cases m <;> first | exact ih | exact hm.elim

theorem load_double (w : Content → Nat) (ms : List Mark) : load (fun c => 2 * w c) ms = 2 * load w ms := by
  induction ms with
  | nil => rfl
  | cons m ms ih => cases m <;> simp [load, ih] <;> omega

theorem load_zero (ms : List Mark) : load (fun _ => 0) ms = 0 := by
  induction ms with
  | nil => rfl
  | cons m ms ih => cases m <;> simp [load, ih]

theorem nameValue (v : Str) : (Content.name v).value? = some (nameToken v).2 := rfl

theorem nameShown (v : Str) : ((nameToken v).2).toString = v := by
  unfold nameToken
  split
  · next h => rw [h]; rfl
  · split
    · rfl
    · split <;> rfl

theorem sameValue_eq {v u : Value} (h : sameValue v (valueJson u) = true) : u = v := by
  cases u with
  | punc p => cases v <;> cases p <;> cases h
  | str s => cases v with
    | str t => rw [show t = s by simpa [sameValue, valueJson] using h]
    | _ => cases h
  | num x => cases v with
    | num y => rw [show y = x by simpa [sameValue, valueJson] using h]
    | _ => cases h
  | null => cases v with
    | null => rfl
    | _ => cases h

theorem sameValue_self {v : Value} (h : ∀ p, v ≠ .punc p) : sameValue v (valueJson v) = true := by
  cases v with
  | punc p => exact absurd rfl (h p)
  | str s => simp [sameValue, valueJson]
  | num x => simp [sameValue, valueJson]
  | null => rfl

theorem value_ne_punc {c : Content} {u : Value} (h : c.value? = some u) : ∀ p, u ≠ .punc p := by
  intro p e
  subst e
  cases c with
  | name v =>
    rw [nameValue, nameToken] at h
    repeat' split at h
    all_goals cases h
  | _ => cases h

theorem literalWith_value {v : Value} {c : Content} (h : literalWith v c = true) : c.value? = some v := by
  cases c <;> simp_all [literalWith, Content.value?]

theorem notSpecial {T : Str} (h : T ∉ special) : T ≠ cs!"Literal" ∧ T ≠ cs!"Identifier" ∧ T ≠ cs!"BindingIdentifier" ∧ T ≠ cs!"Regex" ∧
    T ≠ cs!"TemplateElement" := by
  simpa [special] using h

theorem literal_other {v : Value} {T : Str} {ms : List (Str × Json)} (h : T ≠ cs!"Literal") :
    isLiteralObject v ((cs!"type", .str T) :: ms) = false := by
  unfold isLiteralObject
  split
  · next e => cases e; simp [h]
  · rfl

theorem name_other {n : Str} {T : Str} {ms : List (Str × Json)} (h : T ≠ cs!"Identifier") (h' : T ≠ cs!"BindingIdentifier") :
    isNameObject n ((cs!"type", .str T) :: ms) = false := by
  unfold isNameObject
  split
  · next e => cases e; simp [h, h']
  · rfl

theorem regex_other {p f : Str} {T : Str} {ms : List (Str × Json)} (h : T ≠ cs!"Regex") :
    isRegexObject p f ((cs!"type", .str T) :: ms) = false := by
  unfold isRegexObject
  split
  · next e => cases e; simp [h]
  · rfl

theorem chunk_other {r c : Str} {t : Bool} {T : Str} {ms : List (Str × Json)} (h : T ≠ cs!"TemplateElement") :
    isChunkObject r c t ((cs!"type", .str T) :: ms) = false := by
  unfold isChunkObject
  split
  · next e => cases e; simp [h]
  · rfl

theorem toNat_le {a b : Bool} (h : a = true → b = true) : a.toNat ≤ b.toNat := by
  cases a
  · exact Nat.zero_le _
  · rw [h rfl]; exact Nat.le_refl _

/-- literals -/
def literalProbe (v : Value) : Probe where
  up c := (wordWith v c).toNat
  dn c := (literalWith v c).toNat
  lo ms := (isLiteralObject v ms).toNat
  hi ms := (isLiteralObject v ms).toNat + (isNameObject v.toString ms).toNat
  zero T ms h := by rw [literal_other (notSpecial h).1]; rfl
  quietName _ := rfl
  quietPun _ := rfl
  name _ := Nat.zero_le _
  bind _ := Nat.zero_le _
  key c u h := by
    refine ⟨Nat.zero_le _, ?_⟩
    refine Nat.le_trans (toNat_le fun hc => ?_) (Nat.le_add_left _ _)
    have := literalWith_value hc
    rw [h, Option.some.injEq] at this
    rw [this]
    simp [isNameObject]
  lit c u raw h := by
    constructor
    · refine toNat_le fun hc => ?_
      have := sameValue_eq (u := u) (v := v) (by simpa [isLiteralObject] using hc)
      rw [wordWith, h, this]
      exact decide_eq_true rfl
    · refine Nat.le_trans (toNat_le fun hc => ?_) (Nat.le_add_right _ _)
      have := literalWith_value hc
      rw [h, Option.some.injEq] at this
      subst this
      simpa [isLiteralObject] using sameValue_self (value_ne_punc h)
  regex p f := ⟨by rw [literal_other (by decide)]; exact Nat.zero_le _, Nat.zero_le _⟩
  chunk r c h t := ⟨by rw [literal_other (by decide)]; exact Nat.zero_le _, Nat.zero_le _⟩

theorem shown_name (v : Str) : wordShown v (.name v) = true := by
  simp [wordShown, nameValue, nameShown]

/-- names -/
def nameProbe (n : Str) : Probe where
  up c := 2 * (wordShown n c).toNat
  dn _ := 0
  lo ms := (isNameObject n ms).toNat
  hi _ := 0
  zero T ms h := by rw [name_other (notSpecial h).2.1 (notSpecial h).2.2.1]; rfl
  quietName _ := rfl
  quietPun _ := rfl
  name v := by
    have : (isNameObject n (ident v)).toNat ≤ (wordShown n (.name v)).toNat := toNat_le fun h => by
      rw [← show v = n by simpa [isNameObject] using h]; exact shown_name v
    simp only [ident] at this
    omega
  bind v := by
    have : (isNameObject n [(cs!"type", .str cs!"BindingIdentifier"), (cs!"name", .str v)]).toNat ≤ (wordShown n (.name v)).toNat := toNat_le fun h => by
      rw [← show v = n by simpa [isNameObject] using h]; exact shown_name v
    omega
  key c u h := by
    have : (isNameObject n (ident u.toString)).toNat ≤ (wordShown n c).toNat := toNat_le fun hn => by
      rw [wordShown, h]
      simpa [isNameObject] using hn
    simp only [ident] at this
    exact ⟨by omega, Nat.zero_le _⟩
  lit c u raw h := ⟨by rw [name_other (by decide) (by decide)]; exact Nat.zero_le _, Nat.zero_le _⟩
  regex p f := ⟨Nat.zero_le _, Nat.zero_le _⟩
  chunk r c h t := ⟨Nat.zero_le _, Nat.zero_le _⟩

theorem joined_flags (f : Str) : joinedStrings (f.map fun c => Json.str [c]) = some f := by
  induction f with
  | nil => rfl
  | cons c f ih => simp [joinedStrings, ih]

/-- regular expressions -/
def regexProbe (p f : Str) : Probe where
  up c := (regexWith p f c).toNat
  dn c := (regexWith p f c).toNat
  lo ms := (isRegexObject p f ms).toNat
  hi ms := (isRegexObject p f ms).toNat
  zero T ms h := by rw [regex_other (notSpecial h).2.2.2.1]; rfl
  quietName _ := rfl
  quietPun _ := rfl
  name _ := Nat.zero_le _
  bind _ := Nat.zero_le _
  key c u h := ⟨Nat.zero_le _, by cases c <;> first | exact Nat.zero_le _ | cases h⟩
  lit c u raw h := ⟨by rw [regex_other (by decide)]; exact Nat.zero_le _, by cases c <;> first | exact Nat.zero_le _ | cases h⟩
  regex q g := by
    have : isRegexObject p f [(cs!"type", .str cs!"Regex"), (cs!"pattern", .str q), (cs!"flags", .arr (g.map fun c => .str [c]))] = regexWith p f (.regexp q g) := by
      simp [isRegexObject, regexWith, joined_flags]
    rw [this]
    exact ⟨Nat.le_refl _, Nat.le_refl _⟩
  chunk r c h t := ⟨by rw [regex_other (by decide)]; exact Nat.zero_le _, Nat.zero_le _⟩

/-- parts of templates -/
def chunkProbe (raw cooked : Str) (tail : Bool) : Probe where
  up c := (chunkWith raw cooked tail c).toNat
  dn c := (chunkWith raw cooked tail c).toNat
  lo ms := (isChunkObject raw cooked tail ms).toNat
  hi ms := (isChunkObject raw cooked tail ms).toNat
  zero T ms h := by rw [chunk_other (notSpecial h).2.2.2.2]; rfl
  quietName _ := rfl
  quietPun _ := rfl
  name _ := Nat.zero_le _
  bind _ := Nat.zero_le _
  key c u h := ⟨Nat.zero_le _, by cases c <;> first | exact Nat.zero_le _ | cases h⟩
  lit c u raw h := ⟨by rw [chunk_other (by decide)]; exact Nat.zero_le _, by cases c <;> first | exact Nat.zero_le _ | cases h⟩
  regex q g := ⟨by rw [chunk_other (by decide)]; exact Nat.zero_le _, Nat.zero_le _⟩
  chunk r c h t := by
    have : isChunkObject raw cooked tail [(cs!"type", .str cs!"TemplateElement"),
      (cs!"value", tagged cs!"TemplateElementValue" [(cs!"cooked", .str c), (cs!"raw", .str r)]), (cs!"tail", .bool t)] = chunkWith raw cooked tail (.template r c h t) := by
      simp only [isChunkObject, tagged, chunkWith]
      cases r == raw <;> cases c == cooked <;> cases t == tail <;> simp
    rw [this]
    exact ⟨Nat.le_refl _, Nat.le_refl _⟩

theorem whole_fits (P : Probe) {t : Node} {ms : List Mark} (h : Spell.whole t ms) :
    tally P.lo (nodeJson t) ≤ load P.up ms ∧ load P.dn ms ≤ tally P.hi (nodeJson t) := by
  cases t with
  | program body st sp =>
    have := nodes_fits (P := P) body ms h
    simp (disch := decide) only [nodeJson, tally_plain, tally_hi, tallyMembers, tallyMember, tally]
    omega
  | _ => exact h.elim

mutual

theorem tally_add (w w' : List (Str × Json) → Nat) : ∀ j : Json, tally (fun ms => w ms + w' ms) j = tally w j + tally w' j
  | .null => rfl
  | .bool _ => rfl
  | .nat _ => rfl
  | .num _ => rfl
  | .str _ => rfl
  | .arr items => by simp only [tally]; exact tallyItems_add w w' items
  | .obj members => by simp only [tally]; rw [tallyMembers_add w w' members]; omega
termination_by structural j => j

theorem tallyItems_add (w w' : List (Str × Json) → Nat) : ∀ l : List Json, tallyItems (fun ms => w ms + w' ms) l = tallyItems w l + tallyItems w' l
  | [] => rfl
  | j :: l => by simp only [tallyItems]; rw [tally_add w w' j, tallyItems_add w w' l]; omega
termination_by structural l => l

theorem tallyMembers_add (w w' : List (Str × Json) → Nat) : ∀ l : List (Str × Json),
    tallyMembers (fun ms => w ms + w' ms) l = tallyMembers w l + tallyMembers w' l
  | [] => rfl
  | m :: l => by simp only [tallyMembers]; rw [tallyMember_add w w' m, tallyMembers_add w w' l]; omega
termination_by structural l => l

theorem tallyMember_add (w w' : List (Str × Json) → Nat) : ∀ m : Str × Json, tallyMember (fun ms => w ms + w' ms) m = tallyMember w m + tallyMember w' m
  | (_, j) => by simp only [tallyMember]; exact tally_add w w' j
termination_by structural m => m

end

end Atoms

/-- C57: the text is made of words `ws`, and the literals, names, regular expressions and templates in the JSON of the tree are
those of the words, each as often as it is in the source.  (giron: a string or number in place of a declared shorthand
property, `var {"a"} = b`, becomes a name; a name before `:` in a declared pattern becomes a literal.) -/
theorem C57_nothing_lost_or_invented [Env] {source : Str} {t : Node} (h : Accepted source t) :
    ∃ ws, Lexes source ws ∧
      (∀ v, howMany (isLiteralObject v) (nodeJson t) ≤ wordCount (wordWith v) ws) ∧
      (∀ v, wordCount (literalWith v) ws ≤ howMany (isLiteralObject v) (nodeJson t) + howMany (isNameObject v.toString) (nodeJson t)) ∧
      (∀ p f, howMany (isRegexObject p f) (nodeJson t) = wordCount (regexWith p f) ws) ∧
      (∀ raw cooked tail, howMany (isChunkObject raw cooked tail) (nodeJson t) = wordCount (chunkWith raw cooked tail) ws) ∧
      (∀ n, howMany (isNameObject n) (nodeJson t) ≤ 2 * wordCount (wordShown n) ws) := by
  obtain ⟨ws, ms, hl, hf, hs⟩ := C43_tree_spells_source h
  refine ⟨ws, hl, fun v => ?_, fun v => ?_, fun p f => ?_, fun raw cooked tail => ?_, fun n => ?_⟩
  · have := (Atoms.whole_fits (Atoms.literalProbe v) hs).1
    simp only [Atoms.literalProbe, Atoms.obeys_load (wordWith v) rfl hf] at this
    exact this
  · have := (Atoms.whole_fits (Atoms.literalProbe v) hs).2
    simp only [Atoms.literalProbe, Atoms.obeys_load (literalWith v) rfl hf, Atoms.tally_add] at this
    exact this
  · have := Atoms.whole_fits (Atoms.regexProbe p f) hs
    simp only [Atoms.regexProbe, Atoms.obeys_load (regexWith p f) rfl hf] at this
    exact Nat.le_antisymm this.1 this.2
  · have := Atoms.whole_fits (Atoms.chunkProbe raw cooked tail) hs
    simp only [Atoms.chunkProbe, Atoms.obeys_load (chunkWith raw cooked tail) rfl hf] at this
    exact Nat.le_antisymm this.1 this.2
  · have := (Atoms.whole_fits (Atoms.nameProbe n) hs).1
    simp only [Atoms.nameProbe, Atoms.load_double, Atoms.obeys_load (wordShown n) rfl hf] at this
    exact this

/-- C57: in particular every name in the tree is written in the source, and every number or string of the source is in the tree. -/
theorem C57_words [Env] {source : Str} {t : Node} (h : Accepted source t) :
    ∃ ws, Lexes source ws ∧
      (∀ n, 0 < howMany (isNameObject n) (nodeJson t) → ∃ w ∈ ws, wordShown n w.c = true) ∧
      (∀ v, (∃ w ∈ ws, literalWith v w.c = true) →
        0 < howMany (isLiteralObject v) (nodeJson t) ∨ 0 < howMany (isNameObject v.toString) (nodeJson t)) := by
  obtain ⟨ws, hl, _, h2, _, _, h5⟩ := C57_nothing_lost_or_invented h
  refine ⟨ws, hl, fun n hn => ?_, fun v ⟨w, hw, hv⟩ => ?_⟩
  · have : 0 < wordCount (wordShown n) ws := by have := h5 n; omega
    obtain ⟨w, hw⟩ := List.exists_mem_of_length_pos this
    exact ⟨w, (List.mem_filter.1 hw).1, (List.mem_filter.1 hw).2⟩
  · have : 0 < wordCount (literalWith v) ws := List.length_pos_of_mem (List.mem_filter.2 ⟨hw, hv⟩)
    have := h2 v
    omega

/-- a test of the JSON of an accepted source -/
def jsonTest [Env] (source : Str) (p : Json → Bool) : Bool :=
  match parseScript source with
  | .ok t => p (nodeJson t)
  | .error _ => false

theorem jsonTest_accepted [Env] {source : Str} {p : Json → Bool} (h : jsonTest source p = true) :
    ∃ t, Accepted source t ∧ p (nodeJson t) = true := by
  unfold jsonTest at h
  split at h
  · exact ⟨_, .inl ‹_›, h⟩
  · cases h

set_option maxRecDepth 20000 in
/-- C57: a number twice, a regular expression, the two parts of a template, a name. -/
example : letI := ascii; ∃ t, Accepted cs!"x = 7 + /a/g * f`p${7}q`;" t ∧
    decide (howMany (isLiteralObject (.num ⟨7, 0⟩)) (nodeJson t) = 2 ∧ howMany (isRegexObject cs!"a" cs!"g") (nodeJson t) = 1 ∧
      howMany (isChunkObject cs!"p" cs!"p" false) (nodeJson t) = 1 ∧ howMany (isChunkObject cs!"q" cs!"q" true) (nodeJson t) = 1 ∧
      howMany (isNameObject cs!"f") (nodeJson t) = 1) = true :=
  letI := ascii; jsonTest_accepted (p := fun j => decide (howMany (isLiteralObject (.num ⟨7, 0⟩)) j = 2 ∧ howMany (isRegexObject cs!"a" cs!"g") j = 1 ∧
      howMany (isChunkObject cs!"p" cs!"p" false) j = 1 ∧ howMany (isChunkObject cs!"q" cs!"q" true) j = 1 ∧
      howMany (isNameObject cs!"f") j = 1)) (by decide +kernel)

set_option maxRecDepth 20000 in
/-- C57: the number that becomes a name (giron accepts this). -/
example : letI := ascii; ∃ t, Accepted cs!"var {5} = a" t ∧
    decide (howMany (isLiteralObject (.num ⟨5, 0⟩)) (nodeJson t) = 0 ∧ howMany (isNameObject cs!"5") (nodeJson t) = 1) = true :=
  letI := ascii; jsonTest_accepted (p := fun j => decide (howMany (isLiteralObject (.num ⟨5, 0⟩)) j = 0 ∧ howMany (isNameObject cs!"5") j = 1)) (by decide +kernel)

end Giron

import Verif.Proofs.Atoms.Basic
/-
The literals, names, regular expressions and template parts of a tree are those of its words.
-/
namespace Giron.Atoms
open Giron Spec Lang Spell
variable [Env] {P : Probe}

/-- an identifier -/
abbrev ident (v : Str) : List (Str × Json) := [(cs!"type", .str cs!"Identifier"), (cs!"name", .str v)]

/-- adds up the weights -/
macro "sums" : tactic => `(tactic| simp (disch := decide) only [ident, nodeJson, bindingJson, arrayExpressionElementJson, arrayPatternElementJson, arrayAssignmentPatternElementJson, propertyKeyJson, fnExprJson, propertyValueJson, objectPatternPropertyJson, bindingPatternJson, functionParameterJson, argumentListElementJson, objectExpressionPropertyJson, methodDefinitionJson, switchCaseJson, variableDeclaratorJson, catchClauseJson, holesArrayExpressionElementJson, holesArrayPatternElementJson, holesArrayAssignmentPatternElementJson, optNodeJson, listFunctionParameterJson, listArgumentListElementJson, listMethodDefinitionJson, listObjectExpressionPropertyJson, listObjectPatternPropertyJson, listNodeJson, listSwitchCaseJson, optCatchClauseJson, listVariableDeclaratorJson, optPropertyValueJson, optFnExprJson, optBindingJson, optArrayExpressionElementJson, optArrayPatternElementJson, optArrayAssignmentPatternElementJson, literalJson, identifierJson, regexJson, templateElementJson, exportSpecifierJson, importSpecifierJson, spanJson, markerJson, natJson, tally_lit, tally_id, tally_bind, tally_regex, tally_chunk, tally_plain, tally_hi, tally_value, tally_flags, tally, tallyItems, tallyMembers, tallyMember, List.map, Nat.add_zero, Nat.zero_add])

/-- adds up the weights, and compares -/
macro "size" : tactic => `(tactic| ((try sums) <;> omega))

theorem Fits.ident {v : Str} : Fits P (Lang.word v) (P.lo (ident v)) 0 := Fits.word.mono (by have := P.name v; simp only [Atoms.ident]; omega) (Nat.le_refl _)
theorem Fits.twice {v : Str} : Fits P (Lang.word v) (P.lo (Atoms.ident v) + P.lo (Atoms.ident v)) 0 := Fits.word.mono (P.name v) (Nat.le_refl _)
theorem Fits.binder {v : Str} : Fits P (Lang.word v) (P.lo [(cs!"type", .str cs!"BindingIdentifier"), (cs!"name", .str v)]) 0 :=
  Fits.word.mono (P.bind v) (Nat.le_refl _)
theorem Fits.literalWord {v : Value} {raw : Str} : Fits P (Spell.literalWord v raw)
    (P.lo [(cs!"type", .str cs!"Literal"), (cs!"value", valueJson v), (cs!"raw", .str raw)])
    (P.hi [(cs!"type", .str cs!"Literal"), (cs!"value", valueJson v), (cs!"raw", .str raw)]) :=
  .one fun c hc => P.lit c v raw hc.1
theorem Fits.stringWord {x : Literal} : Fits P (Spell.stringWord x)
    (P.lo [(cs!"type", .str cs!"Literal"), (cs!"value", valueJson x.value), (cs!"raw", .str x.raw)])
    (P.hi [(cs!"type", .str cs!"Literal"), (cs!"value", valueJson x.value), (cs!"raw", .str x.raw)]) :=
  .one fun c hc => by obtain ⟨v, o, rfl, h, _⟩ := hc; exact P.lit _ _ _ (by rw [h]; rfl)
theorem Fits.keyWord {x : Literal} : Fits P (Lang.one fun c => (∃ v o, c = .string v o ∧ x.value = .str v) ∨ ∃ n, c = .number n ∧ x.value = .num n)
    (P.lo [(cs!"type", .str cs!"Literal"), (cs!"value", valueJson x.value), (cs!"raw", .str x.raw)])
    (P.hi [(cs!"type", .str cs!"Literal"), (cs!"value", valueJson x.value), (cs!"raw", .str x.raw)]) :=
  .one fun c hc => P.lit _ _ _ (by rcases hc with ⟨v, o, rfl, h⟩ | ⟨n, rfl, h⟩ <;> rw [h] <;> rfl)
theorem Fits.patternWord {x : Literal} : Fits P (Lang.one fun c => c.value? = some x.value)
    (P.lo [(cs!"type", .str cs!"Literal"), (cs!"value", valueJson x.value), (cs!"raw", .str x.raw)])
    (P.hi [(cs!"type", .str cs!"Literal"), (cs!"value", valueJson x.value), (cs!"raw", .str x.raw)]) :=
  .one fun c hc => P.lit _ _ _ hc
theorem Fits.patternName {s : Str} : Fits P (Spell.patternName s) (P.lo (Atoms.ident s) + P.lo (Atoms.ident s)) (P.hi (Atoms.ident s)) :=
  .one fun c hc => by obtain ⟨v, h, rfl⟩ := hc; exact P.key c v h
theorem Fits.quasi {first : Bool} {q : TemplateElement} : Fits P (Spell.quasi first q) (tally P.lo (templateElementJson q)) (tally P.hi (templateElementJson q)) :=
  .one fun c hc => by
    obtain ⟨h, rfl, _⟩ := hc
    have := P.chunk q.raw q.cooked h q.tail
    constructor
    · refine Nat.le_trans ?_ this.1
      rw [templateElementJson, tally_chunk]
      simp (disch := decide) only [tallyMembers, tallyMember, tally, tally_plain]
      exact Nat.le_refl _
    · refine Nat.le_trans this.2 ?_
      rw [templateElementJson, tally_hi]
      exact Nat.le_add_right _ _
theorem Fits.regexp {x : Regex} : Fits P (Lang.tok (.regexp x.pattern x.flags)) (tally P.lo (regexJson x)) (tally P.hi (regexJson x)) := by
  rintro _ rfl
  have := P.regex x.pattern x.flags
  simp only [load, regexJson, tally_regex, tally_hi, tallyMembers, tallyMember, tally, tally_flags]
  exact ⟨by omega, by omega⟩

/-! ### Imports and exports -/

theorem importNames_fits : ∀ l : List ImportDeclarationSpecifier,
    Fits P (importNames l) (tallyItems P.lo (l.map importSpecifierJson)) (tallyItems P.hi (l.map importSpecifierJson))
  | [] => .eps
  | .importSpecifier loc imported :: more => by
    rw [importNames]
    have h1 := Fits.ident (P := P) (v := loc.name)
    refine (Fits.cat (l := P.lo (ident loc.name) + P.lo (ident imported.name)) (h := 0)
      (.or ((Fits.cat .ident (.cat .keyword .ident)).mono (by omega) (by omega)) (.ite (fun e => ?_) fun _ => .nothing))
      (.cat .commaAfter (importNames_fits more))).mono (by size) (by size)
    subst e
    exact .twice
  | .importDefaultSpecifier _ :: _ => .nothing
  | .importNamespaceSpecifier _ :: _ => .nothing

theorem importList_fits (l : List ImportDeclarationSpecifier) :
    Fits P (importList l) (tallyItems P.lo (l.map importSpecifierJson)) (tallyItems P.hi (l.map importSpecifierJson)) := by
  unfold importList
  split
  · exact (Fits.cat .pun (.cat .keyword .ident)).mono (by size) (by size)
  · exact (Fits.cat .pun (.cat (importNames_fits l) .pun)).mono (by omega) (by omega)

theorem importClause_fits (l : List ImportDeclarationSpecifier) :
    Fits P (importClause l) (tallyItems P.lo (l.map importSpecifierJson)) (tallyItems P.hi (l.map importSpecifierJson)) := by
  refine .or (importList_fits l) ?_
  split
  · next loc imported more =>
    refine .ite (fun e => ?_) fun _ => .nothing
    subst e
    refine (Fits.cat .twice (.or (l := tallyItems P.lo (more.map importSpecifierJson)) (h := tallyItems P.hi (more.map importSpecifierJson))
      ((Fits.cat .pun (importList_fits more)).mono (by omega) (by omega)) (.ite (fun h => ?_) fun _ => .nothing))).mono (by size) (by size)
    cases more with
    | nil => exact .eps
    | cons => cases h
  · exact .nothing

theorem exportNames_fits : ∀ l : List ExportSpecifier,
    Fits P (exportNames l) (tallyItems P.lo (l.map exportSpecifierJson)) (tallyItems P.hi (l.map exportSpecifierJson))
  | [] => .eps
  | ⟨exported, loc⟩ :: more => by
    rw [exportNames]
    refine (Fits.cat (l := P.lo (ident loc.name) + P.lo (ident exported.name)) (h := 0)
      (.or ((Fits.cat .ident (.cat .keyword .ident)).mono (by omega) (by omega)) (.ite (fun e => ?_) fun _ => .nothing))
      (.cat .commaAfter (exportNames_fits more))).mono (by size) (by size)
    subst e
    exact .twice

/-! ### Trees -/

theorem arrowParams_fits {ps : List FunctionParameter}
    (h : Fits P (parameters ps) (tallyItems P.lo (listFunctionParameterJson ps)) (tallyItems P.hi (listFunctionParameterJson ps))) :
    Fits P (arrowParams ps (parameters ps)) (tallyItems P.lo (listFunctionParameterJson ps)) (tallyItems P.hi (listFunctionParameterJson ps)) := by
  refine .or ((Fits.cat .pun (.cat h .pun)).mono (by omega) (by omega)) ?_
  split
  · exact Fits.binder.mono (by size) (by size)
  · exact .nothing

theorem empty_fits (l : List ArgumentListElement) (h : l.isEmpty = true) :
    Fits P eps (tallyItems P.lo (listArgumentListElementJson l)) (tallyItems P.hi (listArgumentListElementJson l)) := by
  cases l with
  | nil => exact .eps
  | cons => cases h

end Giron.Atoms

import Verif.Proofs.Complete.Program
import Verif.Proofs.Complete.Tokens
import Verif.Thm.Outcome
/-
C41: whatever is a script or a module by the grammar (Spec/Syntax.lean, Spec/Program.lean) is accepted, and the tree is
the one the grammar gives it.
-/
namespace Giron
open Spec Grammar

/-- A run that can only fail for want of budget, and does not fail for want of budget, succeeds. -/
theorem ok_of_sat [Env] {m : PM Node} {p : Parser} {Q : Node → Parser → Prop} (h : Complete.Ok m p Q)
    (hf : m p ≠ .error .fuel) : ∃ a s, m p = .ok (a, s) ∧ Q a s := by
  cases e : m p with
  | ok x => obtain ⟨a, s⟩ := x; exact ⟨a, s, rfl, h.ok e⟩
  | error f => have := h.error e; subst this; exact absurd e hf

/-- C41, scripts: let the words of a source be a script of the grammar with tree `t`, and let no two neighbours of them
be among those giron does not scan correctly.  Then `parse_script` accepts the source, and the tree it returns is `t`, but
for positions.  (An empty source panics in builds with overflow checks.) -/
theorem C41_scripts_are_parsed [Env] {source : Str} {ws : List Word} {t : Node} (hne : source ≠ [])
    (hw : SourceWords source ws) (hc : NoClash ws) (hs : Script ws t) :
    ∃ a, parseScript source = .ok a ∧ bareNode a = t := by
  obtain ⟨p, hp, h⟩ := Complete.new_ok hw hc (Complete.script_fits hs) (fun h => absurd h hne)
  have hf := (C01_parsing_terminates source).1
  unfold parseScript parseScriptState at hf ⊢
  rw [hp] at hf ⊢
  dsimp only at hf ⊢
  obtain ⟨a, s, e, ha⟩ := ok_of_sat (Complete.parseScriptBody_ok (Complete.run_ok _) hs h) (fun e => hf (by rw [e]; rfl))
  exact ⟨a, by rw [e]; rfl, ha⟩

/-- C41, modules: the same for `parse_module`. -/
theorem C41_modules_are_parsed [Env] {source : Str} {ws : List Word} {t : Node} (hne : source ≠ [])
    (hw : SourceWords source ws) (hc : NoClash ws) (hs : Module ws t) :
    ∃ a, parseModule source = .ok a ∧ bareNode a = t := by
  obtain ⟨p, hp, h⟩ := Complete.new_ok hw hc (Complete.module_fits hs) (fun h => absurd h hne)
  have hf := (C01_parsing_terminates source).2
  unfold parseModule parseModuleState at hf ⊢
  rw [hp] at hf ⊢
  dsimp only at hf ⊢
  obtain ⟨a, s, e, ha⟩ := ok_of_sat (Complete.parseModuleBody_ok (Complete.run_ok _) hs h) (fun e => hf (by rw [e]; rfl))
  exact ⟨a, by rw [e]; rfl, ha⟩

/-- The grammar gives a text only one tree. -/
theorem C41_unambiguous [Env] {source : Str} {ws ws' : List Word} {t t' : Node} (hne : source ≠ [])
    (hw : SourceWords source ws) (hc : NoClash ws) (hs : Script ws t)
    (hw' : SourceWords source ws') (hc' : NoClash ws') (hs' : Script ws' t') : t = t' := by
  obtain ⟨a, h, rfl⟩ := C41_scripts_are_parsed hne hw hc hs
  obtain ⟨a', h', rfl⟩ := C41_scripts_are_parsed hne hw' hc' hs'
  rw [h] at h'
  cases h'; rfl

/-- Layout does not matter: two sources made of the same words — they may differ in white space, comments, quotes, the
spelling of numbers and so on — are given the same tree but for positions, if the words are a script. -/
theorem C41_layout [Env] {source source' : Str} {ws : List Word} {t : Node} (hne : source ≠ []) (hne' : source' ≠ [])
    (hw : SourceWords source ws) (hw' : SourceWords source' ws) (hc : NoClash ws) (hs : Script ws t) :
    ∃ a a', parseScript source = .ok a ∧ parseScript source' = .ok a' ∧ bareNode a = bareNode a' := by
  obtain ⟨a, h, e⟩ := C41_scripts_are_parsed hne hw hc hs
  obtain ⟨a', h', e'⟩ := C41_scripts_are_parsed hne' hw' hc hs
  exact ⟨a, a', h, h', e.trans e'.symm⟩

end Giron

/-! ### Witnesses -/

namespace Giron.Grammar
open Giron Spec
section
variable [Env] {c : Ctx} {w : List Word} {t : Node}

theorem bin_up {nst f : Bool} {p q : Nat} (h : Bin (nst, q) f c w t) (hp : p + 1 = q) (hq : q ≤ 12) : Bin (nst, p) f c w t := by
  subst hp
  have := Bin.chain (by omega) h Many.nil
  rwa [List.append_nil] at this

theorem bin_to {nst f : Bool} (p : Nat) {q : Nat} (h : Bin (nst, q) f c w t) (hp : p ≤ q) (hq : q ≤ 12) : Bin (nst, p) f c w t := by
  induction q with
  | zero => have : p = 0 := by omega
            subst this; exact h
  | succ q ih =>
    by_cases hpq : p = q + 1
    · subst hpq; exact h
    · exact ih (bin_up h rfl hq) (by omega) (by omega)

theorem lhs_prim (h : Primary c w t) : LHS true c w t := by
  have := LHS.mk (Head.primary h) Many.nil
  rwa [List.append_nil] at this

theorem bin_prim {nst : Bool} (p : Nat) (hp : p ≤ 12) (h : Primary c w t) : Bin (nst, p) true c w t :=
  bin_to p (.operand (.unary (.update (.lhs (lhs_prim h))))) hp (Nat.le_refl _)

/-- one binary operator between primary expressions -/
theorem bin_op {nst : Bool} {o : Content} {op : Str} {p : Nat} {w w' : List Word} {a b : Node} {n : Bool} (ho : BinOp c o op p)
    (hp : 0 < p ∧ p < 12) (ha : Primary c w a) (hb : Primary c w' b) :
    Bin (nst, 1) true c (w ++ ⟨o, n⟩ :: w') (.binaryExpression op a b .invalid sp) := by
  refine bin_to 1 (q := p) ?_ hp.1 (by omega)
  have := Bin.chain (p := p) (nested := nst) hp.2 (bin_prim _ (by omega) ha)
    (Many.cons (BinStep.mk (n := n) ho (bin_prim _ (by omega) hb) (fun _ => rfl)) Many.nil)
  rwa [List.append_nil] at this

theorem assign_prim (h : Primary c w t) : Assign c w t := .cond (.bin (bin_prim 1 (by decide) h))
end
end Giron.Grammar

namespace Giron
open Spec Grammar
deriving instance DecidableEq for Content
deriving instance DecidableEq for Word

/-- the source of the witness -/
def demo : Str := cs!"'use strict'; // half\nif (a < 2) b = c / 2\nelse d(1, 'x');"

/-- its words -/
def demoWords : List Word :=
  [⟨.string cs!"use strict" false, false⟩, P .semicolon false,
   W cs!"if" true, P .lParen false, W cs!"a" false, P .lAngle false, ⟨.number ⟨2, 0⟩, false⟩, P .rParen false,
   W cs!"b" false, P .assign false, W cs!"c" false, P .slash false, ⟨.number ⟨2, 0⟩, false⟩,
   W cs!"else" true, W cs!"d" false, P .lParen false, ⟨.number ⟨1, 0⟩, false⟩, P .comma false, ⟨.string cs!"x" false, false⟩,
   P .rParen false, P .semicolon false, ⟨.eof, false⟩]

/-- its tree -/
def demoTree : Node :=
  .program [.expressionStatement (.literal (.str cs!"use strict") cs!"use strict" .invalid sp) sp,
    .ifStatement (.binaryExpression cs!"<" (.identifier cs!"a" .simple sp) (.literal (.num ⟨2, 0⟩) cs!"2" .invalid sp) .invalid sp)
      (.expressionStatement (.assignmentExpression cs!"=" (.identifier cs!"b" .simple sp)
        (.binaryExpression cs!"/" (.identifier cs!"c" .simple sp) (.literal (.num ⟨2, 0⟩) cs!"2" .invalid sp) .invalid sp) .invalid sp) sp)
      (some (.expressionStatement (.callExpression (.identifier cs!"d" .simple sp)
        [.expression (.literal (.num ⟨1, 0⟩) cs!"1" .invalid sp), .expression (.literal (.str cs!"x") cs!"x" .invalid sp)] .invalid sp) sp)) sp]
    cs!"script" sp

set_option maxRecDepth 20000 in
theorem demo_words : letI := ascii; SourceWords demo demoWords := by
  letI := ascii
  exact sourceWords_of (goals := [.regExp, .regExp, .regExp, .regExp, .regExp, .regExp, .regExp, .regExp, .regExp, .regExp,
    .regExp, .div, .regExp, .regExp, .regExp, .regExp, .regExp, .regExp, .regExp, .regExp, .regExp, .regExp]) (by decide +kernel)

theorem demo_noClash : NoClash demoWords := by
  simp [demoWords, NoClash, clash]

/-- the context of the statement in the witness -/
abbrev demoCtx : Grammar.Ctx := { scriptCtx with strict := true }

theorem demo_directive : letI := ascii;
    Expr scriptCtx [⟨.string cs!"use strict" false, false⟩] (.literal (.str cs!"use strict") cs!"use strict" .invalid sp) := by
  letI := ascii
  exact .assign (assign_prim (.string (by intro h; cases h)))

theorem demo_test : letI := ascii; Expr { demoCtx with inn := true }
    [W cs!"a" false, P .lAngle false, ⟨.number ⟨2, 0⟩, false⟩]
    (.binaryExpression cs!"<" (.identifier cs!"a" .simple sp) (.literal (.num ⟨2, 0⟩) cs!"2" .invalid sp) .invalid sp) := by
  letI := ascii
  have ha : Primary { demoCtx with inn := true } [W cs!"a" false] (.identifier cs!"a" .simple sp) :=
    .name (v := cs!"a") (by unfold Ref PlainName; decide) (by decide)
  have hb : Primary { demoCtx with inn := true } [⟨.number ⟨2, 0⟩, false⟩] (.literal (.num ⟨2, 0⟩) cs!"2" .invalid sp) := .number
  exact .assign (.cond (.bin (bin_op (n := false) (BinOp.punct (p := .lAngle) (n := 7) (by decide)) (by decide) ha hb)))

theorem demo_then : letI := ascii; Stmt demoCtx
    [W cs!"b" false, P .assign false, W cs!"c" false, P .slash false, ⟨.number ⟨2, 0⟩, false⟩] (W cs!"else" true)
    (.expressionStatement (.assignmentExpression cs!"=" (.identifier cs!"b" .simple sp)
        (.binaryExpression cs!"/" (.identifier cs!"c" .simple sp) (.literal (.num ⟨2, 0⟩) cs!"2" .invalid sp) .invalid sp) .invalid sp) sp) := by
  letI := ascii
  have hb : Primary { demoCtx with inn := true } [W cs!"b" false] (.identifier cs!"b" .simple sp) :=
    .name (v := cs!"b") (by unfold Ref PlainName; decide) (by decide)
  have hc : Primary { demoCtx with inn := true } [W cs!"c" false] (.identifier cs!"c" .simple sp) :=
    .name (v := cs!"c") (by unfold Ref PlainName; decide) (by decide)
  have hn : Primary { demoCtx with inn := true } [⟨.number ⟨2, 0⟩, false⟩] (.literal (.num ⟨2, 0⟩) cs!"2" .invalid sp) := .number
  have he : Assign { demoCtx with inn := true } [W cs!"c" false, P .slash false, ⟨.number ⟨2, 0⟩, false⟩]
      (.binaryExpression cs!"/" (.identifier cs!"c" .simple sp) (.literal (.num ⟨2, 0⟩) cs!"2" .invalid sp) .invalid sp) :=
    .cond (.bin (bin_op (n := false) (BinOp.punct (p := .slash) (n := 10) (by decide)) (by decide) hc hn))
  exact Stmt.expr (semi := []) (.assign (.assign (n := false) (lhs_prim hb) rfl he)) (.inl rfl)
    (.auto ⟨by decide, by decide⟩ rfl)

theorem demo_else : letI := ascii; Stmt demoCtx
    [W cs!"d" false, P .lParen false, ⟨.number ⟨1, 0⟩, false⟩, P .comma false, ⟨.string cs!"x" false, false⟩,
     P .rParen false, P .semicolon false] ⟨.eof, false⟩
    (.expressionStatement (.callExpression (.identifier cs!"d" .simple sp)
        [.expression (.literal (.num ⟨1, 0⟩) cs!"1" .invalid sp), .expression (.literal (.str cs!"x") cs!"x" .invalid sp)] .invalid sp) sp) := by
  letI := ascii
  have hd : Primary { demoCtx with inn := true } [W cs!"d" false] (.identifier cs!"d" .simple sp) :=
    .name (v := cs!"d") (by unfold Ref PlainName; decide) (by decide)
  have hn : Primary { demoCtx with inn := true } [⟨.number ⟨1, 0⟩, false⟩] (.literal (.num ⟨1, 0⟩) cs!"1" .invalid sp) := .number
  have hx : Primary { demoCtx with inn := true } [⟨.string cs!"x" false, false⟩] (.literal (.str cs!"x") cs!"x" .invalid sp) :=
    .string (by intro h; cases h)
  have hl : LHS true { demoCtx with inn := true }
      [W cs!"d" false, P .lParen false, ⟨.number ⟨1, 0⟩, false⟩, P .comma false, ⟨.string cs!"x" false, false⟩, P .rParen false]
      (.callExpression (.identifier cs!"d" .simple sp)
        [.expression (.literal (.num ⟨1, 0⟩) cs!"1" .invalid sp), .expression (.literal (.str cs!"x") cs!"x" .invalid sp)] .invalid sp) :=
    .mk (.primary hd) (.cons (CallSuffix.call (Args.mk (c := { demoCtx with inn := true }) (n := false) (m := false)
      (.cons (n := false) (Arg.expr (assign_prim hn)) (.last (Arg.expr (assign_prim hx)))))) .nil)
  exact Stmt.expr (semi := [P .semicolon false])
    (.assign (.cond (.bin (bin_to 1 (.operand (.unary (.update (.lhs hl)))) (by decide) (by decide))))) (.inl rfl) .semi

theorem demo_script : letI := ascii; Script demoWords demoTree := by
  letI := ascii
  refine Script.mk (m := false) (w := _) (ws := _)
    (.cons (semi := [P .semicolon false]) (ws := []) demo_directive .semi .nil)
    (.cons (ws := []) (.stmt (.ifElse (n := true) (m := false) (k := false) (l := true) demo_test demo_then demo_else)) .nil) ?_
  intro v o k ws' h
  cases h

/-- Witness for C41. -/
example : letI := ascii; ∃ a, parseScript demo = .ok a ∧ bareNode a = demoTree := by
  letI := ascii
  exact C41_scripts_are_parsed (by decide) demo_words demo_noClash demo_script

/-- the source of the witness for modules -/
def demoModule : Str := cs!"import a, {b as c,} from 'm'\nexport default c"

/-- its words -/
def demoModuleWords : List Word :=
  [W cs!"import" false, W cs!"a" false, P .comma false, P .lBrace false, W cs!"b" false, W cs!"as" false, W cs!"c" false,
   P .comma false, P .rBrace false, W cs!"from" false, ⟨.string cs!"m" false, false⟩,
   W cs!"export" true, W cs!"default" false, W cs!"c" false, ⟨.eof, false⟩]

/-- its tree -/
def demoModuleTree : Node :=
  .program [.importDeclaration [.importSpecifier ⟨cs!"a", sp⟩ ⟨cs!"a", sp⟩, .importSpecifier ⟨cs!"c", sp⟩ ⟨cs!"b", sp⟩]
      (Grammar.source cs!"m") sp,
    .exportDefaultDeclaration (.identifier cs!"c" .simple sp) sp] cs!"module" sp

set_option maxRecDepth 20000 in
theorem demoModule_words : letI := ascii; SourceWords demoModule demoModuleWords := by
  letI := ascii
  exact sourceWords_of (goals := List.replicate 15 .regExp) (by decide +kernel)

theorem demoModule_noClash : NoClash demoModuleWords := by
  simp [demoModuleWords, NoClash, clash]

theorem demoModule_module : letI := ascii; Module demoModuleWords demoModuleTree := by
  letI := ascii
  have hc : Primary { moduleCtx with inn := true } [W cs!"c" false] (.identifier cs!"c" .simple sp) :=
    .name (v := cs!"c") (by unfold Ref PlainName; decide) (by decide)
  have hi : ImportClause moduleCtx [W cs!"a" false, P .comma false, P .lBrace false, W cs!"b" false, W cs!"as" false,
      W cs!"c" false, P .comma false, P .rBrace false]
      [.importSpecifier ⟨cs!"a", sp⟩ ⟨cs!"a", sp⟩, .importSpecifier ⟨cs!"c", sp⟩ ⟨cs!"b", sp⟩] :=
    .both (by unfold Bindable PlainName; decide)
      (.named (ws := [W cs!"b" false, W cs!"as" false, W cs!"c" false, P .comma false])
        (.cons (ImportSpec.as (by unfold PropName; decide) (by unfold Bindable PlainName; decide)) .nil))
  have he : Export moduleCtx [W cs!"default" false, W cs!"c" false] ⟨.eof, false⟩
      (.exportDefaultDeclaration (.identifier cs!"c" .simple sp) sp) :=
    .defaultExpr (semi := []) (assign_prim hc) (by decide) (.auto ⟨by decide, by decide⟩ rfl)
  refine Module.mk (m := false) (w := []) (ws := _) .nil
    (.cons (.import (n := false) (m := false) (semi := []) hi (.auto ⟨by decide, by decide⟩))
      (.cons (ws := []) (.export (n := true) he) .nil)) ?_
  intro v o k ws' h
  cases h

/-- Witness for C41, modules. -/
example : letI := ascii; ∃ a, parseModule demoModule = .ok a ∧ bareNode a = demoModuleTree := by
  letI := ascii
  exact C41_modules_are_parsed (by decide) demoModule_words demoModule_noClash demoModule_module

/-- the source of the witness for accessors and asynchronous functions -/
def demoAsync : Str := cs!"x = {get a(){}, set b(c){}, async d(){}, *e(){}}\nasync f => async function () {}"

/-- `get a(){}` -/
def demoGet : List Word := [W cs!"get" false, W cs!"a" false, P .lParen false, P .rParen false, P .lBrace false, P .rBrace false]
/-- `set b(c){}` -/
def demoSet : List Word :=
  [W cs!"set" false, W cs!"b" false, P .lParen false, W cs!"c" false, P .rParen false, P .lBrace false, P .rBrace false]
/-- `async d(){}` -/
def demoMeth : List Word :=
  [W cs!"async" false, W cs!"d" false, P .lParen false, P .rParen false, P .lBrace false, P .rBrace false]
/-- `*e(){}` -/
def demoGen : List Word := [P .star false, W cs!"e" false, P .lParen false, P .rParen false, P .lBrace false, P .rBrace false]

/-- its words -/
def demoAsyncWords : List Word :=
  [W cs!"x" false, P .assign false, P .lBrace false] ++ (demoGet ++ P .comma false :: (demoSet ++ P .comma false ::
    (demoMeth ++ P .comma false :: demoGen))) ++ [P .rBrace false] ++
  [W cs!"async" true, W cs!"f" false, P .fatArrow false, W cs!"async" false, W cs!"function" false,
   P .lParen false, P .rParen false, P .lBrace false, P .rBrace false, ⟨.eof, false⟩]

/-- an empty body -/
abbrev demoEmpty : Node := .blockStatement [] sp

/-- the properties of its object -/
def demoProps : List ObjectExpressionProperty :=
  [.property (.identifier ⟨cs!"a", sp⟩) false (some (.functionExpression (.mk none [] demoEmpty false false false))) cs!"get" true false sp,
   .property (.identifier ⟨cs!"b", sp⟩) false
     (some (.functionExpression (.mk none [.bindingIdentifier cs!"c"] demoEmpty false false false))) cs!"set" true false sp,
   .property (.identifier ⟨cs!"d", sp⟩) false
     (some (.asyncFunctionExpression (.mk none [] demoEmpty false false true))) cs!"init" true false sp,
   .property (.identifier ⟨cs!"e", sp⟩) false (some (.functionExpression (.mk none [] demoEmpty true false false))) cs!"init" true false sp]

/-- its tree -/
def demoAsyncTree : Node :=
  .program [.expressionStatement (.assignmentExpression cs!"=" (.identifier cs!"x" .simple sp)
      (.objectExpression demoProps .invalid sp) .invalid sp) sp,
    .expressionStatement (.asyncArrowFunctionExpression none [.bindingIdentifier cs!"f"]
      (.functionExpression none [] demoEmpty false false true .invalid sp) false true true .invalid sp) sp] cs!"script" sp

set_option maxRecDepth 20000 in
theorem demoAsync_words : letI := ascii; SourceWords demoAsync demoAsyncWords := by
  letI := ascii
  exact sourceWords_of (goals := List.replicate 42 .regExp) (by decide +kernel)

theorem demoAsync_noClash : NoClash demoAsyncWords := by
  simp [demoAsyncWords, demoGet, demoSet, demoMeth, demoGen, NoClash, clash]

theorem demoAsync_body {_ : Env} {c : Grammar.Ctx} : Grammar.Body c [P .lBrace false, P .rBrace false] demoEmpty :=
  Body.mk (n := false) (m := false) (ws := []) (ws' := []) (ds := []) (ts := []) .nil .nil (by intro _ _ _ _ h; cases h)

theorem demoAsync_params {_ : Env} {c : Grammar.Ctx} : Grammar.Params c [P .lParen false, P .rParen false] [] :=
  Grammar.Params.mk (n := false) (m := false) (ws := []) .nil

theorem demoAsync_key {_ : Env} {c : Grammar.Ctx} {v : Str} (h : PropName v) :
    Key c .lParen [W v false] (.identifier ⟨v, sp⟩) false := .name h

theorem demoAsync_object : letI := ascii; Primary { scriptCtx with inn := true }
    (P .lBrace false :: ((demoGet ++ P .comma false :: (demoSet ++ P .comma false ::
    (demoMeth ++ P .comma false :: demoGen))) ++ [P .rBrace false])) (.objectExpression demoProps .invalid sp) := by
  letI := ascii
  refine .object (.cons ?_ (.cons ?_ (.cons ?_ (.rest ?_))))
  · exact Prop'.getter (n := false) (m := false) (o := false)
      (demoAsync_key (v := cs!"a") (by unfold PropName; decide)) demoAsync_body
  · refine Prop'.setter (n := false) (ws := [P .lParen false, W cs!"c" false, P .rParen false])
      (demoAsync_key (v := cs!"b") (by unfold PropName; decide)) ?_ demoAsync_body
    exact Grammar.Params.mk (n := false) (m := false) (ws := [W cs!"c" false])
      (.last (Grammar.Param.name (by unfold Bindable PlainName; decide)))
  · exact Prop'.asyncMethod (n := false) (ws := [P .lParen false, P .rParen false])
      (demoAsync_key (v := cs!"d") (by unfold PropName; decide)) demoAsync_params demoAsync_body
  · exact GenMethod.mk (n := false) (w := [W cs!"e" false]) (ws := [P .lParen false, P .rParen false])
      (demoAsync_key (v := cs!"e") (by unfold PropName; decide)) (by rintro x m h; cases h; exact ⟨_, rfl⟩)
      demoAsync_params demoAsync_body

theorem demoAsync_script : letI := ascii; Script demoAsyncWords demoAsyncTree := by
  letI := ascii
  have hx : Primary { scriptCtx with inn := true } [W cs!"x" false] (.identifier cs!"x" .simple sp) :=
    .name (v := cs!"x") (by unfold Ref PlainName; decide) (by decide)
  have hf : Primary { scriptCtx with inn := true, yld := false, awt := true }
      [W cs!"async" false, W cs!"function" false, P .lParen false, P .rParen false, P .lBrace false, P .rBrace false]
      (.functionExpression none [] demoEmpty false false true .invalid sp) :=
    .asyncFunction (ws := [P .lParen false, P .rParen false]) demoAsync_params demoAsync_body
  have ha : Assign { scriptCtx with inn := true } (W cs!"async" true :: W cs!"f" false :: P .fatArrow false ::
      [W cs!"async" false, W cs!"function" false, P .lParen false, P .rParen false, P .lBrace false, P .rBrace false])
      (.asyncArrowFunctionExpression none [.bindingIdentifier cs!"f"]
        (.functionExpression none [] demoEmpty false false true .invalid sp) false true true .invalid sp) :=
    .asyncArrow (by unfold Ref PlainName; decide) (.expr (assign_prim hf) (by intro _ _ h; cases h))
  refine Script.mk (m := false) (w := []) (ws := _) .nil
    (.cons (.stmt (Stmt.expr (semi := []) (.assign (.assign (n := false) (lhs_prim hx) rfl (assign_prim demoAsync_object)))
        (.inl rfl) (.auto ⟨by decide, by decide⟩ rfl)))
      (.cons (ws := []) (.stmt (Stmt.expr (semi := []) (.assign ha) (.inr ⟨_, _, _, rfl, by decide⟩)
        (.auto ⟨by decide, by decide⟩ rfl))) .nil)) ?_
  intro v o k ws' h
  cases h

/-- Witness for C41, accessors, asynchronous and generator methods, asynchronous functions. -/
example : letI := ascii; ∃ a, parseScript demoAsync = .ok a ∧ bareNode a = demoAsyncTree := by
  letI := ascii
  exact C41_scripts_are_parsed (by decide) demoAsync_words demoAsync_noClash demoAsync_script

end Giron

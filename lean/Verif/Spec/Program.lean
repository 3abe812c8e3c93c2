import Verif.Spec.Syntax
/-
The grammar of scripts and modules on words, with the tree of each.  Like the rest of the grammar it follows ECMAScript;
where giron implements something else, the rule says so.
-/
namespace Giron.Grammar
open Giron Spec

/-- The context at the start of a script. -/
def scriptCtx : Ctx := ⟨false, false, false, false, false, false, false, false⟩

/-- The context at the start of a module: the code is strict. -/
def moduleCtx : Ctx := { scriptCtx with strict := true }

set_option autoImplicit true

/-- The words do not begin with a string. -/
def NoString (ws : List Word) : Prop := ∀ v o k ws', ws ≠ ⟨.string v o, k⟩ :: ws'

/-- A script: a directive prologue, then statements and declarations up to the end of input. -/
inductive Script [Env] : List Word → Node → Prop
  | mk : Prologue Expr scriptCtx w (first ws ⟨.eof, m⟩) c ds → Items Item c ws ⟨.eof, m⟩ ts → NoString ws →
      Script (w ++ (ws ++ [⟨.eof, m⟩])) (.program (ds ++ ts) cs!"script" sp)

/-! ### Modules -/

/-- The string after `from`. -/
abbrev source (v : Str) : Literal := ⟨.str v, v, sp⟩

/-- One name of an import: `v as u`, or a mere `v`, which must not be a keyword. -/
inductive ImportSpec : Ctx → List Word → ImportDeclarationSpecifier → Prop
  | as : PropName v → Bindable c u → ImportSpec c [W v n, W cs!"as" m, W u k] (.importSpecifier ⟨u, sp⟩ ⟨v, sp⟩)
  | plain : PlainName v → ImportSpec c [W v n] (.importSpecifier ⟨v, sp⟩ ⟨v, sp⟩)

/-- What is imported, if not the default: `* as v` or names in braces. -/
inductive ImportNames : Ctx → List Word → List ImportDeclarationSpecifier → Prop
  | namespace : Bindable c v → ImportNames c [P .star n, W cs!"as" m, W v k] [.importNamespaceSpecifier ⟨v, sp⟩]
  | named : Commas ImportSpec c ws xs → ImportNames c (P .lBrace n :: (ws ++ [P .rBrace m])) xs

/-- What is imported.  (giron: the default import is an `ImportSpecifier`; `import` of a mere string is not
implemented.) -/
inductive ImportClause : Ctx → List Word → List ImportDeclarationSpecifier → Prop
  | names : ImportNames c ws xs → ImportClause c ws xs
  | default : Bindable c v → ImportClause c [W v n] [.importSpecifier ⟨v, sp⟩ ⟨v, sp⟩]
  | both : Bindable c v → ImportNames c ws xs →
      ImportClause c (W v n :: P .comma m :: ws) (.importSpecifier ⟨v, sp⟩ ⟨v, sp⟩ :: xs)

/-- One name of an export.  (giron: in `v as u` the two names are swapped: `exported` is `v`, `local` is `u`.) -/
inductive ExportSpec : Ctx → List Word → ExportSpecifier → Prop
  | as : PropName v → PropName u → ExportSpec c [W v n, W cs!"as" m, W u k] ⟨⟨v, sp⟩, ⟨u, sp⟩⟩
  | plain : PropName v → ExportSpec c [W v n] ⟨⟨v, sp⟩, ⟨v, sp⟩⟩

/-- A function without a name, after `export default`. -/
inductive Anonymous [Env] : Ctx → List Word → Node → Prop
  | function : Params { c with yld := false, awt := false } ws ps →
      Body { c with yld := false, awt := false, ret := true } ws' b →
      Anonymous c (W cs!"function" n :: (ws ++ ws')) (.functionDeclaration none ps b false false false sp)
  | generator : Params { c with yld := true, awt := false } ws ps →
      Body { c with yld := true, awt := false, ret := true } ws' b →
      Anonymous c (W cs!"function" n :: P .star m :: (ws ++ ws')) (.functionDeclaration none ps b true false false sp)

/-- Exports; the word is the one that follows.  (giron: `let` and `async` functions cannot be exported by their
declaration, a default class needs a name, and a list of names does not take a semicolon or `from`.) -/
inductive Export [Env] : Ctx → List Word → Word → Node → Prop
  | var : Sep Declarator { c with inn := true } ws ds → ExprSemi semi nx →
      Export c (W cs!"var" n :: (ws ++ semi)) nx (.exportNamedDeclaration (some (.variableDeclaration ds cs!"var" sp)) [] none sp)
  | const : Sep Declarator { c with inn := true } ws ds → ExprSemi semi nx →
      Export c (W cs!"const" n :: (ws ++ semi)) nx (.exportNamedDeclaration (some (.variableDeclaration ds cs!"const" sp)) [] none sp)
  | function : Function { c with dflt := false } true ws t → Export c ws nx (.exportNamedDeclaration (some t) [] none sp)
  | class : Class { c with dflt := false, strict := true } ws t →
      Export c (W cs!"class" n :: ws) nx (.exportNamedDeclaration (some t) [] none sp)
  | names : Commas ExportSpec c ws xs → nx.c ≠ .name cs!"from" →
      Export c (P .lBrace n :: (ws ++ [P .rBrace m])) nx (.exportNamedDeclaration none xs none sp)
  | all : Semi semi nx →
      Export c (P .star n :: W cs!"from" m :: ⟨.string v o, k⟩ :: semi) nx (.exportAllDeclaration (source v) sp)
  | defaultFunction : Function { c with dflt := true } true ws t →
      Export c (W cs!"default" n :: ws) nx (.exportDefaultDeclaration t sp)
  | defaultAnonymous : Anonymous { c with dflt := true } ws t →
      Export c (W cs!"default" n :: ws) nx (.exportDefaultDeclaration t sp)
  | defaultClass : Class { c with dflt := true, strict := true } ws t →
      Export c (W cs!"default" n :: W cs!"class" m :: ws) nx (.exportDefaultDeclaration t sp)
  | defaultExpr : Assign { c with inn := true } ws e →
      (∀ v ∈ [cs!"function", cs!"class", cs!"async"], (first ws nx).c ≠ .name v) → ExprSemi semi nx →
      Export c (W cs!"default" n :: (ws ++ semi)) nx (.exportDefaultDeclaration e sp)

/-- The items of a module; the word is the one that follows. -/
inductive ModuleItem [Env] : Ctx → List Word → Word → Node → Prop
  | item : Item c ws nx t → ModuleItem c ws nx t
  | import : ImportClause c ws xs → Semi semi nx →
      ModuleItem c (W cs!"import" n :: (ws ++ W cs!"from" m :: ⟨.string v o, k⟩ :: semi)) nx (.importDeclaration xs (source v) sp)
  | export : Export c ws nx t → ModuleItem c (W cs!"export" n :: ws) nx t

/-- A module: a directive prologue, then the items up to the end of input. -/
inductive Module [Env] : List Word → Node → Prop
  | mk : Prologue Expr moduleCtx w (first ws ⟨.eof, m⟩) c ds → Items ModuleItem c ws ⟨.eof, m⟩ ts → NoString ws →
      Module (w ++ (ws ++ [⟨.eof, m⟩])) (.program (ds ++ ts) cs!"module" sp)

end Giron.Grammar

import Verif.Model.Reader
import Verif.Model.Parser.Module
import Verif.Proofs.Parse.Module
import Verif.Thm.Witness
import Verif.Thm.Path
import Verif.Thm.Outcome
import Verif.Thm.Statements
import Verif.Thm.Expressions
import Verif.Thm.Operators
import Verif.Thm.Patterns
import Verif.Thm.Reader
import Verif.Thm.Lexical
import Verif.Thm.Json
import Verif.Thm.Semicolon
import Verif.Thm.Tokens
import Verif.Thm.LexicalWitness
import Verif.Proofs.Complete.Tests
import Verif.Proofs.Complete.Follow
import Verif.Proofs.Complete.Lists
import Verif.Proofs.Complete.Names
import Verif.Proofs.Complete.Patterns
import Verif.Proofs.Complete.Class
import Verif.Proofs.Complete.Primary
import Verif.Proofs.Complete.Convert
import Verif.Proofs.Complete.Lhs
import Verif.Proofs.Complete.Ops
import Verif.Proofs.Complete.Binary
import Verif.Proofs.Complete.Assign
import Verif.Proofs.Complete.Simple
import Verif.Proofs.Complete.Compound
import Verif.Proofs.Complete.Loops
import Verif.Proofs.Complete.Switch
import Verif.Proofs.Complete.Feed
import Verif.Proofs.Complete.Program
import Verif.Proofs.Complete.Tokens
import Verif.Thm.Complete
import Verif.Thm.Print
import Verif.Thm.Shift
import Verif.Thm.Context
import Verif.Thm.Strict
import Verif.Proofs.Spell.Basic
import Verif.Proofs.Spell.Convert
import Verif.Proofs.Spell.Names
import Verif.Proofs.Spell.Patterns
import Verif.Proofs.Spell.Class
import Verif.Proofs.Spell.Peek
import Verif.Proofs.Spell.Primary
import Verif.Proofs.Spell.Expr
import Verif.Proofs.Spell.Stmt
import Verif.Proofs.Spell.Module
import Verif.Spec.Spells
import Verif.Thm.Spell
import Verif.Spec.Layout
import Verif.Proofs.Layout.Tree
import Verif.Proofs.Layout.Scan
import Verif.Proofs.Layout.Sim
import Verif.Proofs.Layout.Peek
import Verif.Proofs.Layout.Names
import Verif.Proofs.Layout.Patterns
import Verif.Proofs.Layout.Primary
import Verif.Proofs.Layout.Expr
import Verif.Proofs.Layout.Stmt
import Verif.Proofs.Layout.Module
import Verif.Proofs.Layout.Top
import Verif.Thm.Layout
import Verif.Proofs.Pos.Attr
import Verif.Proofs.Pos.Tree
import Verif.Proofs.Pos.Basic
import Verif.Proofs.Pos.Convert
import Verif.Proofs.Pos.WCore
import Verif.Proofs.Pos.WNames
import Verif.Proofs.Pos.WPatterns
import Verif.Proofs.Pos.WClass
import Verif.Proofs.Pos.WPrimary
import Verif.Proofs.Pos.WExpr
import Verif.Proofs.Pos.WStmt
import Verif.Proofs.Pos.WModule
import Verif.Proofs.Pos.World
import Verif.Proofs.Pos.Parts
import Verif.Spec.Positions
import Verif.Thm.Positions
import Verif.Proofs.Pos.Scan
import Verif.Spec.Errors
import Verif.Thm.Errors
import Verif.Spec.Prints
import Verif.Proofs.Prints
import Verif.Proofs.Errors
import Verif.Thm.Prints
import Verif.Proofs.Spell.Obeys
import Verif.Proofs.Spell.Inside
import Verif.Thm.Lines
import Verif.Thm.ErrorText
import Verif.Thm.Reasons
import Verif.Spec.Reasons
import Verif.Proofs.Pos.Trivial
import Verif.Proofs.Why.Basic
import Verif.Proofs.Why.Core
import Verif.Proofs.Why.Names
import Verif.Proofs.Why.Patterns
import Verif.Proofs.Why.Class
import Verif.Proofs.Why.Primary
import Verif.Proofs.Why.Expr
import Verif.Proofs.Why.Stmt
import Verif.Proofs.Why.Module
import Verif.Proofs.Pos.Any
import Verif.Proofs.Pos.Mild
import Verif.Proofs.Layout.Barrier
import Verif.Proofs.Layout.Prefix
import Verif.Spec.Answer
import Verif.Thm.ErrorWords
import Verif.Proofs.Deep.Basic
import Verif.Proofs.Deep.Walk
import Verif.Thm.Depth
import Verif.Spec.Eased
import Verif.Proofs.Ease.Tree
import Verif.Proofs.Ease.Sim
import Verif.Proofs.Ease.Walk
import Verif.Proofs.Ease.Json
import Verif.Thm.Eased
import Verif.Thm.Prefix
import Verif.Thm.Size
import Verif.Model.Double
import Verif.Model.JsonText
import Verif.Spec.Double
import Verif.Spec.JsonText
import Verif.Proofs.Double
import Verif.Proofs.Digits
import Verif.Proofs.JsonText
import Verif.Thm.JsonText
import Verif.Spec.Atoms
import Verif.Proofs.Atoms.Basic
import Verif.Proofs.Atoms.Words
import Verif.Proofs.Atoms.Tree
import Verif.Thm.Atoms
import Verif.Proofs.Build.Basic
import Verif.Proofs.Build.Scan
import Verif.Proofs.Build.Tree
import Verif.Proofs.Build.Walk
import Verif.Thm.Build
import Verif.Spec.Marks
import Verif.Proofs.Marks.Scan
import Verif.Proofs.Marks.Tree
import Verif.Proofs.Marks.Basic
import Verif.Proofs.Marks.Walk
import Verif.Thm.Marks
import Verif.Thm.Causes
import Verif.Thm.Unread

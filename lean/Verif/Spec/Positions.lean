import Verif.Spec.Tree
import Verif.Spec.Layout
import Verif.Spec.Scan
/-
Positions: the spans that a tree holds, and the words of a source with their places.
-/
namespace Giron.Spec
open Giron

/-- the span of a node -/
def nodeSpan : Node → Span
  | .arrayExpression _ _ sp => sp
  | .arrayPattern _ _ sp => sp
  | .arrayAssignmentPattern _ _ sp => sp
  | .arrowFunctionExpression _ _ _ _ _ _ _ sp => sp
  | .assignmentExpression _ _ _ _ sp => sp
  | .assignmentPattern _ _ sp => sp
  | .assignmentRestElement _ sp => sp
  | .asyncArrowFunctionExpression _ _ _ _ _ _ _ sp => sp
  | .asyncFunctionExpression _ _ _ _ _ _ _ sp => sp
  | .awaitExpression _ sp => sp
  | .binaryExpression _ _ _ _ sp => sp
  | .bindingIdentifier _ sp => sp
  | .logicalExpression _ _ _ sp => sp
  | .callExpression _ _ _ sp => sp
  | .classExpression _ _ _ _ sp => sp
  | .computedMemberExpression _ _ _ _ sp => sp
  | .conditionalExpression _ _ _ sp => sp
  | .identifier _ _ sp => sp
  | .functionExpression _ _ _ _ _ _ _ sp => sp
  | .literal _ _ _ sp => sp
  | .newExpression _ _ _ sp => sp
  | .objectExpression _ _ sp => sp
  | .objectPattern _ _ sp => sp
  | .regexLiteral _ _ _ _ sp => sp
  | .sequenceExpression _ _ sp => sp
  | .staticMemberExpression _ _ _ _ sp => sp
  | .taggedTemplateExpression _ _ _ sp => sp
  | .thisExpression _ sp => sp
  | .unaryExpression _ _ _ _ sp => sp
  | .updateExpression _ _ _ _ sp => sp
  | .yieldExpression _ _ _ sp => sp
  | .arrowParameterPlaceHolder _ _ sp => sp
  | .restElement _ sp => sp
  | .spreadElement _ sp => sp
  | .super _ sp => sp
  | .templateLiteral _ _ _ sp => sp
  | .metaProperty _ _ _ sp => sp
  | .asyncFunctionDeclaration _ _ _ _ _ _ sp => sp
  | .breakStatement _ sp => sp
  | .continueStatement _ sp => sp
  | .debuggerStatement sp => sp
  | .doWhileStatement _ _ sp => sp
  | .emptyStatement sp => sp
  | .expressionStatement _ sp => sp
  | .directive _ _ sp => sp
  | .forStatement _ _ _ _ sp => sp
  | .forInStatement _ _ _ _ sp => sp
  | .forOfStatement _ _ _ sp => sp
  | .functionDeclaration _ _ _ _ _ _ sp => sp
  | .ifStatement _ _ _ sp => sp
  | .returnStatement _ sp => sp
  | .switchStatement _ _ sp => sp
  | .throwStatement _ sp => sp
  | .tryStatement _ _ _ sp => sp
  | .variableDeclaration _ _ sp => sp
  | .whileStatement _ _ sp => sp
  | .withStatement _ _ sp => sp
  | .blockStatement _ sp => sp
  | .classDeclaration _ _ _ sp => sp
  | .exportAllDeclaration _ sp => sp
  | .exportDefaultDeclaration _ sp => sp
  | .exportNamedDeclaration _ _ _ sp => sp
  | .importDeclaration _ _ sp => sp
  | .importDefaultSpecifier _ sp => sp
  | .importNamespaceSpecifier _ sp => sp
  | .importSpecifier _ _ sp => sp
  | .labeledStatement _ _ sp => sp
  | .moduleNode _ _ sp => sp
  | .program _ _ sp => sp

/-- the spans of the two names of an export specifier -/
def exportSpans (e : ExportSpecifier) : List Span := [e.exported.span, e.loc.span]

/-- the spans of the names of an import specifier -/
def importSpans : ImportDeclarationSpecifier → List Span
  | .importDefaultSpecifier l => [l.span]
  | .importNamespaceSpecifier l => [l.span]
  | .importSpecifier l i => [l.span, i.span]

/-- the spans of the names and literals that a node holds which are not parts of their own -/
def heldSpans : Node → List Span
  | .exportAllDeclaration source _ => [source.span]
  | .exportNamedDeclaration _ specifiers source _ => specifiers.flatMap exportSpans ++ source.toList.map (·.span)
  | .importDeclaration specifiers source _ => specifiers.flatMap importSpans ++ [source.span]
  | .importDefaultSpecifier l _ => [l.span]
  | .importNamespaceSpecifier l _ => [l.span]
  | .importSpecifier l i _ => [l.span, i.span]
  | .labeledStatement label _ _ => [label.span]
  | _ => []

/-- the spans that a part of a tree holds, its own parts aside -/
def spans : Item → List Span
  | .node _ n => nodeSpan n :: heldSpans n
  | .binding _ (.bindingIdentifier _ sp) => [sp]
  | .binding _ (.arrayPattern _ sp) => [sp]
  | .binding _ (.objectPattern _ sp) => [sp]
  | .arrElem (.spreadElement _ sp) => [sp]
  | .key (.identifier i) => [i.span]
  | .key (.literal l) => [l.span]
  | .propVal (.bindingIdentifier _ sp) => [sp]
  | .patVal _ (.bindingIdentifier _ sp) => [sp]
  | .arg (.spreadElement _ sp) => [sp]
  | .prop (.property _ _ _ _ _ _ sp) => [sp]
  | .prop (.spreadElement _ sp) => [sp]
  | _ => []

/-- `text` is what is left of the source after some words. -/
inductive Left [Env] (source : Str) : Str → Prop
  | all : Left source source
  | word {w x r : Str} {goal : LexGoal} {resume : Bool} {c : Content} : Left source (w ++ (x ++ r)) →
      -- white space and comments, as much as there is
      Trivia w (x ++ r) → ¬ StartsTrivia (x ++ r) →
      -- a word
      Lexeme goal resume x r c → Left source r

/-- `x` is a word of the source that says `c`: `pre` is before it and `post` behind it.  (The end of the source is a word,
too.) -/
structure IsWord [Env] (source pre x post : Str) (c : Content) : Prop where
  text : source = pre ++ (x ++ post)
  /-- between the word before and this one there are white space and comments -/
  before : ∃ w, w <:+ pre ∧ Left source (w ++ (x ++ post)) ∧ Trivia w (x ++ post) ∧ ¬ StartsTrivia (x ++ post)
  lexeme : ∃ goal resume, Lexeme goal resume x post c

/-- the number of the line that the text `post`, an end of the source, begins on -/
def lineAt (source post : Str) : Nat := 1 + (lineBreaks source - lineBreaks post)

/-- The span begins where a word of the source begins, and ends where the same or a later word ends.  The line of a place is
the line that the word ends on.  Its column has nothing to do with where on the line the word is: it is one more than the
number of characters of the word (of its last line). -/
def OnWords [Env] (source : Str) (sp : Span) : Prop :=
  ∃ pre x post c pre' x' post' c', IsWord source pre x post c ∧ IsWord source pre' x' post' c' ∧
    pre.length ≤ pre'.length ∧ (pre ++ x).length ≤ (pre' ++ x').length ∧
    sp.start.idx = pre.length ∧ sp.start.line = lineAt source post ∧ sp.start.col = columnAfter 1 x post ∧
    sp.end.idx = (pre' ++ x').length ∧ sp.end.line = lineAt source post' ∧ sp.end.col = columnAfter 1 x' post'

/-- The place is in the source. -/
def InSource (source : Str) (m : Marker) : Prop := 1 ≤ m.line ∧ m.line ≤ lines source ∧ m.idx ≤ source.length

/-- No word of the source is `async`, `get` or `set`, however the source is read. -/
def NeverLooksAhead [Env] (source : Str) : Prop := ∀ pre x post c, IsWord source pre x post c → ¬ LooksAhead c

end Giron.Spec

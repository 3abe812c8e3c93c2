import Verif.Thm.Path
/-
Operator precedence and associativity in accepted programs.
-/
set_option maxRecDepth 20000
namespace Giron
open Spec Parser

/-- The precedence of the binary operators in ECMAScript (higher binds tighter; 0 for other strings). -/
def esPrec (op : Str) : Nat :=
  if op = cs!"||" then 1
  else if op = cs!"&&" then 2
  else if op = cs!"|" then 3
  else if op = cs!"^" then 4
  else if op = cs!"&" then 5
  else if op ∈ [cs!"==", cs!"!=", cs!"===", cs!"!=="] then 6
  else if op ∈ [cs!"<", cs!">", cs!"<=", cs!">=", cs!"instanceof", cs!"in"] then 7
  else if op ∈ [cs!"<<", cs!">>", cs!">>>"] then 8
  else if op ∈ [cs!"+", cs!"-"] then 9
  else if op ∈ [cs!"*", cs!"/", cs!"%"] then 10
  else if op = cs!"**" then 11
  else 0

/-- What an operand of a binary operator may be: a binary expression of at least the given precedence, a unary
expression if allowed, or something that binds tighter.  (Parentheses make a `SequenceExpression`.) -/
def OperandOk (minPrec : Nat) (unary : Bool) : Node → Prop
  | .binaryExpression op _ _ _ _ => minPrec ≤ esPrec op
  | .logicalExpression .. => False
  | .unaryExpression .. => unary = true
  | .awaitExpression .. => False
  | .assignmentExpression .. | .conditionalExpression .. | .yieldExpression .. => False
  | _ => True

/-- The grouping that ECMAScript demands of `l op r`. -/
def GroupOk (op : Str) (l r : Node) : Prop :=
  1 ≤ esPrec op ∧
  if op = cs!"**" then OperandOk 12 false l ∧ OperandOk 11 true r
  else OperandOk (esPrec op) true l ∧ OperandOk (esPrec op + 1) true r

theorem esPrec_binPrec : ∀ op ∈ binOps.map Prod.fst,
    binPrec op = esPrec op ∨ (op = cs!"%" ∧ binPrec op = 11 ∧ esPrec op = 10) ∨
      (op = cs!"**" ∧ binPrec op = 12 ∧ esPrec op = 11) := by decide

theorem binPrec_mem {op : Str} (h : 1 ≤ binPrec op) : op ∈ binOps.map Prod.fst := by
  unfold binPrec at h
  refine Decidable.byContradiction fun hn => ?_
  have : binOps.lookup op = none := by
    rw [List.lookup_eq_none_iff]
    intro p hp
    have : op ≠ p.1 := fun e => hn (e ▸ List.mem_map_of_mem hp)
    simpa using this
  simp [this] at h

theorem prec_cases {op : Str} (h : 1 ≤ binPrec op) :
    (binPrec op ≤ 10 ∧ binPrec op = esPrec op ∧ op ≠ cs!"%" ∧ op ≠ cs!"**") ∨
      (op = cs!"%" ∧ binPrec op = 11 ∧ esPrec op = 10) ∨ (op = cs!"**" ∧ binPrec op = 12 ∧ esPrec op = 11) := by
  have key : ∀ op ∈ binOps.map Prod.fst, (binPrec op ≤ 10 ∧ binPrec op = esPrec op ∧ op ≠ cs!"%" ∧ op ≠ cs!"**") ∨
      (op = cs!"%" ∧ binPrec op = 11 ∧ esPrec op = 10) ∨ (op = cs!"**" ∧ binPrec op = 12 ∧ esPrec op = 11) := by
    decide
  exact key op (binPrec_mem h)

/-- C15, the part that holds: operands are grouped as ECMAScript demands, except that an unparenthesised `%` may be
the right operand of `*` or `/` (the code has `%` bind tighter than these; see `C15_refuted`). -/
theorem C15_grouping_partial [Env] {source : Str} {t : Node} {p : List Item} {r : Role} {op : Str} {l rt : Node}
    {att : ATT} {sp : Span} (ht : Accepted source t) (hp : PathTo t p (.node r (.binaryExpression op l rt att sp))) :
    GroupOk op l rt ∨ ((op = cs!"*" ∨ op = cs!"/") ∧ OperandOk (esPrec op) true l ∧
      ∃ l' r' att' sp', rt = .binaryExpression cs!"%" l' r' att' sp') := by
  have h : BinaryOk op l rt := ht.nodeOk hp
  have hl : isExpr l = true := ht.fits (hp.step (k := .node .expr l) (by simp [children, nodeParts, exprs]))
  have hr : isExpr rt = true := ht.fits (hp.step (k := .node .expr rt) (by simp [children, nodeParts, exprs]))
  have hlo : ∀ op' l' r' att' sp', l = .binaryExpression op' l' r' att' sp' → 1 ≤ binPrec op' := by
    rintro op' l' r' att' sp' rfl
    have := ht.nodeOk (hp.step (k := .node .expr (.binaryExpression op' l' r' att' sp'))
      (by simp [children, nodeParts, exprs]))
    exact this.1
  have hro : ∀ op' l' r' att' sp', rt = .binaryExpression op' l' r' att' sp' → 1 ≤ binPrec op' := by
    rintro op' l' r' att' sp' rfl
    have := ht.nodeOk (hp.step (k := .node .expr (.binaryExpression op' l' r' att' sp'))
      (by simp [children, nodeParts, exprs]))
    exact this.1
  obtain ⟨h1, h2⟩ := h
  rcases prec_cases h1 with ⟨e1, e2, e3, e4⟩ | ⟨rfl, e1, e2⟩ | ⟨rfl, e1, e2⟩
  · rw [if_neg e4] at h2
    obtain ⟨h2, h3⟩ := h2
    have hL : OperandOk (esPrec op) true l := by
      cases l <;> simp [isExpr] at hl <;> simp only [OperandOk] <;> simp only [level] at h2 <;>
        try (first | trivial | omega)
      have := prec_cases (hlo _ _ _ _ _ rfl)
      omega
    by_cases hx : (op = cs!"*" ∨ op = cs!"/") ∧ ∃ l' r' att' sp', rt = .binaryExpression cs!"%" l' r' att' sp'
    · exact .inr ⟨hx.1, hL, hx.2⟩
    · refine .inl ⟨by omega, ?_⟩
      rw [if_neg e4]
      refine ⟨hL, ?_⟩
      cases rt <;> simp [isExpr] at hr <;> simp only [OperandOk] <;> simp only [level] at h3 <;>
        try (first | trivial | omega)
      rcases prec_cases (hro _ _ _ _ _ rfl) with h5 | ⟨rfl, h5, h6⟩ | h5
      · omega
      · by_cases h10 : binPrec op = 10
        · exfalso
          have : ∀ op ∈ binOps.map Prod.fst, binPrec op = 10 → op = cs!"*" ∨ op = cs!"/" := by decide
          exact hx ⟨this op (binPrec_mem h1) h10, _, _, _, _, rfl⟩
        · omega
      · omega
  · left
    refine ⟨by omega, ?_⟩
    rw [if_neg (by decide)] at h2 ⊢
    rw [e1] at h2
    rw [e2]
    constructor
    · cases l <;> simp [isExpr] at hl <;> simp only [OperandOk] <;> simp only [level] at h2 <;>
        try (first | trivial | omega)
      have := prec_cases (hlo _ _ _ _ _ rfl)
      omega
    · cases rt <;> simp [isExpr] at hr <;> simp only [OperandOk] <;> simp only [level] at h2 <;>
        try (first | trivial | omega)
      have := prec_cases (hro _ _ _ _ _ rfl)
      omega
  · left
    refine ⟨by omega, ?_⟩
    rw [if_pos rfl] at h2 ⊢
    constructor
    · cases l <;> simp [isExpr] at hl <;> simp only [OperandOk] <;> simp only [level] at h2 <;>
        try (first | trivial | omega)
      have := prec_cases (hlo _ _ _ _ _ rfl)
      omega
    · cases rt <;> simp [isExpr] at hr <;> simp only [OperandOk] <;> simp only [level] at h2 <;>
        try (first | trivial | omega)
      have := prec_cases (hro _ _ _ _ _ rfl)
      omega

/-- the hypotheses are met -/
example : letI := ascii; ∃ t p r op l rt att sp, Accepted cs!"a + b * c ** -d == e && f" t ∧ PathTo t p (.node r (.binaryExpression op l rt att sp)) := by
  letI := ascii
  obtain ⟨t, p, it, h1, h2, h3⟩ := has_path (e := parseScript cs!"a + b * c ** -d == e && f")
    (test := fun | .node _ (.binaryExpression _ _ _ _ _) => true | _ => false) (by decide +kernel)
  split at h3 <;> simp at h3
  exact ⟨t, p, _, _, _, _, _, _, .inl h1, h2⟩
/-- C15, the part that fails: `a*b%c` is read as `a*(b%c)`. -/
theorem C15_refuted : letI := ascii; ∃ t p r l rt att sp, Accepted cs!"a*b%c" t ∧
    PathTo t p (.node r (.binaryExpression cs!"*" l rt att sp)) ∧ ¬ GroupOk cs!"*" l rt := by
  letI := ascii
  obtain ⟨t, p, it, h1, h2, h3⟩ := has_path (e := parseScript cs!"a*b%c")
    (test := fun | .node _ (.binaryExpression op _ (.binaryExpression op' ..) _ _) => op == cs!"*" && op' == cs!"%"
                 | _ => false) (by decide +kernel)
  split at h3
  · simp only [Bool.and_eq_true, beq_iff_eq] at h3
    obtain ⟨rfl, rfl⟩ := h3
    exact ⟨t, p, _, _, _, _, _, .inl h1, h2, by simp [GroupOk, OperandOk, esPrec]⟩
  · cases h3

/-- C15: unary operators are ECMAScript's; their operand is a unary expression or binds tighter. -/
theorem C15_unary [Env] {source : Str} {t : Node} {p : List Item} {r : Role} {op : Str} {a : Node} {pre : Bool}
    {att : ATT} {sp : Span} (ht : Accepted source t) (hp : PathTo t p (.node r (.unaryExpression op a pre att sp))) :
    op ∈ unaryOps ∧ OperandOk 12 true a := by
  have h : op ∈ unaryOps ∧ 15 ≤ level a := (ht.nodeOk hp).1
  have hl : isExpr a = true := ht.fits (hp.step (k := .node .expr a) (by simp [children, nodeParts, exprs]))
  refine ⟨h.1, ?_⟩
  have hb : ∀ op' l r att' sp', a = .binaryExpression op' l r att' sp' → 1 ≤ binPrec op' := by
    rintro op' l' r' att' sp' rfl
    have := ht.nodeOk (hp.step (k := .node .expr (.binaryExpression op' l' r' att' sp'))
      (by simp [children, nodeParts, exprs]))
    exact this.1
  have h2 := h.2
  cases a <;> simp [isExpr] at hl <;> simp only [OperandOk] <;> simp only [level] at h2 <;>
    try (first | trivial | omega)
  have hb := hb _ _ _ _ _ rfl
  have := prec_cases hb
  omega

/-- the hypotheses are met -/
example : letI := ascii; ∃ t p r op a pre att sp, Accepted cs!"-typeof !a" t ∧ PathTo t p (.node r (.unaryExpression op a pre att sp)) := by
  letI := ascii
  obtain ⟨t, p, it, h1, h2, h3⟩ := has_path (e := parseScript cs!"-typeof !a")
    (test := fun | .node _ (.unaryExpression _ _ _ _ _) => true | _ => false) (by decide +kernel)
  split at h3 <;> simp at h3
  exact ⟨t, p, _, _, _, _, _, _, .inl h1, h2⟩
/-- C15: the condition of `?:` is no unparenthesised assignment, `yield` or conditional. -/
theorem C15_conditional [Env] {source : Str} {t : Node} {p : List Item} {r : Role} {a b c : Node} {sp : Span}
    (ht : Accepted source t) (hp : PathTo t p (.node r (.conditionalExpression a b c sp))) : OperandOk 1 true a := by
  have h : 2 ≤ level a := ht.nodeOk hp
  have hl : isExpr a = true := ht.fits (hp.step (k := .node .expr a) (by simp [children, nodeParts, exprs]))
  have hb : ∀ op' l r att' sp', a = .binaryExpression op' l r att' sp' → 1 ≤ binPrec op' := by
    rintro op' l' r' att' sp' rfl
    have := ht.nodeOk (hp.step (k := .node .expr (.binaryExpression op' l' r' att' sp'))
      (by simp [children, nodeParts, exprs]))
    exact this.1
  cases a <;> simp [isExpr] at hl <;> simp only [OperandOk] <;> simp only [level] at h <;>
    try (first | trivial | omega)
  have hb := hb _ _ _ _ _ rfl
  have := prec_cases hb
  omega

/-- the hypotheses are met -/
example : letI := ascii; ∃ t p r a b c sp, Accepted cs!"a || b ? c : d" t ∧ PathTo t p (.node r (.conditionalExpression a b c sp)) := by
  letI := ascii
  obtain ⟨t, p, it, h1, h2, h3⟩ := has_path (e := parseScript cs!"a || b ? c : d")
    (test := fun | .node _ (.conditionalExpression _ _ _ _) => true | _ => false) (by decide +kernel)
  split at h3 <;> simp at h3
  exact ⟨t, p, _, _, _, _, _, .inl h1, h2⟩
/-- C15: the callee of a call, the object of a member expression, the callee of `new` and the tag of a template are
no unparenthesised operator expressions. -/
theorem C15_callees [Env] {source : Str} {t : Node} {p : List Item} {r : Role} {n a : Node}
    (ht : Accepted source t) (hp : PathTo t p (.node r n))
    (hn : (∃ args att sp, n = .callExpression a args att sp) ∨ (∃ args att sp, n = .newExpression a args att sp) ∨
      (∃ b q att sp, n = .computedMemberExpression b a q att sp) ∨
      (∃ b q att sp, n = .staticMemberExpression b a q att sp) ∨
      (∃ qs es sp, n = .taggedTemplateExpression a qs es sp)) :
    OperandOk 12 false a ∧ ∀ op b pre att sp, a ≠ .updateExpression op b pre att sp := by
  have h := ht.nodeOk hp
  have h2 : level a = 17 := by
    rcases hn with ⟨_, _, _, rfl⟩ | ⟨_, _, _, rfl⟩ | ⟨_, _, _, _, rfl⟩ | ⟨_, _, _, _, rfl⟩ | ⟨_, _, _, rfl⟩
    · exact h
    · exact h
    · exact h.1
    · exact h.1
    · exact h.1
  have h3 : isExpr a = true ∨ isSuper a = true := by
    rcases hn with ⟨_, _, _, rfl⟩ | ⟨_, _, _, rfl⟩ | ⟨_, _, _, _, rfl⟩ | ⟨_, _, _, _, rfl⟩ | ⟨_, _, _, rfl⟩
    · exact ht.fits (hp.step (k := .node .callee a) (by simp [children, nodeParts]))
    · exact .inl (ht.fits (hp.step (k := .node .expr a) (by simp [children, nodeParts])))
    · exact ht.fits (hp.step (k := .node .memberObj a) (by simp [children, nodeParts]))
    · exact ht.fits (hp.step (k := .node .memberObj a) (by simp [children, nodeParts]))
    · exact .inl (ht.fits (hp.step (k := .node .expr a) (by simp [children, nodeParts])))
  constructor
  · cases a <;> simp [isExpr, isSuper] at h3 <;> simp only [OperandOk] <;> simp only [level] at h2 <;>
      try (first | trivial | omega)
    have : ∀ op ∈ binOps.map Prod.fst, binPrec op ≤ 12 := by decide
    by_cases h0 : 1 ≤ binPrec ‹Str›
    · have := this _ (binPrec_mem h0)
      omega
    · omega
  · rintro op b pre att sp rfl
    simp [level] at h2

/-- the hypotheses are met -/
example : letI := ascii; ∃ t p r a args att sp, Accepted cs!"a.b(c)(d)" t ∧ PathTo t p (.node r (.callExpression a args att sp)) := by
  letI := ascii
  obtain ⟨t, p, it, h1, h2, h3⟩ := has_path (e := parseScript cs!"a.b(c)(d)")
    (test := fun | .node _ (.callExpression _ _ _ _) => true | _ => false) (by decide +kernel)
  split at h3 <;> simp at h3
  exact ⟨t, p, _, _, _, _, _, .inl h1, h2⟩
end Giron

import Verif.Proofs.Complete.Tests
/-
Grammar completeness: what may follow a phrase, and what it may begin with.
-/
namespace Giron.Complete
open Giron M Spec Grammar Parser
variable [Env]

/-! ### Followers -/

/-- Nothing that goes on with an operand or a conditional expression. -/
structure Stop (inn : Bool) (w : Word) : Prop where
  fit : w.c.fits .div = true
  lbr : isP w.c .lBracket = false
  dot : isP w.c .dot = false
  head : isHead w.c = false
  paren : isP w.c .lParen = false
  upd : w.nl = false → isUpdate w.c = false
  pow : isP w.c .pow = false
  prec : prec inn w.c = 0
  quest : isP w.c .question = false

/-- The word does not go on with a member expression. -/
structure SMember (w : Word) : Prop where
  fit : w.c.fits .div = true
  arrow : isP w.c .fatArrow = false
  lbr : isP w.c .lBracket = false
  dot : isP w.c .dot = false
  head : isHead w.c = false

/-- The word does not go on with a call. -/
structure SCall (w : Word) : Prop extends SMember w where
  paren : isP w.c .lParen = false

/-- The word is not a postfix operator. -/
structure SPost (w : Word) : Prop extends SCall w where
  upd : w.nl = false → isUpdate w.c = false

/-- The word is not `**`. -/
structure SPow (w : Word) : Prop extends SPost w where
  pow : isP w.c .pow = false

/-- The word is not a binary operator of precedence `p` or higher. -/
structure SBin (inn : Bool) (p : Nat) (w : Word) : Prop extends SPow w where
  prec : prec inn w.c < p

/-- The word does not go on with a conditional expression. -/
structure SCond (inn : Bool) (w : Word) : Prop extends SBin inn 1 w where
  quest : isP w.c .question = false

/-- The word does not go on with an assignment. -/
structure SAssign (inn : Bool) (w : Word) : Prop extends SCond inn w where
  assign : isP w.c .assign = false
  opAssign : isOpAssign w.c = false

/-- The word does not go on with an expression. -/
structure SExpr (inn : Bool) (w : Word) : Prop extends SAssign inn w where
  comma : isP w.c .comma = false

theorem SCond.stop {inn : Bool} {w : Word} (h : SCond inn w) : Stop inn w :=
  ⟨h.fit, h.lbr, h.dot, h.head, h.paren, h.upd, h.pow, by have := h.prec; omega, h.quest⟩

/-- Punctuators that end an expression. -/
def closers : List Punctuator := [.rParen, .rBracket, .rBrace, .colon, .semicolon, .lBrace]

theorem SAssign.punct {inn : Bool} {p : Punctuator} (n : Bool) (h : p ∈ Punctuator.comma :: closers) :
    SAssign inn (P p n) := by
  simp only [closers, List.mem_cons, List.not_mem_nil, or_false] at h
  rcases h with rfl | rfl | rfl | rfl | rfl | rfl | rfl <;>
    exact ⟨⟨⟨⟨⟨⟨⟨rfl, rfl, rfl, rfl, rfl⟩, rfl⟩, fun _ => rfl⟩, rfl⟩, Nat.zero_lt_one⟩, rfl⟩, rfl, rfl⟩

theorem SExpr.punct {inn : Bool} {p : Punctuator} (n : Bool) (h : p ∈ closers) : SExpr inn (P p n) :=
  ⟨SAssign.punct n (List.mem_cons_of_mem _ h), by
    simp only [closers, List.mem_cons, List.not_mem_nil, or_false] at h
    rcases h with rfl | rfl | rfl | rfl | rfl | rfl <;> rfl⟩

theorem SExpr.template {inn tl : Bool} {raw : Str} {cooked : Str} (n : Bool) :
    SExpr inn ⟨.template raw cooked false tl, n⟩ :=
  ⟨⟨⟨⟨⟨⟨⟨⟨rfl, rfl, rfl, rfl, rfl⟩, rfl⟩, fun _ => rfl⟩, rfl⟩, Nat.zero_lt_one⟩, rfl⟩, rfl, rfl⟩, rfl⟩

/-- A name that is no operator ends an expression. -/
theorem SExpr.name {inn : Bool} {v : Str} (n : Bool) (h : Complete.prec inn (.name v) = 0) :
    SExpr inn (W v n) :=
  ⟨⟨⟨⟨⟨⟨⟨⟨rfl, rfl, rfl, rfl, rfl⟩, rfl⟩, fun _ => rfl⟩, rfl⟩, by
    show Complete.prec inn (.name v) < 1; omega⟩, rfl⟩, rfl, rfl⟩, rfl⟩

theorem SExpr.omit {inn : Bool} {w : Word} (h : MayOmit w) (hc : continues w.c = false) : SExpr inn w := by
  obtain ⟨c, n⟩ := w
  replace h := h.2
  simp only at h
  cases c with
  | punct p =>
    simp only [continues, decide_eq_false_iff_not, Decidable.not_not, List.mem_cons, List.not_mem_nil, or_false] at hc
    rcases hc with rfl | rfl | rfl | rfl | rfl | rfl | rfl | rfl | rfl
    case inr.inr.inr.inr.inr.inr.inr.inl | inr.inr.inr.inr.inr.inr.inr.inr =>
      have hn : n = true := by simpa using h
      subst hn
      exact ⟨⟨⟨⟨⟨⟨⟨⟨rfl, rfl, rfl, rfl, rfl⟩, rfl⟩, by simp⟩, rfl⟩, Nat.zero_lt_one⟩, rfl⟩, rfl, rfl⟩, rfl⟩
    all_goals
      exact ⟨⟨⟨⟨⟨⟨⟨⟨rfl, rfl, rfl, rfl, rfl⟩, rfl⟩, fun _ => rfl⟩, rfl⟩, Nat.zero_lt_one⟩, rfl⟩, rfl, rfl⟩, rfl⟩
  | name v =>
    refine SExpr.name n ?_
    simp [continues] at hc
    simp [Complete.prec, hc]
  | template _ _ _ _ => simp [continues] at hc
  | regexp _ _ => simp [continues] at hc
  | _ => exact ⟨⟨⟨⟨⟨⟨⟨⟨rfl, rfl, rfl, rfl, rfl⟩, rfl⟩, fun _ => rfl⟩, rfl⟩, Nat.zero_lt_one⟩, rfl⟩, rfl, rfl⟩, rfl⟩

/-- a word that is omitted before: fits any goal -/
theorem continues_fits {c : Content} (g : LexGoal) (h : continues c = false) : c.fits g = true := by
  cases c with
  | punct p => cases p <;> first | (cases g <;> rfl) | simp [continues] at h
  | regexp _ _ => simp [continues] at h
  | _ => cases g <;> rfl

/-! ### Fitting words after some punctuators -/

theorem fits_rBrace {c : Content} (h : clash (.punct .rBrace) c = false) : c.fits .regExp = true := by
  cases c with
  | punct p => cases p <;> first | rfl | simp [clash] at h
  | _ => rfl

theorem fits_inc {c : Content} (h : clash (.punct .inc) c = false) : c.fits .regExp = true := by
  cases c with
  | punct p => cases p <;> first | rfl | simp [clash] at h
  | _ => rfl

theorem fits_dec {c : Content} (h : clash (.punct .dec) c = false) : c.fits .regExp = true := by
  cases c with
  | punct p => cases p <;> first | rfl | simp [clash] at h
  | _ => rfl

theorem fits_template {c : Content} {raw : Str} {cooked : Str} {h tl : Bool}
    (h : clash (.template raw cooked h tl) c = false) : c.fits .div = true := by
  cases c with
  | regexp _ _ => simp [clash] at h
  | punct p => cases p <;> rfl
  | _ => rfl

variable {c : Ctx} {ps : List Params} {k : Nat} {w w' : Word} {ws : List Word} {s : Parser}

theorem St.clash2 (h : St c ps k (w :: w' :: ws) s) : Spec.clash w.c w'.c = false := h.clash.1

/-! ### Beginnings -/

/-- The word may begin an expression. -/
def startsExpr : Content → Bool
  | .punct p => decide (p ∈ [Punctuator.lParen, .lBracket, .lBrace, .inc, .dec, .plus, .minus, .tilde, .bang])
  | .name v => decide (v ∉ keywords) || decide (v ∈ [cs!"this", cs!"function", cs!"class", cs!"super", cs!"new", cs!"delete",
      cs!"void", cs!"typeof", cs!"await", cs!"yield"])
  | .number _ | .string _ _ | .regexp _ _ => true
  | .template _ _ h _ => h
  | .eof => false

theorem startsExpr_fits {c : Content} (h : startsExpr c = true) : c.fits .regExp = true := by
  cases c with
  | punct p => cases p <;> first | rfl | simp [startsExpr] at h
  | _ => rfl

theorem startsExpr_isP {c : Content} (h : startsExpr c = true) {p : Punctuator}
    (hp : p ∉ [Punctuator.lParen, .lBracket, .lBrace, .inc, .dec, .plus, .minus, .tilde, .bang] := by decide) :
    isP c p = false := by
  cases c with
  | punct q =>
    simp only [startsExpr, decide_eq_true_eq] at h
    simp only [isP, decide_eq_false_iff_not]
    rintro rfl; exact hp h
  | _ => rfl

theorem startsExpr_isKw {c : Content} (h : startsExpr c = true) {v : Str}
    (hv : v ∉ [cs!"this", cs!"function", cs!"class", cs!"super", cs!"new", cs!"delete",
      cs!"void", cs!"typeof", cs!"await", cs!"yield"] := by decide) : isKw c v = false := by
  cases c with
  | name u =>
    simp only [startsExpr, Bool.or_eq_true, decide_eq_true_eq] at h
    simp only [isKw, Bool.and_eq_false_iff, decide_eq_false_iff_not]
    rcases h with h | h
    · exact .inl h
    · right; rintro rfl; exact hv h
  | _ => rfl

theorem startsExpr_eof {c : Content} (h : startsExpr c = true) : isEof c = false := by
  cases c <;> first | rfl | simp [startsExpr] at h

/-- the words begin with one that has the property -/
def Begins (Q : Content → Prop) (ws : List Word) : Prop := ∃ w ws', ws = w :: ws' ∧ Q w.c

theorem Begins.mono {Q R : Content → Prop} (h : Begins Q ws) (hq : ∀ c, Q c → R c) : Begins R ws := by
  obtain ⟨w, ws', e, h⟩ := h; exact ⟨w, ws', e, hq _ h⟩

theorem Begins.append {Q : Content → Prop} {ws' : List Word} (h : Begins Q ws) : Begins Q (ws ++ ws') := by
  obtain ⟨w, l, rfl, h⟩ := h; exact ⟨w, l ++ ws', rfl, h⟩

theorem Begins.cons {Q : Content → Prop} (h : Q w.c) : Begins Q (w :: ws) := ⟨w, ws, rfl, h⟩

theorem Begins.fits {g : LexGoal} (h : Begins (fun c => c.fits g = true) ws) : FitsAt g ws := by
  obtain ⟨w, l, rfl, h⟩ := h; exact h

theorem Begins.first {Q : Content → Prop} {nx : Word} (h : Begins Q ws) : Q (Grammar.first ws nx).c := by
  obtain ⟨w, l, rfl, h⟩ := h; exact h

/-- no `yield` where it is an operator -/
abbrev noYield (c : Ctx) (x : Content) : Prop := c.yld = true → says x cs!"yield" = false

/-- how operands of unary operators begin -/
structure UStart (c : Ctx) (x : Content) : Prop where
  start : startsExpr x = true
  yld : noYield c x

/-- how update expressions begin -/
structure XStart (c : Ctx) (x : Content) : Prop extends UStart c x where
  unary : isUnary x c.awt = false

/-- how left-hand-side expressions begin -/
structure LStart (c : Ctx) (x : Content) : Prop extends XStart c x where
  update : isUpdate x = false

/-- how primary expressions begin -/
structure PStart (c : Ctx) (x : Content) : Prop extends LStart c x where
  super : isKw x cs!"super" = false
  new : isKw x cs!"new" = false

section
variable {t : Node} {f : Bool} {v : Str}

theorem _root_.Giron.Grammar.Ref.cases (h : Ref c v) : (v ∉ keywords ∧ wordy v = true) ∨ (v = cs!"yield" ∧ c.yld = false) ∨ (v = cs!"await" ∧ c.awt = false) := by
  rcases h.2 with h | h | h
  · left; exact ⟨h.1, by simp [wordy, h.2]⟩
  · exact .inr (.inl h)
  · exact .inr (.inr h)

theorem ref_start (h : Ref c v) : PStart c (.name v) := by
  rcases h.cases with ⟨hk, hw⟩ | ⟨rfl, hy⟩ | ⟨rfl, ha⟩
  · refine ⟨⟨⟨⟨?_, ?_⟩, ?_⟩, rfl⟩, ?_, ?_⟩
    · simp [startsExpr, hk]
    · intro _; simp only [says, Bool.and_eq_false_iff, decide_eq_false_iff_not]; right; rintro rfl; simp at hk
    · have h1 : v ≠ cs!"delete" := by rintro rfl; simp at hk
      have h2 : v ≠ cs!"void" := by rintro rfl; simp at hk
      have h3 : v ≠ cs!"typeof" := by rintro rfl; simp at hk
      have h4 : v ≠ cs!"await" := by rintro rfl; simp at hk
      simp [isUnary, h1, h2, h3, h4]
    · simp [isKw, hk]
    · simp [isKw, hk]
  · refine ⟨⟨⟨⟨rfl, ?_⟩, by simp [isUnary]⟩, rfl⟩, rfl, rfl⟩
    intro h; simp [hy] at h
  · refine ⟨⟨⟨⟨rfl, fun _ => rfl⟩, by simp [isUnary, ha]⟩, rfl⟩, rfl, rfl⟩

theorem PStart.punct {p : Punctuator} (h : p = .lParen ∨ p = .lBracket ∨ p = .lBrace) : PStart c (.punct p) := by
  rcases h with rfl | rfl | rfl <;> exact ⟨⟨⟨⟨rfl, fun _ => rfl⟩, rfl⟩, rfl⟩, rfl, rfl⟩

theorem template_begins {qs : List TemplateElement} {es : List Node} (h : Template c ws qs es) :
    Begins (fun x => PStart c x ∧ isHead x = true) ws := by
  cases h with
  | whole hy =>
    refine .cons ⟨⟨⟨⟨⟨rfl, ?_⟩, rfl⟩, rfl⟩, rfl, rfl⟩, rfl⟩
    intro h; simp [says, hy h]
  | parts hy _ _ =>
    refine .cons ⟨⟨⟨⟨⟨rfl, ?_⟩, rfl⟩, rfl⟩, rfl, rfl⟩, rfl⟩
    intro h; simp [says, hy h]

theorem primary_begins (h : Primary c ws t) : Begins (PStart c) ws := by
  cases h with
  | this => exact .cons ⟨⟨⟨⟨rfl, fun _ => rfl⟩, by simp [isUnary]⟩, rfl⟩, rfl, rfl⟩
  | name h _ => exact .cons (ref_start h)
  | null => exact .cons ⟨⟨⟨⟨rfl, fun _ => rfl⟩, by simp [isUnary]⟩, rfl⟩, rfl, rfl⟩
  | bool h =>
    rcases h with rfl | rfl <;>
    exact .cons ⟨⟨⟨⟨rfl, fun _ => rfl⟩, by simp [isUnary]⟩, rfl⟩, rfl, rfl⟩
  | number => exact .cons ⟨⟨⟨⟨rfl, fun _ => rfl⟩, rfl⟩, rfl⟩, rfl, rfl⟩
  | string hy =>
    refine .cons ⟨⟨⟨⟨rfl, ?_⟩, rfl⟩, rfl⟩, rfl, rfl⟩
    intro h; simp [says, hy h]
  | regexp => exact .cons ⟨⟨⟨⟨rfl, fun _ => rfl⟩, rfl⟩, rfl⟩, rfl, rfl⟩
  | template h => exact (template_begins h).mono fun _ h => h.1
  | array _ => exact .cons (.punct (.inr (.inl rfl)))
  | object _ => exact .cons (.punct (.inr (.inr rfl)))
  | paren _ => exact .cons (.punct (.inl rfl))
  | function _ _ => exact .cons ⟨⟨⟨⟨rfl, fun _ => rfl⟩, by simp [isUnary]⟩, rfl⟩, rfl, rfl⟩
  | functionNamed _ _ _ =>
    exact .cons ⟨⟨⟨⟨rfl, fun _ => rfl⟩, by simp [isUnary]⟩, rfl⟩, rfl, rfl⟩
  | asyncFunction _ _ => exact .cons ⟨⟨⟨⟨rfl, fun _ => rfl⟩, by simp [isUnary]⟩, rfl⟩, rfl, rfl⟩
  | asyncFunctionNamed _ _ _ => exact .cons ⟨⟨⟨⟨rfl, fun _ => rfl⟩, by simp [isUnary]⟩, rfl⟩, rfl, rfl⟩
  | «class» _ => exact .cons ⟨⟨⟨⟨rfl, fun _ => rfl⟩, by simp [isUnary]⟩, rfl⟩, rfl, rfl⟩

theorem head_begins (h : Head c ws t) : Begins (LStart c) ws := by
  cases h with
  | primary h => exact (primary_begins h).mono fun _ h => h.toLStart
  | superDot _ => exact .cons ⟨⟨⟨rfl, fun _ => rfl⟩, by simp [isUnary]⟩, rfl⟩
  | superIndex _ => exact .cons ⟨⟨⟨rfl, fun _ => rfl⟩, by simp [isUnary]⟩, rfl⟩

theorem lhs_begins (h : LHS f c ws t) : Begins (LStart c) ws := by
  cases h with
  | mk h _ => exact (head_begins h).append
  | superCall _ _ => exact .cons ⟨⟨⟨rfl, fun _ => rfl⟩, by simp [isUnary]⟩, rfl⟩
  | new _ _ _ _ => exact .cons ⟨⟨⟨rfl, fun _ => rfl⟩, by simp [isUnary]⟩, rfl⟩
  | newBare _ _ => exact .cons ⟨⟨⟨rfl, fun _ => rfl⟩, by simp [isUnary]⟩, rfl⟩
  | newTarget => exact .cons ⟨⟨⟨rfl, fun _ => rfl⟩, by simp [isUnary]⟩, rfl⟩

theorem update_begins (h : Update f c ws t) : Begins (XStart c) ws := by
  cases h with
  | lhs h => exact (lhs_begins h).mono fun _ h => h.toXStart
  | «postfix» h _ _ => exact (lhs_begins h).append.mono fun _ h => h.toXStart
  | «prefix» h _ _ => rcases h with rfl | rfl <;> exact .cons ⟨⟨rfl, fun _ => rfl⟩, rfl⟩

theorem unary_begins (h : Unary f c ws t) : Begins (UStart c) ws := by
  cases h with
  | update h => exact (update_begins h).mono fun _ h => h.toUStart
  | op ho _ =>
    cases ho with
    | punct h =>
      simp only [List.mem_cons, List.not_mem_nil, or_false] at h
      rcases h with rfl | rfl | rfl | rfl <;> exact .cons ⟨rfl, fun _ => rfl⟩
    | name h =>
      simp only [List.mem_cons, List.not_mem_nil, or_false] at h
      rcases h with rfl | rfl | rfl <;> exact .cons ⟨rfl, fun _ => rfl⟩
    | await _ => exact .cons ⟨rfl, fun _ => rfl⟩

theorem exp_begins (h : Exp f c ws t) : Begins (UStart c) ws := by
  cases h with
  | unary h => exact unary_begins h
  | pow h _ => exact (update_begins h).append.mono fun _ h => h.toUStart

theorem bin_begins {nst : Bool} {p : Nat} (h : Bin (nst, p) f c ws t) : Begins (UStart c) ws := by
  have : ∀ d p ws t, p + d = 12 → Bin (nst, p) f c ws t → Begins (UStart c) ws := by
    intro d
    induction d with
    | zero =>
      intro p ws t hp h
      cases h with
      | operand h => exact exp_begins h
      | chain h _ _ => omega
    | succ d ih =>
      intro p ws t hp h
      cases h with
      | operand h => omega
      | chain h h' _ => exact (ih _ _ _ (by omega) h').append
  by_cases hp : p ≤ 12
  · exact this (12 - p) p ws t (by omega) h
  · cases h with
    | operand h => omega
    | chain h _ _ => omega

theorem cond_begins (h : Cond c ws t) : Begins (UStart c) ws := by
  cases h with
  | bin h => exact bin_begins h
  | cond h _ _ => exact (bin_begins h).append

theorem assign_begins (h : Assign c ws t) : Begins (fun x => startsExpr x = true) ws := by
  cases h with
  | cond h => exact (cond_begins h).mono fun _ h => h.start
  | assign h _ _ => exact (lhs_begins h).append.mono fun _ h => h.start
  | opAssign h _ _ => exact (lhs_begins h).append.mono fun _ h => h.start
  | pattern h _ _ => exact (primary_begins h).append.mono fun _ h => h.start
  | arrow h _ _ => exact .cons (ref_start h).start
  | arrowParen _ _ => exact .cons rfl
  | asyncArrow _ _ => exact .cons rfl
  | «yield» _ _ _ => exact .cons (rfl)
  | yieldAll _ _ => exact .cons (rfl)

theorem expr_begins (h : Expr c ws t) : Begins (fun x => startsExpr x = true) ws := by
  cases h with
  | assign h => exact assign_begins h
  | comma h _ => exact (assign_begins h).append

end

end Giron.Complete

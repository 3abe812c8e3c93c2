import Verif.Proofs.Complete.Feed
import Verif.Spec.Syntax
import Verif.Proofs.Sat
import Verif.Model.Parser.Module
/-
Grammar completeness, the ground: states of the parser that stand before given words, and the steps it can take there.
-/
namespace Giron.Complete
open Giron M Spec Grammar Parser
variable [Env]

/-- The parameters of the parser are those of the context. -/
structure Fit (c : Ctx) (p : Params) : Prop where
  inn : p.hasIn = c.inn
  yld : p.hasYield = c.yld
  awt : p.hasAwait = c.awt
  ret : p.hasReturn = c.ret
  dflt : p.hasDefault = c.dflt

/-- The token says what the word says. -/
def Tok (w : Word) (t : Token) : Prop := ∃ l k i j, t = w.c.token l k i j

/-- The parser stands before the words, in the context `c`, with at least `k` start positions on its stack. -/
structure St (c : Ctx) (ps : List Params) (k : Nat) (ws : List Word) (s : Parser) : Prop where
  strict : s.ctx.strict = c.strict
  loop : s.ctx.inIteration = c.loop
  switch : s.ctx.inSwitch = c.switch
  params : Fit c s.params
  stack : s.paramsStack = ps
  markers : k ≤ s.markerStack.length
  here : ∃ w rest l k i j, ws = w :: rest ∧ s.current = w.c.token l k i j ∧ s.hasLineTerminator = w.nl ∧
    Feeds rest l s.scanner
  clash : NoClash ws

/-- `m` returns with `Q` (or exhausts the budget). -/
abbrev Ok {α : Type} (m : PM α) (s : Parser) (Q : α → Parser → Prop) : Prop := Sat (· = .fuel) m s Q

variable {α β : Type} {c : Ctx} {ps : List Params} {k : Nat} {w : Word} {ws : List Word} {s : Parser}

theorem St.mono {k' : Nat} (h : St c ps k ws s) (hk : k' ≤ k) : St c ps k' ws s :=
  { h with markers := Nat.le_trans hk h.markers }

theorem St.tok (h : St c ps k (w :: ws) s) : Tok w s.current := by
  obtain ⟨w', rest, l, k, i, j, he, h1, -⟩ := h.here
  cases he; exact ⟨l, k, i, j, h1⟩

theorem St.nl (h : St c ps k (w :: ws) s) : s.hasLineTerminator = w.nl := by
  obtain ⟨w', rest, l, k, i, j, he, h1, h2, -⟩ := h.here
  cases he; exact h2

/-- The first word can be scanned with the goal. -/
def FitsAt (g : LexGoal) : List Word → Prop
  | [] => False
  | w :: _ => w.c.fits g = true

/-- The word after `x` does not clash with it, and fits the goal that is used after it. -/
theorem cur_ok {f : Token → PM α} {Q : α → Parser → Prop} (h : St c ps k (w :: ws) s)
    (hf : ∀ t, Tok w t → Ok (f t) s Q) : Ok (cur >>= f) s Q := hf _ h.tok

theorem advance_ok {g : LexGoal} (h : St c ps k (w :: ws) s) (hg : FitsAt g ws) :
    Ok (advance g) s (fun t s' => Tok w t ∧ St c ps k ws s') := by
  obtain ⟨w', rest, l, k', i, j, he, h1, h2, h3⟩ := h.here
  cases he
  cases ws with
  | nil => cases hg
  | cons w' ws =>
    obtain ⟨l', k1, i', j', sc', e, hnl, hfe⟩ := h3.next hg
    have e : advance g s = .ok (s.current, { s with scanner := sc', current := w'.c.token l' k1 i' j', hasLineTerminator := decide ((w'.c.token l' k1 i' j').lineNum > s.current.lineNum) }) := by
      unfold advance; rw [e]
    unfold Ok Sat
    rw [e]
    refine ⟨⟨l, k', i, j, h1⟩, h.strict, h.loop, h.switch, h.params, h.stack, h.markers,
      ⟨w', ws, l', k1, i', j', rfl, rfl, ?_, hfe⟩, h.clash.2⟩
    have hl : ∀ (c : Content) l k i j, (c.token l k i j).lineNum = l := by intros c; cases c <;> intros <;> rfl
    rw [hnl, h1, hl, hl]

/-- Looking at the next token: it must be on the same line and no brace. -/
theorem peekToken_ok {w' : Word} (h : St c ps k (w :: w' :: ws) s) (hg : w'.c.fits .regExp = true) (hn : w'.nl = false)
    (hb : ∀ b, w'.c.braces b = b) : Ok peekToken s (fun t s' => Tok w' t ∧ St c ps k (w :: w' :: ws) s') := by
  obtain ⟨w1, rest, l, k', i, j, he, h1, h2, h3⟩ := h.here
  cases he
  obtain ⟨l', k1, i', j', sc', e, hfe⟩ := h3.peek hg hn hb
  unfold Ok Sat
  have e' : peekToken s = .ok (w'.c.token l' k1 i' j', { s with scanner := sc' }) := e s rfl
  rw [e']
  refine ⟨⟨l', k1, i', j', rfl⟩, ⟨h.strict, h.loop, h.switch, h.params, h.stack, h.markers,
    ⟨w, _, l, k', i, j, rfl, h1, h2, hfe⟩, h.clash⟩⟩

theorem startSpan_ok (h : St c ps k ws s) : Ok startSpan s (fun _ s' => St c ps (k + 1) ws s') :=
  { h with markers := Nat.succ_le_succ h.markers }

theorem endSpan_ok (h : St c ps (k + 1) ws s) : Ok endSpan s (fun _ s' => St c ps k ws s') := by
  have := h.markers
  unfold Ok Sat endSpan
  cases hm : s.markerStack with
  | nil => simp [hm] at this
  | cons m ms =>
    refine { h with markers := ?_ }
    simp [hm] at this; exact this

theorem peekSpan_ok (h : St c ps (k + 1) ws s) : Ok peekSpan s (fun _ s' => St c ps (k + 1) ws s') := by
  have := h.markers
  unfold Ok Sat peekSpan
  cases hm : s.markerStack with
  | nil => simp [hm] at this
  | cons m ms => exact h

/-- The two contexts agree but for the parameters. -/
def SameCtx (c c' : Ctx) : Prop := c'.strict = c.strict ∧ c'.loop = c.loop ∧ c'.switch = c.switch

theorem withParams_ok {f : Params → Params} {m : PM α} {c' : Ctx} {k' : Nat} {ws' : List Word} {Q : α → Prop}
    (hc : SameCtx c c') (hf : ∀ p, Fit c p → Fit c' (f p))
    (hm : ∀ ps s, St c' ps k ws s → Ok m s (fun a s' => Q a ∧ St c' ps k' ws' s'))
    (h : St c ps k ws s) : Ok (withParams f m) s (fun a s' => Q a ∧ St c ps k' ws' s') := by
  unfold withParams
  refine Sat.bind (P := fun _ s1 => s1 = { s with paramsStack := s.params :: s.paramsStack }) rfl ?_
  rintro _ _ rfl
  refine Sat.bind (P := fun _ s1 => s1 = { s with paramsStack := s.params :: s.paramsStack, params := f s.params }) rfl ?_
  rintro _ _ rfl
  refine Sat.bind (hm (s.params :: s.paramsStack) _ ?_) ?_
  · exact ⟨h.strict.trans hc.1.symm, h.loop.trans hc.2.1.symm, h.switch.trans hc.2.2.symm, hf _ h.params, rfl, h.markers,
      h.here, h.clash⟩
  · rintro a s' ⟨hq, hs⟩
    refine Sat.bind (P := fun _ s1 => s1 = { s' with params := s.params, paramsStack := s.paramsStack }) ?_ ?_
    · unfold Sat restoreParams
      rw [hs.stack]
    · rintro _ _ rfl
      exact ⟨hq, hs.strict.trans hc.1, hs.loop.trans hc.2.1, hs.switch.trans hc.2.2, h.params, h.stack, hs.markers,
        hs.here, hs.clash⟩

section
variable {m : PM α} {b : Bool} {k' : Nat} {ws' : List Word} {Q : α → Prop}

theorem withIn_ok (hm : ∀ ps s, St { c with inn := b } ps k ws s → Ok m s (fun a s' => Q a ∧ St { c with inn := b } ps k' ws' s'))
    (h : St c ps k ws s) : Ok (withIn b m) s (fun a s' => Q a ∧ St c ps k' ws' s') :=
  withParams_ok (c' := { c with inn := b }) ⟨rfl, rfl, rfl⟩ (fun _ h => { h with inn := rfl }) hm h

theorem withDefault_ok (hm : ∀ ps s, St { c with dflt := b } ps k ws s → Ok m s (fun a s' => Q a ∧ St { c with dflt := b } ps k' ws' s'))
    (h : St c ps k ws s) : Ok (withDefault b m) s (fun a s' => Q a ∧ St c ps k' ws' s') :=
  withParams_ok (c' := { c with dflt := b }) ⟨rfl, rfl, rfl⟩ (fun _ h => { h with dflt := rfl }) hm h

theorem withReturn_ok (hm : ∀ ps s, St { c with ret := b } ps k ws s → Ok m s (fun a s' => Q a ∧ St { c with ret := b } ps k' ws' s'))
    (h : St c ps k ws s) : Ok (withReturn b m) s (fun a s' => Q a ∧ St c ps k' ws' s') :=
  withParams_ok (c' := { c with ret := b }) ⟨rfl, rfl, rfl⟩ (fun _ h => { h with ret := rfl }) hm h

theorem withYield_ok (hm : ∀ ps s, St { c with yld := b } ps k ws s → Ok m s (fun a s' => Q a ∧ St { c with yld := b } ps k' ws' s'))
    (h : St c ps k ws s) : Ok (withYield b m) s (fun a s' => Q a ∧ St c ps k' ws' s') :=
  withParams_ok (c' := { c with yld := b }) ⟨rfl, rfl, rfl⟩ (fun _ h => { h with yld := rfl }) hm h

theorem withYieldAwait_ok {y a : Bool} (hm : ∀ ps s, St { c with yld := y, awt := a } ps k ws s →
      Ok m s (fun x s' => Q x ∧ St { c with yld := y, awt := a } ps k' ws' s'))
    (h : St c ps k ws s) : Ok (withYieldAwait y a m) s (fun x s' => Q x ∧ St c ps k' ws' s') :=
  withParams_ok (c' := { c with yld := y, awt := a }) ⟨rfl, rfl, rfl⟩ (fun _ h => { h with yld := rfl, awt := rfl }) hm h

end

/-! ### What tests on tokens say about words -/

/-- the word is the punctuator -/
def isP (c : Content) (p : Punctuator) : Bool :=
  match c with
  | .punct q => decide (q = p)
  | _ => false

/-- the word is the keyword -/
def isKw (c : Content) (v : Str) : Bool :=
  match c with
  | .name u => decide (u ∈ keywords) && decide (u = v)
  | _ => false

/-- the name is an identifier or a keyword -/
def wordy (u : Str) : Bool := decide (u ≠ cs!"null") && decide (u ≠ cs!"true") && decide (u ≠ cs!"false")

/-- the name is an identifier -/
def plain (u : Str) : Bool := decide (u ∉ keywords) && wordy u

/-- the word is the identifier -/
def isId (c : Content) (v : Str) : Bool :=
  match c with
  | .name u => plain u && decide (u = v)
  | _ => false

/-- the word is an identifier or a keyword -/
def isIdOrKw (c : Content) : Bool :=
  match c with
  | .name u => wordy u
  | _ => false

/-- the word is an identifier -/
def isIdent (c : Content) : Bool :=
  match c with
  | .name u => plain u
  | _ => false

/-- the word is a keyword -/
def isKeyword (c : Content) : Bool :=
  match c with
  | .name u => decide (u ∈ keywords)
  | _ => false

omit [Env] in
theorem wordy_keyword {u : Str} (h : u ∈ keywords) : wordy u = true := by
  have : ∀ u ∈ keywords, wordy u = true := by decide
  exact this u h

theorem nameToken_cases (u : Str) :
    (u = cs!"null" ∧ wordy u = false ∧ u ∉ keywords ∧ nameToken u = (.nullLiteral, .null)) ∨
    ((u = cs!"true" ∨ u = cs!"false") ∧ wordy u = false ∧ u ∉ keywords ∧ nameToken u = (.booleanLiteral, .str u)) ∨
    (u ∈ keywords ∧ wordy u = true ∧ nameToken u = (.keyword, .str u)) ∨
    (u ∉ keywords ∧ wordy u = true ∧ nameToken u = (.identifier, .str u)) := by
  unfold nameToken
  by_cases h1 : u = cs!"null"
  · subst h1; exact .inl ⟨rfl, by decide, by decide, rfl⟩
  · by_cases h2 : u = cs!"true" ∨ u = cs!"false"
    · refine .inr (.inl ⟨h2, ?_, ?_, ?_⟩)
      · rcases h2 with rfl | rfl <;> decide
      · rcases h2 with rfl | rfl <;> decide
      · rw [if_neg h1, if_pos h2]
    · by_cases h3 : u ∈ keywords
      · refine .inr (.inr (.inl ⟨h3, wordy_keyword h3, ?_⟩))
        rw [if_neg h1, if_neg h2, if_pos h3]
      · refine .inr (.inr (.inr ⟨h3, ?_, ?_⟩))
        · simp [wordy, h1]; exact not_or.1 h2
        · rw [if_neg h1, if_neg h2, if_neg h3]

namespace Tok
variable {t : Token}

theorem isP (h : Tok w t) (p : Punctuator) : t.isP p = Complete.isP w.c p := by
  obtain ⟨l, k, i, j, rfl⟩ := h
  cases w.c with
  | name u => rcases nameToken_cases u with ⟨-, -, -, e⟩ | ⟨-, -, -, e⟩ | ⟨-, -, e⟩ | ⟨-, -, e⟩ <;>
      simp [Content.token, Token.isP, Complete.isP, e]
  | _ => simp [Content.token, Token.isP, Complete.isP, Token.matchesPunc]

theorem matchesPunc (h : Tok w t) (p : Punctuator) : t.matchesPunc p = Complete.isP w.c p := by
  obtain ⟨l, k, i, j, rfl⟩ := h
  cases w.c with
  | name u => rcases nameToken_cases u with ⟨-, -, -, e⟩ | ⟨-, -, -, e⟩ | ⟨-, -, e⟩ | ⟨-, -, e⟩ <;>
      simp [Content.token, Token.matchesPunc, Complete.isP, e]
  | _ => simp [Content.token, Complete.isP, Token.matchesPunc]

theorem isKw (h : Tok w t) (v : Str) : t.isKw v = Complete.isKw w.c v := by
  obtain ⟨l, k, i, j, rfl⟩ := h
  cases w.c with
  | name u => rcases nameToken_cases u with ⟨-, -, hk, e⟩ | ⟨-, -, hk, e⟩ | ⟨hk, -, e⟩ | ⟨hk, -, e⟩ <;>
      simp [Content.token, Token.isKw, Complete.isKw, Token.matchesStr, e, hk]
  | _ => simp [Content.token, Complete.isKw, Token.isKw]

theorem isId (h : Tok w t) (v : Str) : t.isId v = Complete.isId w.c v := by
  obtain ⟨l, k, i, j, rfl⟩ := h
  cases w.c with
  | name u => rcases nameToken_cases u with ⟨-, hw, hk, e⟩ | ⟨-, hw, hk, e⟩ | ⟨hk, hw, e⟩ | ⟨hk, hw, e⟩ <;>
      simp [Content.token, Token.isId, Complete.isId, plain, Token.matchesStr, e, hk, hw]
  | _ => simp [Content.token, Complete.isId, Token.isId]

theorem isIdOrKw (h : Tok w t) : t.isIdOrKw = Complete.isIdOrKw w.c := by
  obtain ⟨l, k, i, j, rfl⟩ := h
  cases w.c with
  | name u => rcases nameToken_cases u with ⟨-, hw, hk, e⟩ | ⟨-, hw, hk, e⟩ | ⟨hk, hw, e⟩ | ⟨hk, hw, e⟩ <;>
      simp [Content.token, Token.isIdOrKw, Complete.isIdOrKw, e, hw]
  | _ => simp [Content.token, Complete.isIdOrKw, Token.isIdOrKw]

theorem ident (h : Tok w t) : (t.tokentype = .identifier) = (isIdent w.c = true) := by
  obtain ⟨l, k, i, j, rfl⟩ := h
  cases w.c with
  | name u => rcases nameToken_cases u with ⟨-, hw, hk, e⟩ | ⟨-, hw, hk, e⟩ | ⟨hk, hw, e⟩ | ⟨hk, hw, e⟩ <;>
      simp [Content.token, isIdent, plain, e, hw, hk]
  | _ => simp [Content.token, isIdent]

theorem keyword (h : Tok w t) : (t.tokentype = .keyword) = (isKeyword w.c = true) := by
  obtain ⟨l, k, i, j, rfl⟩ := h
  cases w.c with
  | name u => rcases nameToken_cases u with ⟨-, hw, hk, e⟩ | ⟨-, hw, hk, e⟩ | ⟨hk, hw, e⟩ | ⟨hk, hw, e⟩ <;>
      simp [Content.token, isKeyword, e, hk]
  | _ => simp [Content.token, isKeyword]

end Tok

/-- The parser that is made for a source stands before its words. -/
theorem new_ok {source : Str} {ws : List Word} (h : SourceWords source ws) (hc : NoClash ws) (hf : FitsAt .regExp ws)
    (hne : source = [] → Env.checked = false) :
    ∃ p, Parser.new source = .ok p ∧ St ⟨false, false, false, false, false, false, false, false⟩ [] 0 ws p := by
  obtain ⟨c, nl, ws', hw, rfl⟩ := h
  obtain ⟨k, i, j, sc', h1, -, -, h3, h4, -, -, h5⟩ := words_next (sc := Scanner.new source) (g := .regExp) hw rfl rfl rfl
    ⟨rfl, rfl⟩ hf (fun h _ => hne h)
  refine ⟨{ scanner := sc', hasLineTerminator := false, current := c.token sc'.line k i j, ctx := ⟨false, false, false, false⟩,
            params := Params.new, paramsStack := [], markerStack := [] }, ?_, ?_⟩
  · unfold Parser.new; rw [h1]
  · exact ⟨rfl, rfl, rfl, ⟨rfl, rfl, rfl, rfl, rfl⟩, rfl, Nat.zero_le _, ⟨_, _, _, k, i, j, rfl, rfl, rfl, feeds_of h3 h4 h5⟩, hc⟩

end Giron.Complete

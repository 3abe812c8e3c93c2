import Verif.Proofs.Complete.Follow
/-
Grammar completeness: consuming punctuators and keywords, and lists.
-/
namespace Giron.Complete
open Giron M Spec Grammar Parser
variable [Env]
variable {α β ι : Type} {c : Ctx} {ps : List Params} {k : Nat} {w : Word} {ws : List Word} {s : Parser}

theorem get_ok {f : Parser → PM α} {Q : α → Parser → Prop} (h : Ok (f s) s Q) : Ok (M.get >>= f) s Q := h

theorem pure_ok {a : α} {Q : α → Parser → Prop} (h : Q a s) : Ok (pure a) s Q := h

theorem consume_ok {p : Punctuator} {g : LexGoal} (h : St c ps k (w :: ws) s) (hp : isP w.c p = true) (hg : FitsAt g ws) :
    Ok (consume p g) s (fun t s' => Tok w t ∧ St c ps k ws s') := by
  unfold consume
  refine cur_ok h fun t ht => ?_
  refine ok_then (by rw [ht.matchesPunc, hp]) ?_
  exact advance_ok h hg

theorem consumeKw_ok {v : Str} {g : LexGoal} (h : St c ps k (w :: ws) s) (hp : isKw w.c v = true) (hg : FitsAt g ws) :
    Ok (consumeKw v g) s (fun t s' => Tok w t ∧ St c ps k ws s') := by
  unfold consumeKw
  refine cur_ok h fun t ht => ?_
  refine ok_then (by rw [ht.isKw, hp]) ?_
  exact advance_ok h hg

theorem consumeId_ok {v : Str} {g : LexGoal} (h : St c ps k (w :: ws) s) (hp : isId w.c v = true) (hg : FitsAt g ws) :
    Ok (consumeId v g) s (fun t s' => Tok w t ∧ St c ps k ws s') := by
  unfold consumeId
  refine cur_ok h fun t ht => ?_
  refine ok_then (by rw [ht.isId, hp]) ?_
  exact advance_ok h hg

/-- A semicolon or nothing. -/
theorem consumeSemicolon_ok {semi : List Word} {nx : Word} {rest : List Word} (hs : Semi semi nx)
    (hg : nx.c.fits .regExp = true) (h : St c ps k (semi ++ nx :: rest) s) :
    Ok consumeSemicolon s (fun _ s' => St c ps k (nx :: rest) s') := by
  unfold consumeSemicolon
  refine get_ok ?_
  cases hs with
  | semi =>
    have ht := h.tok
    refine ok_then (by rw [ht.isP]; rfl) ?_
    refine Sat.bind (advance_ok h hg) ?_
    rintro _ _ ⟨-, h⟩
    exact h
  | auto ho =>
    have ht := h.tok
    have hp : isP nx.c .semicolon = false := by
      obtain ⟨⟨_⟩, n⟩ := nx <;> first | rfl | (simp [isP]; rintro rfl; exact ho.1 rfl)
    refine ok_else (by rw [ht.isP, hp]; simp) ?_
    refine Sat.ite (fun hl => ?_) (fun hl => pure_ok h)
    rcases ho.2 with hb | he | hn
    · exact ok_then (by rw [ht.isP, hb]; rfl) (pure_ok h)
    · refine ok_else (by rw [ht.isP, he]; decide) ?_
      exact ok_then (by rw [ht.eof, he]; rfl) (pure_ok h)
    · rw [h.nl, hn] at hl; simp at hl

theorem _root_.Giron.Grammar.ExprSemi.toSemi {semi : List Word} {nx : Word} (h : ExprSemi semi nx) : Semi semi nx := by
  cases h with
  | semi => exact .semi
  | auto h _ => exact .auto h

/-- The first word after an expression that is followed by a semicolon or nothing. -/
theorem _root_.Giron.Grammar.ExprSemi.follow {semi : List Word} {nx : Word} {inn : Bool} (h : ExprSemi semi nx) : SExpr inn (first semi nx) := by
  cases h with
  | semi => exact .punct _ (by decide)
  | auto h h' => exact .omit h h'

/-! ### Parsers and words -/

/-- In the context `c`, the parser reads the words `ws`, followed by a word that satisfies `F`, as `b`; the number of
start positions goes from `k + i` to `k + j`. -/
def Reads (m : PM α) (bare : α → β) (c : Ctx) (i j : Nat) (ws : List Word) (b : β) (F : Word → Prop) : Prop :=
  ∀ ps k nx rest s, F nx → St c ps (k + i) (ws ++ nx :: rest) s →
    Ok m s (fun a s' => bare a = b ∧ St c ps (k + j) (nx :: rest) s')

/-- What a list item leaves: it takes the comma that follows it. -/
def AfterComma (close : Punctuator) (l l' : List Word) : Prop :=
  (∃ n, l = P .comma n :: l' ∧ FitsAt .regExp l') ∨ (∃ n X, l = P close n :: X ∧ l' = l)

theorem commaUnless_ok {close : Punctuator} {l l' : List Word} (hc : close ≠ .comma) (hl : AfterComma close l l')
    (h : St c ps k l s) : Ok (commaUnless close) s (fun _ s' => St c ps k l' s') := by
  unfold commaUnless
  rcases hl with ⟨n, rfl, hf⟩ | ⟨n, X, rfl, rfl⟩
  · refine cur_ok h fun t ht => ?_
    refine ok_else (by rw [ht.matchesPunc]; simp [isP]; exact Ne.symm hc) ?_
    refine Sat.bind (consume_ok h rfl hf) ?_
    rintro _ _ ⟨-, h⟩
    exact h
  · refine cur_ok h fun t ht => ?_
    exact ok_then (by rw [ht.matchesPunc]; simp [isP]) (pure_ok h)

/-- The word after an item. -/
def IsSep (close : Punctuator) (w : Word) : Prop := ∃ n, w = P .comma n ∨ w = P close n

theorem AfterComma.split {close : Punctuator} {l l' : List Word} (h : AfterComma close l l') :
    ∃ nx rest, l = nx :: rest ∧ IsSep close nx := by
  rcases h with ⟨n, rfl, -⟩ | ⟨n, X, rfl, -⟩
  · exact ⟨_, _, rfl, n, .inl rfl⟩
  · exact ⟨_, _, rfl, n, .inr rfl⟩

/-- How an item of a list begins. -/
abbrev ItemStart (close : Punctuator) (x : Content) : Prop :=
  x.fits .regExp = true ∧ isP x close = false ∧ isP x .comma = false

/-- The same for items that are not the rest of a list. -/
abbrev ItemStart' (close : Punctuator) (x : Content) : Prop := ItemStart close x ∧ isP x .ellipsis = false

theorem ItemStart.of_expr {close : Punctuator} {x : Content} (h : startsExpr x = true)
    (hp : close ∉ [Punctuator.lParen, .lBracket, .lBrace, .inc, .dec, .plus, .minus, .tilde, .bang] := by decide) :
    ItemStart' close x :=
  ⟨⟨startsExpr_fits h, startsExpr_isP h hp, startsExpr_isP h⟩, startsExpr_isP h⟩

section
variable {close : Punctuator} {R S : ι → List Word → α → Prop} {i : ι} {f : PM β} {bare : β → α}

/-- `f` reads an item of the list, and the comma after it. -/
def ReadsItem (close : Punctuator) (f : PM β) (bare : β → α) (c : Ctx) (R : List Word → α → Prop) : Prop :=
  ∀ w a, R w a → ∀ ps k l l' s, AfterComma close l l' → St c ps k (w ++ l) s →
    Ok f s (fun b s' => bare b = a ∧ St c ps k l' s')


theorem commas_fits (hcl : (Content.punct close).fits .regExp = true) (hR : ∀ w a, R i w a → Begins (ItemStart close) w)
    {ws : List Word} {as : List α} {n : Bool} {rest : List Word} (h : Commas R i ws as) :
    FitsAt .regExp (ws ++ P close n :: rest) := by
  cases h with
  | nil => exact hcl
  | last hr => exact ((hR _ _ hr).append.mono fun _ h => h.1).fits
  | cons hr _ => exact ((hR _ _ hr).append.append.mono fun _ h => h.1).fits

theorem untilPuncF_commas (hcl : (Content.punct close).fits .regExp = true) (hR : ∀ w a, R i w a → Begins (ItemStart close) w)
    (hf : ReadsItem close f bare c (R i)) {rest : List Word} {n : Bool} (m : Nat) :
    ∀ {ws : List Word} {as : List α} {s : Parser}, Commas R i ws as → St c ps k (ws ++ P close n :: rest) s →
    Ok (untilPuncF close f m) s (fun bs s' => bs.map bare = as ∧ St c ps k (P close n :: rest) s') := by
  induction m with
  | zero => intro _ _ _ _ _; exact rfl
  | succ m ih =>
    intro ws as s hl h
    unfold untilPuncF
    cases hl with
    | nil =>
      refine cur_ok h fun t ht => ?_
      exact ok_then (by rw [ht.isP]; simp [isP]) (pure_ok ⟨rfl, h⟩)
    | last hr =>
      obtain ⟨x, w', rfl, hx⟩ := hR _ _ hr
      refine cur_ok h fun t ht => ?_
      refine ok_else (by rw [ht.isP, hx.2.1]; simp) ?_
      refine Sat.bind (hf _ _ hr _ _ _ _ _ (.inr ⟨n, rest, rfl, rfl⟩) h) ?_
      rintro b s' ⟨rfl, h⟩
      refine Sat.bind (ih .nil h) ?_
      rintro bs s' ⟨e, h⟩
      exact pure_ok ⟨by simp [e], h⟩
    | cons hr hrest =>
      obtain ⟨x, w', rfl, hx⟩ := hR _ _ hr
      simp only [List.cons_append, List.append_assoc] at h
      refine cur_ok h fun t ht => ?_
      refine ok_else (by rw [ht.isP, hx.2.1]; simp) ?_
      refine Sat.bind (hf _ _ hr _ _ _ _ _ (.inl ⟨_, rfl, commas_fits hcl hR hrest⟩) h) ?_
      rintro b s' ⟨rfl, h⟩
      refine Sat.bind (ih hrest h) ?_
      rintro bs s' ⟨e, h⟩
      exact pure_ok ⟨by simp [e], h⟩

/-- Items up to `close`. -/
theorem untilPunc_commas (hcl : (Content.punct close).fits .regExp = true) (hR : ∀ w a, R i w a → Begins (ItemStart close) w)
    (hf : ReadsItem close f bare c (R i)) {rest : List Word} {n : Bool} {ws : List Word} {as : List α} {s : Parser}
    (hl : Commas R i ws as) (h : St c ps k (ws ++ P close n :: rest) s) :
    Ok (untilPunc close f) s (fun bs s' => bs.map bare = as ∧ St c ps k (P close n :: rest) s') :=
  untilPuncF_commas hcl hR hf _ hl h

theorem commasRest_fits' (hcl : (Content.punct close).fits .regExp = true)
    (hR : ∀ w a, R i w a → Begins (ItemStart close) w) (hS : ∀ w a, S i w a → Begins (ItemStart close) w)
    {ws : List Word} {as : List α} {n : Bool} {rest : List Word} (h : CommasRest R S i ws as) :
    FitsAt .regExp (ws ++ P close n :: rest) := by
  cases h with
  | nil => exact hcl
  | last hr => exact ((hR _ _ hr).append.mono fun _ h => h.1).fits
  | cons hr _ => exact ((hR _ _ hr).append.append.mono fun _ h => h.1).fits
  | rest hr => exact ((hS _ _ hr).append.mono fun _ h => h.1).fits

/-- Items up to `close`, perhaps with a last one of another kind. -/
theorem untilPuncF_commasRest (hcl : (Content.punct close).fits .regExp = true)
    (hR : ∀ w a, R i w a → Begins (ItemStart close) w) (hS : ∀ w a, S i w a → Begins (ItemStart close) w)
    (hf : ReadsItem close f bare c (R i))
    (hg : ∀ w a, S i w a → Reads f bare c 0 0 w a (fun nx => ∃ n, nx = P close n)) {rest : List Word} {n : Bool} (m : Nat) :
    ∀ {ws : List Word} {as : List α} {s : Parser}, CommasRest R S i ws as → St c ps k (ws ++ P close n :: rest) s →
    Ok (untilPuncF close f m) s (fun bs s' => bs.map bare = as ∧ St c ps k (P close n :: rest) s') := by
  induction m with
  | zero => intro _ _ _ _ _; exact rfl
  | succ m ih =>
    intro ws as s hl h
    unfold untilPuncF
    cases hl with
    | nil =>
      refine cur_ok h fun t ht => ?_
      exact ok_then (by rw [ht.isP]; simp [isP]) (pure_ok ⟨rfl, h⟩)
    | last hr =>
      obtain ⟨x, w', rfl, hx⟩ := hR _ _ hr
      refine cur_ok h fun t ht => ?_
      refine ok_else (by rw [ht.isP, hx.2.1]; simp) ?_
      refine Sat.bind (hf _ _ hr _ _ _ _ _ (.inr ⟨n, rest, rfl, rfl⟩) h) ?_
      rintro b s' ⟨rfl, h⟩
      refine Sat.bind (ih .nil h) ?_
      rintro bs s' ⟨e, h⟩
      exact pure_ok ⟨by simp [e], h⟩
    | rest hr =>
      obtain ⟨x, w', rfl, hx⟩ := hS _ _ hr
      refine cur_ok h fun t ht => ?_
      refine ok_else (by rw [ht.isP, hx.2.1]; simp) ?_
      refine Sat.bind (hg _ _ hr _ _ _ _ _ ⟨n, rfl⟩ h) ?_
      rintro b s' ⟨rfl, h⟩
      refine Sat.bind (ih .nil h) ?_
      rintro bs s' ⟨e, h⟩
      exact pure_ok ⟨by simp [e], h⟩
    | cons hr hrest =>
      obtain ⟨x, w', rfl, hx⟩ := hR _ _ hr
      simp only [List.cons_append, List.append_assoc] at h
      refine cur_ok h fun t ht => ?_
      refine ok_else (by rw [ht.isP, hx.2.1]; simp) ?_
      refine Sat.bind (hf _ _ hr _ _ _ _ _ (.inl ⟨_, rfl, commasRest_fits' hcl hR hS hrest⟩) h) ?_
      rintro b s' ⟨rfl, h⟩
      refine Sat.bind (ih hrest h) ?_
      rintro bs s' ⟨e, h⟩
      exact pure_ok ⟨by simp [e], h⟩

theorem commasRest_fits (hcl : (Content.punct close).fits .regExp = true) (hR : ∀ w a, R i w a → Begins (ItemStart' close) w)
    (hS : ∀ w a, S i w a → Begins (fun x => x = .punct .ellipsis) w)
    {ws : List Word} {as : List α} {n : Bool} {rest : List Word} (h : CommasRest R S i ws as) :
    FitsAt .regExp (ws ++ P close n :: rest) := by
  cases h with
  | nil => exact hcl
  | last hr => exact ((hR _ _ hr).append.mono fun _ h => h.1.1).fits
  | cons hr _ => exact ((hR _ _ hr).append.append.mono fun _ h => h.1.1).fits
  | rest hr => exact ((hS _ _ hr).append.mono fun _ h => by subst h; rfl).fits

theorem untilPuncOrRestF_commas (hcl : (Content.punct close).fits .regExp = true) (hce : close ≠ .ellipsis)
    (hR : ∀ w a, R i w a → Begins (ItemStart' close) w)
    (hS : ∀ w a, S i w a → Begins (fun x => x = .punct .ellipsis) w)
    (hf : ReadsItem close f bare c (R i))
    (hg : ∀ w a, S i w a → Reads f bare c 0 0 w a (fun nx => ∃ n, nx = P close n)) {rest : List Word} {n : Bool} (m : Nat) :
    ∀ {ws : List Word} {as : List α} {s : Parser}, CommasRest R S i ws as → St c ps k (ws ++ P close n :: rest) s →
    Ok (untilPuncOrRestF close f m) s (fun bs s' => bs.map bare = as ∧ St c ps k (P close n :: rest) s') := by
  induction m with
  | zero => intro _ _ _ _ _; exact rfl
  | succ m ih =>
    intro ws as s hl h
    unfold untilPuncOrRestF
    cases hl with
    | nil =>
      refine cur_ok h fun t ht => ?_
      exact ok_then (by rw [ht.isP]; simp [isP]) (pure_ok ⟨rfl, h⟩)
    | last hr =>
      obtain ⟨x, w', rfl, hx⟩ := hR _ _ hr
      refine cur_ok h fun t ht => ?_
      refine ok_else (by rw [ht.isP, hx.1.2.1]; simp) ?_
      refine ok_else (by rw [ht.isP, hx.2]; simp) ?_
      refine Sat.bind (hf _ _ hr _ _ _ _ _ (.inr ⟨n, rest, rfl, rfl⟩) h) ?_
      rintro b s' ⟨rfl, h⟩
      refine Sat.bind (ih .nil h) ?_
      rintro bs s' ⟨e, h⟩
      exact pure_ok ⟨by simp [e], h⟩
    | cons hr hrest =>
      obtain ⟨x, w', rfl, hx⟩ := hR _ _ hr
      simp only [List.cons_append, List.append_assoc] at h
      refine cur_ok h fun t ht => ?_
      refine ok_else (by rw [ht.isP, hx.1.2.1]; simp) ?_
      refine ok_else (by rw [ht.isP, hx.2]; simp) ?_
      refine Sat.bind (hf _ _ hr _ _ _ _ _ (.inl ⟨_, rfl, commasRest_fits hcl hR hS hrest⟩) h) ?_
      rintro b s' ⟨rfl, h⟩
      refine Sat.bind (ih hrest h) ?_
      rintro bs s' ⟨e, h⟩
      exact pure_ok ⟨by simp [e], h⟩
    | rest hr =>
      obtain ⟨⟨x, _⟩, w', rfl, rfl⟩ := hS _ _ hr
      refine cur_ok h fun t ht => ?_
      refine ok_else (by rw [ht.isP]; simp [isP]; exact Ne.symm hce) ?_
      refine ok_then (by rw [ht.isP]; simp [isP]) ?_
      refine Sat.bind (hg _ _ hr _ _ _ _ _ ⟨n, rfl⟩ h) ?_
      rintro b s' ⟨rfl, h⟩
      exact pure_ok ⟨rfl, h⟩

/-- Items up to `close`, perhaps with a rest. -/
theorem untilPuncOrRest_commas (hcl : (Content.punct close).fits .regExp = true) (hce : close ≠ .ellipsis)
    (hR : ∀ w a, R i w a → Begins (ItemStart' close) w)
    (hS : ∀ w a, S i w a → Begins (fun x => x = .punct .ellipsis) w)
    (hf : ReadsItem close f bare c (R i))
    (hg : ∀ w a, S i w a → Reads f bare c 0 0 w a (fun nx => ∃ n, nx = P close n)) {rest : List Word} {n : Bool}
    {ws : List Word} {as : List α} {s : Parser} (hl : CommasRest R S i ws as) (h : St c ps k (ws ++ P close n :: rest) s) :
    Ok (untilPuncOrRest close f) s (fun bs s' => bs.map bare = as ∧ St c ps k (P close n :: rest) s') :=
  untilPuncOrRestF_commas hcl hce hR hS hf hg _ hl h

theorem holes_fits (hcl : (Content.punct close).fits .regExp = true) (hR : ∀ w a, R i w a → Begins (ItemStart close) w)
    {ws : List Word} {as : List (Option α)} {n : Bool} {rest : List Word} (h : Holes R i ws as) :
    FitsAt .regExp (ws ++ P close n :: rest) := by
  cases h with
  | nil => exact hcl
  | last hr => exact ((hR _ _ hr).append.mono fun _ h => h.1).fits
  | cons hr _ => exact ((hR _ _ hr).append.append.mono fun _ h => h.1).fits
  | hole _ => exact rfl

variable {g : PM (Option β)}

theorem untilPuncF_holes (hcl : (Content.punct close).fits .regExp = true) (hcc : close ≠ .comma)
    (hR : ∀ w a, R i w a → Begins (ItemStart close) w)
    (hf : ReadsItem close g (Option.map bare) c (fun w a => ∃ b, a = some b ∧ R i w b))
    (hh : ∀ ps k n ws s, FitsAt .regExp ws → St c ps k (P .comma n :: ws) s →
      Ok g s (fun b s' => b = none ∧ St c ps k ws s')) {rest : List Word} {n : Bool} (m : Nat) :
    ∀ {ws : List Word} {as : List (Option α)} {s : Parser}, Holes R i ws as → St c ps k (ws ++ P close n :: rest) s →
    Ok (untilPuncF close g m) s (fun bs s' => bs.map (Option.map bare) = as ∧ St c ps k (P close n :: rest) s') := by
  induction m with
  | zero => intro _ _ _ _ _; exact rfl
  | succ m ih =>
    intro ws as s hl h
    unfold untilPuncF
    cases hl with
    | nil =>
      refine cur_ok h fun t ht => ?_
      exact ok_then (by rw [ht.isP]; simp [isP]) (pure_ok ⟨rfl, h⟩)
    | last hr =>
      obtain ⟨x, w', rfl, hx⟩ := hR _ _ hr
      refine cur_ok h fun t ht => ?_
      refine ok_else (by rw [ht.isP, hx.2.1]; simp) ?_
      refine Sat.bind (hf _ _ ⟨_, rfl, hr⟩ _ _ _ _ _ (.inr ⟨n, rest, rfl, rfl⟩) h) ?_
      rintro b s' ⟨hb, h⟩
      refine Sat.bind (ih .nil h) ?_
      rintro bs s' ⟨e, h⟩
      exact pure_ok ⟨by simp [e, hb], h⟩
    | cons hr hrest =>
      obtain ⟨x, w', rfl, hx⟩ := hR _ _ hr
      simp only [List.cons_append, List.append_assoc] at h
      refine cur_ok h fun t ht => ?_
      refine ok_else (by rw [ht.isP, hx.2.1]; simp) ?_
      refine Sat.bind (hf _ _ ⟨_, rfl, hr⟩ _ _ _ _ _ (.inl ⟨_, rfl, holes_fits hcl hR hrest⟩) h) ?_
      rintro b s' ⟨hb, h⟩
      refine Sat.bind (ih hrest h) ?_
      rintro bs s' ⟨e, h⟩
      exact pure_ok ⟨by simp [e, hb], h⟩
    | hole hrest =>
      simp only [List.cons_append] at h
      refine cur_ok h fun t ht => ?_
      refine ok_else (by rw [ht.isP]; simp [isP]; exact Ne.symm hcc) ?_
      refine Sat.bind (hh _ _ _ _ _ (holes_fits hcl hR hrest) h) ?_
      rintro b s' ⟨rfl, h⟩
      refine Sat.bind (ih hrest h) ?_
      rintro bs s' ⟨e, h⟩
      exact pure_ok ⟨by simp [e], h⟩

theorem untilPunc_holes (hcl : (Content.punct close).fits .regExp = true) (hcc : close ≠ .comma)
    (hR : ∀ w a, R i w a → Begins (ItemStart close) w)
    (hf : ReadsItem close g (Option.map bare) c (fun w a => ∃ b, a = some b ∧ R i w b))
    (hh : ∀ ps k n ws s, FitsAt .regExp ws → St c ps k (P .comma n :: ws) s →
      Ok g s (fun b s' => b = none ∧ St c ps k ws s')) {rest : List Word} {n : Bool}
    {ws : List Word} {as : List (Option α)} {s : Parser} (hl : Holes R i ws as) (h : St c ps k (ws ++ P close n :: rest) s) :
    Ok (untilPunc close g) s (fun bs s' => bs.map (Option.map bare) = as ∧ St c ps k (P close n :: rest) s') :=
  untilPuncF_holes hcl hcc hR hf hh _ hl h

theorem holesRest_fits (hcl : (Content.punct close).fits .regExp = true) (hR : ∀ w a, R i w a → Begins (ItemStart' close) w)
    (hS : ∀ w a, S i w a → Begins (fun x => x = .punct .ellipsis) w)
    {ws : List Word} {as : List (Option α)} {n : Bool} {rest : List Word} (h : HolesRest R S i ws as) :
    FitsAt .regExp (ws ++ P close n :: rest) := by
  cases h with
  | nil => exact hcl
  | last hr => exact ((hR _ _ hr).append.mono fun _ h => h.1.1).fits
  | cons hr _ => exact ((hR _ _ hr).append.append.mono fun _ h => h.1.1).fits
  | hole _ => exact rfl
  | rest hr => exact ((hS _ _ hr).append.mono fun _ h => by subst h; rfl).fits

theorem untilPuncOrRestF_holes (hcl : (Content.punct close).fits .regExp = true) (hcc : close ≠ .comma)
    (hce : close ≠ .ellipsis)
    (hR : ∀ w a, R i w a → Begins (ItemStart' close) w)
    (hS : ∀ w a, S i w a → Begins (fun x => x = .punct .ellipsis) w)
    (hf : ReadsItem close g (Option.map bare) c (fun w a => ∃ b, a = some b ∧ R i w b))
    (hh : ∀ ps k n ws s, FitsAt .regExp ws → St c ps k (P .comma n :: ws) s →
      Ok g s (fun b s' => b = none ∧ St c ps k ws s'))
    (hg : ∀ w a, S i w a → Reads g (Option.map bare) c 0 0 w (some a) (fun nx => ∃ n, nx = P close n))
    {rest : List Word} {n : Bool} (m : Nat) :
    ∀ {ws : List Word} {as : List (Option α)} {s : Parser}, HolesRest R S i ws as → St c ps k (ws ++ P close n :: rest) s →
    Ok (untilPuncOrRestF close g m) s (fun bs s' => bs.map (Option.map bare) = as ∧ St c ps k (P close n :: rest) s') := by
  induction m with
  | zero => intro _ _ _ _ _; exact rfl
  | succ m ih =>
    intro ws as s hl h
    unfold untilPuncOrRestF
    cases hl with
    | nil =>
      refine cur_ok h fun t ht => ?_
      exact ok_then (by rw [ht.isP]; simp [isP]) (pure_ok ⟨rfl, h⟩)
    | last hr =>
      obtain ⟨x, w', rfl, hx⟩ := hR _ _ hr
      refine cur_ok h fun t ht => ?_
      refine ok_else (by rw [ht.isP, hx.1.2.1]; simp) ?_
      refine ok_else (by rw [ht.isP, hx.2]; simp) ?_
      refine Sat.bind (hf _ _ ⟨_, rfl, hr⟩ _ _ _ _ _ (.inr ⟨n, rest, rfl, rfl⟩) h) ?_
      rintro b s' ⟨hb, h⟩
      refine Sat.bind (ih .nil h) ?_
      rintro bs s' ⟨e, h⟩
      exact pure_ok ⟨by simp [e, hb], h⟩
    | cons hr hrest =>
      obtain ⟨x, w', rfl, hx⟩ := hR _ _ hr
      simp only [List.cons_append, List.append_assoc] at h
      refine cur_ok h fun t ht => ?_
      refine ok_else (by rw [ht.isP, hx.1.2.1]; simp) ?_
      refine ok_else (by rw [ht.isP, hx.2]; simp) ?_
      refine Sat.bind (hf _ _ ⟨_, rfl, hr⟩ _ _ _ _ _ (.inl ⟨_, rfl, holesRest_fits hcl hR hS hrest⟩) h) ?_
      rintro b s' ⟨hb, h⟩
      refine Sat.bind (ih hrest h) ?_
      rintro bs s' ⟨e, h⟩
      exact pure_ok ⟨by simp [e, hb], h⟩
    | hole hrest =>
      simp only [List.cons_append] at h
      refine cur_ok h fun t ht => ?_
      refine ok_else (by rw [ht.isP]; simp [isP]; exact Ne.symm hcc) ?_
      refine ok_else (by rw [ht.isP]; simp [isP]) ?_
      refine Sat.bind (hh _ _ _ _ _ (holesRest_fits hcl hR hS hrest) h) ?_
      rintro b s' ⟨rfl, h⟩
      refine Sat.bind (ih hrest h) ?_
      rintro bs s' ⟨e, h⟩
      exact pure_ok ⟨by simp [e], h⟩
    | rest hr =>
      obtain ⟨⟨x, _⟩, w', rfl, rfl⟩ := hS _ _ hr
      refine cur_ok h fun t ht => ?_
      refine ok_else (by rw [ht.isP]; simp [isP]; exact Ne.symm hce) ?_
      refine ok_then (by rw [ht.isP]; simp [isP]) ?_
      refine Sat.bind (hg _ _ hr _ _ _ _ _ ⟨n, rfl⟩ h) ?_
      rintro b s' ⟨hb, h⟩
      exact pure_ok ⟨by simp [hb], h⟩

theorem untilPuncOrRest_holes (hcl : (Content.punct close).fits .regExp = true) (hcc : close ≠ .comma)
    (hce : close ≠ .ellipsis)
    (hR : ∀ w a, R i w a → Begins (ItemStart' close) w)
    (hS : ∀ w a, S i w a → Begins (fun x => x = .punct .ellipsis) w)
    (hf : ReadsItem close g (Option.map bare) c (fun w a => ∃ b, a = some b ∧ R i w b))
    (hh : ∀ ps k n ws s, FitsAt .regExp ws → St c ps k (P .comma n :: ws) s →
      Ok g s (fun b s' => b = none ∧ St c ps k ws s'))
    (hg : ∀ w a, S i w a → Reads g (Option.map bare) c 0 0 w (some a) (fun nx => ∃ n, nx = P close n))
    {rest : List Word} {n : Bool}
    {ws : List Word} {as : List (Option α)} {s : Parser} (hl : HolesRest R S i ws as) (h : St c ps k (ws ++ P close n :: rest) s) :
    Ok (untilPuncOrRest close g) s (fun bs s' => bs.map (Option.map bare) = as ∧ St c ps k (P close n :: rest) s') :=
  untilPuncOrRestF_holes hcl hcc hce hR hS hf hh hg _ hl h

/-- More items after a first one, each after a comma. -/
theorem whilePuncF_sep {F : Word → Prop} (hFc : ∀ n, F (P .comma n))
    (hR : ∀ w a, R i w a → Begins (fun x => x.fits .regExp = true) w)
    (hf : ∀ w a, R i w a → ∀ ps k n nx rest s, F nx → St c ps k (P .comma n :: (w ++ nx :: rest)) s →
      Ok f s (fun b s' => bare b = a ∧ St c ps k (nx :: rest) s'))
    {nx : Word} (hF : F nx) (hnx : isP nx.c .comma = false) {rest : List Word} (m : Nat) :
    ∀ {ws : List Word} {as : List α} {s : Parser} {n : Bool}, Sep R i ws as → St c ps k (P .comma n :: (ws ++ nx :: rest)) s →
    Ok (whilePuncF .comma f m) s (fun bs s' => bs.map bare = as ∧ St c ps k (nx :: rest) s') := by
  induction m with
  | zero => intro _ _ _ _ _ _; exact rfl
  | succ m ih =>
    intro ws as s n hl h
    unfold whilePuncF
    refine cur_ok h fun t ht => ?_
    refine ok_then (by rw [ht.isP]; simp [isP]) ?_
    cases hl with
    | one hr =>
      refine Sat.bind (hf _ _ hr _ _ _ _ _ _ hF h) ?_
      rintro b s' ⟨rfl, h⟩
      refine Sat.bind (P := fun bs s' => bs = [] ∧ St c ps k (nx :: rest) s') ?_ ?_
      · cases m with
        | zero => exact rfl
        | succ m =>
          unfold whilePuncF
          refine cur_ok h fun t ht => ?_
          exact ok_else (by rw [ht.isP, hnx]; simp) (pure_ok ⟨rfl, h⟩)
      · rintro bs s' ⟨rfl, h⟩
        exact pure_ok ⟨rfl, h⟩
    | cons hr hrest =>
      simp only [List.cons_append, List.append_assoc] at h
      refine Sat.bind (hf _ _ hr _ _ _ _ _ _ (hFc _) h) ?_
      rintro b s' ⟨rfl, h⟩
      refine Sat.bind (ih hrest h) ?_
      rintro bs s' ⟨e, h⟩
      exact pure_ok ⟨by simp [e], h⟩

theorem whilePunc_sep {F : Word → Prop} (hFc : ∀ n, F (P .comma n))
    (hR : ∀ w a, R i w a → Begins (fun x => x.fits .regExp = true) w)
    (hf : ∀ w a, R i w a → ∀ ps k n nx rest s, F nx → St c ps k (P .comma n :: (w ++ nx :: rest)) s →
      Ok f s (fun b s' => bare b = a ∧ St c ps k (nx :: rest) s'))
    {nx : Word} (hF : F nx) (hnx : isP nx.c .comma = false) {rest : List Word}
    {ws : List Word} {as : List α} {s : Parser} {n : Bool} (hl : Sep R i ws as)
    (h : St c ps k (P .comma n :: (ws ++ nx :: rest)) s) :
    Ok (whilePunc .comma f) s (fun bs s' => bs.map bare = as ∧ St c ps k (nx :: rest) s') :=
  whilePuncF_sep hFc hR hf hF hnx _ hl h

/-- No more items. -/
theorem whilePunc_none {nx : Word} (hnx : isP nx.c .comma = false) {rest : List Word} {s : Parser}
    (h : St c ps k (nx :: rest) s) :
    Ok (whilePunc .comma f) s (fun bs s' => bs = [] ∧ St c ps k (nx :: rest) s') := by
  show Ok (whilePuncF .comma f (s.size + 1)) s _
  unfold whilePuncF
  refine cur_ok h fun t ht => ?_
  exact ok_else (by rw [ht.isP, hnx]; simp) (pure_ok ⟨rfl, h⟩)

end

end Giron.Complete

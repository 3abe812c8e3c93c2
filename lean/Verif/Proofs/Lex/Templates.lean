import Verif.Proofs.Lex.Strings
/-
Template chunks and regular expression literals.
-/
namespace Giron
open M Spec
namespace Scanner
variable {s : Scanner}

/-- the simple escapes of a template -/
theorem templateEscape_iff {d : Char} :
    (d = 'b' ∨ d = 'f' ∨ d = 'v' ∨ d = 'n' ∨ d = 'r' ∨ d = 't') ↔ d ∈ cs!"bfvnrt" := by
  simp only [List.mem_cons, List.not_mem_nil, or_false]

theorem templateEscape_value {d : Char} (h : d ∈ cs!"bfvnrt") : (d, unescape d) ∈ singleEscapes := by
  simp only [List.mem_cons, List.not_mem_nil, or_false] at h
  rcases h with rfl | rfl | rfl | rfl | rfl | rfl <;> decide

/-- the line break after a backslash in a template -/
theorem templateContinuation_eq {b r : Str} (h : s.rest = b ++ r) (hb : LineBreak b r) :
    (do
      let (q1, q2) ← peek2
      if q1 = some '\r' ∧ q2 = some '\n' then do
        let _ ← consume
        let _ ← consume
        pure '\x00'
      else do
        let _ ← consume
        pure '\x00' : SM Char) s = .ok ('\x00', afterN b.length s) := by
  rw [bind_peek2]
  cases hb with
  | crlf =>
    simp only [List.cons_append, List.nil_append] at h
    rw [h]
    rfl
  | @single c r hc hr =>
    simp only [List.cons_append, List.nil_append] at h
    rw [h]
    have : ¬ ((c :: r)[0]? = some '\r' ∧ (c :: r)[1]? = some '\n') := by
      rintro ⟨h1, h2⟩
      simp at h1
      apply hr h1
      cases r with
      | nil => simp at h2
      | cons d r => simpa using h2
    dsimp only
    rw [if_neg this]
    rfl

variable [Env]

theorem templateItem_ne_nil {x r : Str} {c : Char} (h : TemplateItem x r c) : x ≠ [] := by
  cases h with
  | hex h => cases h; simp
  | unicode h => cases h <;> simp
  | _ => simp

theorem scanTemplateChar_bs {d : Char} {r : Str} (h : s.rest = '\\' :: d :: r) :
    scanTemplateChar s = (
      if isLineTerminator d then do
        let _ ← consume
        let (q1, q2) ← peek2
        if q1 = some '\r' ∧ q2 = some '\n' then do
          let _ ← consume
          let _ ← consume
          pure '\x00'
        else do
          let _ ← consume
          pure '\x00'
      else if d = 'b' ∨ d = 'f' ∨ d = 'v' ∨ d = 'n' ∨ d = 'r' ∨ d = 't' then do
        let _ ← consume
        let c ← consumeOr .unexpectedEOS
        pure (unescape c)
      else if d = 'x' then scanHexEscSeq
      else if d = 'u' then scanUnicodeEscSeq
      else do
        let _ ← consume
        consumeOr .unexpectedEOS : SM Char) s := by
  rw [scanTemplateChar, bind_peek2, h]
  rfl

theorem scanTemplateChar_plain {c : Char} {r : Str} (h : s.rest = c :: r) (hc : c ≠ '\\' ∨ r = []) :
    scanTemplateChar s = .ok (if isLineTerminator c then '\n' else c, afterConsume s) := by
  rw [scanTemplateChar, bind_peek2, h]
  dsimp only [List.getElem?_cons_zero, List.getElem?_cons_succ]
  change Gives _ s _ _
  split
  · next h1 =>
    simp only [Prod.mk.injEq, Option.some.injEq] at h1
    rcases hc with hc | hc
    · exact absurd h1.1 hc
    · rw [hc] at h1; simp at h1
  · next h1 =>
    simp only [Prod.mk.injEq, Option.some.injEq] at h1
    obtain ⟨rfl, -⟩ := h1
    by_cases hl : isLineTerminator c = true
    · rw [if_pos hl, if_pos hl]
      exact M.bind_ok (consume_cons h)
    · rw [if_neg hl, if_neg hl]
      exact consumeOr_cons _ h
  · next h1 => simp at h1

theorem scanTemplateChar_eats : Eats scanTemplateChar s (fun c x r => TemplateItem x r c) := by
  rcases hr : s.rest with _ | ⟨c, r⟩
  · intro a s' h
    rw [scanTemplateChar, bind_peek2, hr] at h
    cases h
  · by_cases hp : c ≠ '\\' ∨ r = []
    · refine Eats.of_eq (x := [c]) (r := r) hr (scanTemplateChar_plain hr hp) ?_
      by_cases hl : isLineTerminator c = true
      · rw [if_pos hl]; exact .newline hl
      · rw [if_neg hl]
        by_cases hc : c = '\\'
        · subst hc
          rcases hp with hp | rfl
          · exact absurd rfl hp
          · exact .backslash
        · exact .char hc (by simpa using hl)
    · obtain ⟨rfl, d, r, rfl⟩ : c = '\\' ∧ ∃ d r', r = d :: r' := by
        rw [not_or] at hp
        refine ⟨Classical.byContradiction hp.1, ?_⟩
        cases r with
        | nil => exact absurd rfl hp.2
        | cons d r => exact ⟨d, r, rfl⟩
      refine Eats.congr (scanTemplateChar_bs hr) ?_
      refine Eats.ite (fun hl => ?_) (fun hl => ?_)
      · refine Eats.consume hr ?_
        have h1 := rest_afterConsume hr
        obtain ⟨b, r', hbr, hb⟩ := exists_lineBreak (r := r) hl
        rw [hbr] at h1
        exact Eats.of_eq h1 (templateContinuation_eq h1 hb) (.continuation hb)
      refine Eats.ite (fun he => ?_) (fun he => ?_)
      · refine Eats.consume hr ?_
        refine Eats.consumeOr fun c' r' h' => ?_
        rw [rest_afterConsume hr] at h'; cases h'
        exact Eats.pure (.escape (templateEscape_iff.1 he) (templateEscape_value (templateEscape_iff.1 he)))
      refine Eats.ite (fun hx => ?_) (fun hx => ?_)
      · exact scanHexEscSeq_eats.mono fun c x r _ hc => .hex hc
      refine Eats.ite (fun hu => ?_) (fun hu => ?_)
      · exact scanUnicodeEscSeq_eats.mono fun c x r _ hc => .unicode hc
      refine Eats.consume hr ?_
      refine Eats.consumeOr' fun c' r' h' => ?_
      rw [rest_afterConsume hr] at h'; cases h'
      refine .other ?_ (by simpa using hl)
      simp only [List.mem_cons, List.not_mem_nil, or_false]
      simp only [not_or] at he ⊢
      exact ⟨he.1, he.2.1, he.2.2.1, he.2.2.2.1, he.2.2.2.2.1, he.2.2.2.2.2, hx, hu⟩

theorem scanTemplateChar_eq {x r : Str} {c : Char} (hx : TemplateItem x r c) (h : s.rest = x ++ r) :
    scanTemplateChar s = .ok (c, afterN x.length s) := by
  cases hx with
  | char hc hl => rw [scanTemplateChar_plain h (.inl hc), if_neg (by simp [hl])]; rfl
  | @newline c r hl =>
    rw [scanTemplateChar_plain h (.inl ?_), if_pos hl]
    · rfl
    · rintro rfl; revert hl; decide
  | @escape c v r hm hv =>
    have hl : ¬ isLineTerminator c = true := by
      simp only [List.mem_cons, List.not_mem_nil, or_false] at hm
      rcases hm with rfl | rfl | rfl | rfl | rfl | rfl <;> decide
    simp only [List.cons_append, List.nil_append] at h
    rw [scanTemplateChar_bs h, if_neg hl, if_pos (templateEscape_iff.2 hm), bind_consume h,
      M.bind_ok (consumeOr_cons _ (rest_afterConsume h)), (singleEscape_value hv).2]; rfl
  | hex hx =>
    have hq := scanHexEscSeq_eq h hx
    obtain ⟨y, hy⟩ : ∃ y, x ++ r = '\\' :: 'x' :: y := by cases hx; exact ⟨_, rfl⟩
    rw [hy] at h
    rw [scanTemplateChar_bs h, if_neg (by decide), if_neg (by decide), if_pos rfl, hq]
  | unicode hx =>
    have hq := scanUnicodeEscSeq_eq h hx
    obtain ⟨y, hy⟩ : ∃ y, x ++ r = '\\' :: 'u' :: y := by cases hx <;> exact ⟨_, rfl⟩
    rw [hy] at h
    rw [scanTemplateChar_bs h, if_neg (by decide), if_neg (by decide), if_neg (by decide), if_pos rfl, hq]
  | @continuation b r hb =>
    obtain ⟨d, y, hy, hd⟩ : ∃ d y, b = d :: y ∧ isLineTerminator d = true := by
      cases hb with
      | crlf => exact ⟨_, _, rfl, by decide⟩
      | single h9 => exact ⟨_, _, rfl, h9⟩
    simp only [List.cons_append] at h
    have h1 := rest_afterConsume h
    subst hy
    rw [scanTemplateChar_bs h, if_pos hd, bind_consume h]
    exact templateContinuation_eq h1 hb
  | @other c r hm hl =>
    simp only [List.mem_cons, List.not_mem_nil, or_false, not_or] at hm
    simp only [List.cons_append, List.nil_append] at h
    rw [scanTemplateChar_bs h, if_neg (by simp [hl]), if_neg (by simp [hm]), if_neg (by simp [hm]), if_neg (by simp [hm]),
      bind_consume h, consumeOr_cons _ (rest_afterConsume h)]; rfl
  | backslash => rw [scanTemplateChar_plain h (.inr rfl)]; rfl

omit [Env] in
theorem templateStop_iff {c : Char} {r : Str} : templateStop (some c) r.head? = true ↔ EndsChunk (c :: r) := by
  unfold templateStop EndsChunk
  simp only [Option.some.injEq, Bool.or_eq_true, Bool.and_eq_true, decide_eq_true_eq, List.cons.injEq]
  constructor
  · rintro (h | ⟨h1, h2⟩)
    · exact .inl ⟨r, h, rfl⟩
    · obtain ⟨y, rfl⟩ := head?_cases _ h2
      exact .inr ⟨y, h1, rfl⟩
  · rintro (⟨y, h, _⟩ | ⟨y, h1, rfl⟩)
    · exact .inl h
    · exact .inr ⟨h1, rfl⟩

theorem templateBodyF_eats (n : Nat) :
    Eats (scan2UntilF templateStop scanTemplateChar n) s
      (fun v x r => TemplateBody x r v ∧ (r ≠ [] → EndsChunk r)) := by
  induction n generalizing s with
  | zero => exact Eats.fuel
  | succ n ih =>
    unfold scan2UntilF
    refine Eats.look (peek2_eq s) ?_
    cases hr : s.rest with
    | nil => exact Eats.pure ⟨.done, fun h => absurd hr h⟩
    | cons c r =>
      have e : (c :: r)[1]? = r.head? := by cases r <;> rfl
      rw [e]
      dsimp only [List.getElem?_cons_zero]
      refine Eats.ite (fun hp => Eats.pure ⟨.done, fun _ => by rw [hr]; exact templateStop_iff.1 hp⟩) (fun hp => ?_)
      refine Eats.bind scanTemplateChar_eats ?_
      intro a x r' hx hi
      refine Eats.bind ih ?_
      intro v y r'' hy hv
      refine Eats.pure ?_
      rw [rest_afterN_append hy, List.append_nil]
      rw [rest_afterN_append hx] at hy
      subst hy
      refine ⟨.item ?_ hi hv.1, hv.2⟩
      rw [List.append_assoc, ← hx, hr]
      exact fun h => hp (templateStop_iff.2 h)

theorem templateBodyF_eq {x r v : Str} (hx : TemplateBody x r v) {n : Nat} (hr : EndsChunk r) (h : s.rest = x ++ r)
    (hn : x.length < n) : scan2UntilF templateStop scanTemplateChar n s = .ok (v, afterN x.length s) := by
  induction hx generalizing s n with
  | @done r =>
    cases n with
    | zero => simp at hn
    | succ n =>
      unfold scan2UntilF
      rw [bind_peek2, h]
      obtain ⟨c, y, rfl⟩ : ∃ c y, r = c :: y := by
        rcases hr with ⟨y, rfl⟩ | ⟨y, rfl⟩ <;> exact ⟨_, _, rfl⟩
      have e : (c :: y)[1]? = y.head? := by cases y <;> rfl
      simp only [List.nil_append]
      rw [e]
      dsimp only [List.getElem?_cons_zero]
      rw [if_pos (templateStop_iff.2 hr)]; rfl
  | @item x y r v c hq hi _ ih =>
    cases n with
    | zero => simp at hn
    | succ n =>
      have hne := templateItem_ne_nil hi
      have h0 := h
      rw [List.append_assoc] at h
      have h3 := ih (s := afterN x.length s) (n := n) hr (rest_afterN_append h) (by
        have : 0 < x.length := List.length_pos_iff.2 hne
        simp at hn; omega)
      unfold scan2UntilF
      rw [bind_peek2]
      obtain ⟨d, z, hz⟩ : ∃ d z, s.rest = d :: z := by
        cases x with
        | nil => exact absurd rfl hne
        | cons d x => exact ⟨d, _, h⟩
      have e : (d :: z)[1]? = z.head? := by cases z <;> rfl
      rw [hz, e]
      dsimp only [List.getElem?_cons_zero]
      rw [if_neg (fun h' => hq (by rw [← h0, hz]; exact templateStop_iff.1 h')), M.bind_ok (scanTemplateChar_eq hi h),
        M.bind_ok h3, M.pure_apply, ← afterN_add, List.length_append]

/-! ### Regular expressions -/

omit [Env] in
theorem regexpBodyF_eats (n : Nat) :
    Eats (regexpBodyF n) s (fun v x r => v = x ∧ RegExpBody x r) := by
  induction n generalizing s with
  | zero => exact Eats.fuel
  | succ n ih =>
    unfold regexpBodyF
    refine Eats.look (peek_eq s) ?_
    cases hr : s.rest with
    | nil => exact Eats.pure ⟨rfl, .done⟩
    | cons c r =>
      dsimp only [List.head?_cons]
      refine Eats.ite (fun h1 => ?_) (fun h1 => ?_)
      · subst h1
        refine Eats.scanUntil fun g r' h2 hrun => ?_
        refine Eats.bind ih ?_
        rintro v x r'' h3 ⟨rfl, hx⟩
        refine Eats.pure ?_
        rw [rest_afterN_append h3, List.append_nil]
        refine ⟨rfl, ?_⟩
        obtain ⟨g', rfl⟩ : ∃ g', g = '[' :: g' := by
          cases g with
          | nil =>
            rw [List.nil_append, hr] at h2
            subst h2
            exact absurd (hrun.2 '[' rfl) (by decide)
          | cons d g => rw [hr] at h2; cases h2; exact ⟨g, rfl⟩
        rw [rest_afterN_append h2] at h3
        subst h3
        exact .cls ⟨fun d hd => hrun.1 d (by simp [hd]), hrun.2⟩ hx
      refine Eats.ite (fun h2 => ?_) (fun h2 => ?_)
      · subst h2
        refine Eats.consumeOr fun a r1 ha => Eats.consumeOr fun b r2 hb => ?_
        rw [hr] at ha; cases ha
        refine Eats.bind ih ?_
        rintro v x r'' h3 ⟨rfl, hx⟩
        refine Eats.pure ?_
        rw [rest_afterN_append h3, List.append_nil]
        exact ⟨rfl, .escape hx⟩
      refine Eats.ite (fun h3 => Eats.pure ⟨rfl, .done⟩) (fun h3 => ?_)
      refine Eats.consumeOr fun a r1 ha => ?_
      rw [hr] at ha; cases ha
      refine Eats.bind ih ?_
      rintro v x r'' h4 ⟨rfl, hx⟩
      refine Eats.pure ?_
      rw [rest_afterN_append h4, List.append_nil]
      exact ⟨rfl, .char h3 h2 h1 hx⟩

omit [Env] in
theorem regexpBodyF_eq {x r : Str} (hx : RegExpBody x r) {n : Nat} (hr : r.head? = some '/') (h : s.rest = x ++ r)
    (hn : x.length < n) : regexpBodyF n s = .ok (x, afterN x.length s) := by
  induction hx generalizing s n with
  | done =>
    cases n with
    | zero => simp at hn
    | succ n =>
      unfold regexpBodyF
      rw [bind_peek, h, List.nil_append, hr]
      dsimp only
      rw [if_neg (by decide), if_neg (by decide), if_pos rfl]; rfl
  | @char c x r h1 h2 h3 _ ih =>
    cases n with
    | zero => simp at hn
    | succ n =>
      unfold regexpBodyF
      simp only [List.cons_append] at h
      rw [bind_peek, h]
      dsimp only [List.head?_cons]
      rw [if_neg h3, if_neg h2, if_neg h1, M.bind_ok (consumeOr_cons _ h),
        M.bind_ok (ih hr (rest_afterConsume h) (by simpa using hn))]; rfl
  | @escape c x r _ ih =>
    cases n with
    | zero => simp at hn
    | succ n =>
      unfold regexpBodyF
      simp only [List.cons_append] at h
      rw [bind_peek, h]
      dsimp only [List.head?_cons]
      have h1 := rest_afterConsume h
      rw [if_neg (by decide), if_pos rfl, M.bind_ok (consumeOr_cons _ h), M.bind_ok (consumeOr_cons _ h1),
        M.bind_ok (ih hr (rest_afterConsume h1) (by simp at hn; omega))]; rfl
  | @cls g x r hrun _ ih =>
    cases n with
    | zero => simp at hn
    | succ n =>
      unfold regexpBodyF
      have h1 : s.rest = ('[' :: g) ++ (x ++ r) := by rw [h]; simp
      rw [bind_peek, show s.rest.head? = some '[' by rw [h]; rfl]
      dsimp only
      have hrun' : Run (fun c => !(c == ']')) ('[' :: g) (x ++ r) := by
        refine ⟨?_, hrun.2⟩
        intro d hd
        rcases List.mem_cons.1 hd with rfl | hd
        · decide
        · exact hrun.1 d hd
      rw [if_pos rfl, M.bind_ok (scanUntil_run h1 hrun'),
        M.bind_ok (ih hr (rest_afterN_append h1) (by simp at hn; omega)), M.pure_apply, ← afterN_add]
      simp [Nat.add_right_comm]

end Scanner
end Giron

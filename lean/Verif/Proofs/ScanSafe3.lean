import Verif.Proofs.ScanSafe2
/-
Safety of the scanner, concluded: templates, punctuators, trivia, `next`.
-/
namespace Giron
open M Spec
variable [Env]
namespace Scanner
variable {L : Nat} {s : Scanner}

omit [Env] in
theorem getElem?_one_drop (s : Scanner) : (afterN 1 s).rest = s.rest.tail := by simp

theorem scanTemplateChar_reads (h : Pos L s) (hr : s.rest ≠ []) :
    Reads L scanTemplateChar s (fun _ k => 1 ≤ k) := by
  unfold scanTemplateChar
  refine Reads.bind peek2_reads ?_
  rintro a k _ ⟨rfl, rfl⟩
  have hr0 : (afterN 0 s).rest ≠ [] := by simpa using hr
  split
  · next cp heq =>
    obtain ⟨h1, h2⟩ := Prod.mk.inj heq
    have hr1 : (afterN 1 (afterN 0 s)).rest ≠ [] := by
      intro hn; rcases hr : s.rest with _ | ⟨_, _ | _⟩ <;> simp_all
    refine Reads.ite (fun _ => ?_) (fun _ => ?_)
    · refine Reads.bind (consume_reads hr0) ?_
      rintro _ k1 hk1 ⟨_, rfl⟩
      refine Reads.bind peek2_reads ?_
      rintro a k2 hk2 ⟨rfl, rfl⟩
      dsimp only
      have hr2 : (afterN 0 (afterN 1 (afterN 0 s))).rest ≠ [] := by simpa using hr1
      refine Reads.ite (fun hc => ?_) (fun _ => ?_)
      · refine Reads.bind (consume_reads hr2) ?_
        rintro _ k3 _ ⟨_, rfl⟩
        refine Reads.bind (consume_reads ?_) ?_
        · intro hn; rcases hr : s.rest with _ | ⟨_, _ | ⟨_, _ | _⟩⟩ <;> simp_all
        rintro _ k3 _ ⟨_, rfl⟩
        exact Reads.pure (by omega)
      · refine Reads.bind (consume_reads hr2) ?_
        rintro _ k3 _ ⟨_, rfl⟩
        exact Reads.pure (by omega)
    refine Reads.ite (fun _ => ?_) (fun _ => ?_)
    · refine Reads.bind (consume_reads hr0) ?_
      rintro _ k1 _ ⟨_, rfl⟩
      refine Reads.bind (consumeOr_reads (by pos) _) ?_
      rintro _ k1 _ ⟨_, rfl⟩
      exact Reads.pure (by omega)
    refine Reads.ite (fun _ => ?_) (fun _ => ?_)
    · exact (scanHexEscSeq_reads (by pos)).mono (by intros; omega)
    refine Reads.ite (fun _ => ?_) (fun _ => ?_)
    · exact (scanUnicodeEscSeq_reads (by pos)).mono (by intros; omega)
    · refine Reads.bind (consume_reads hr0) ?_
      rintro _ k1 _ ⟨_, rfl⟩
      exact (consumeOr_reads (by pos) _).mono (by intros; omega)
  · refine Reads.ite (fun _ => ?_) (fun _ => ?_)
    · refine Reads.bind (consume_reads hr0) ?_
      rintro _ k1 _ ⟨_, rfl⟩
      exact Reads.pure (by omega)
    · exact (consumeOr_reads (by pos) _).mono (by intros; omega)
  · exact Reads.error (by pos) _

theorem scan2UntilF_reads (pred : Option Char → Option Char → Bool) (read : SM Char)
    (hread : ∀ s, Pos L s → s.rest ≠ [] → Reads L read s (fun _ k => 1 ≤ k))
    (n : Nat) (h : Pos L s) (hn : s.rest.length < n) :
    Reads L (scan2UntilF pred read n) s (fun _ _ => True) := by
  induction n generalizing s with
  | zero => omega
  | succ n ih =>
    unfold scan2UntilF
    refine Reads.bind peek2_reads ?_
    rintro a k hk ⟨rfl, rfl⟩
    cases hr : s.rest with
    | nil => exact Reads.pure trivial
    | cons c r =>
      simp only [List.getElem?_cons_zero]
      refine Reads.ite (fun _ => Reads.pure trivial) (fun hp => ?_)
      refine Reads.bind (hread _ (by pos) (by simp [hr])) ?_
      rintro x k hk h1
      refine Reads.bind (ih (by pos) ?_) ?_
      · simp only [afterN_zero, afterN_rest, List.length_drop, hr] at *; omega
      · rintro _ _ _ _; exact Reads.pure trivial

theorem scan2Until_reads (pred : Option Char → Option Char → Bool) (read : SM Char)
    (hread : ∀ s, Pos L s → s.rest ≠ [] → Reads L read s (fun _ k => 1 ≤ k)) (h : Pos L s) :
    Reads L (scan2Until pred read) s (fun _ _ => True) :=
  scan2UntilF_reads pred read hread _ h (Nat.lt_succ_self _)

theorem peek2_bind {α : Type} {f : Option Char × Option Char → SM α} {Q : α → Scanner → Prop}
    (hf : Sat (ScanFail L) (f (s.rest[0]?, s.rest[1]?)) s Q) : Sat (ScanFail L) (peek2 >>= f) s Q :=
  Sat.bind (P := fun a s' => a = (s.rest[0]?, s.rest[1]?) ∧ s' = s) ⟨rfl, rfl⟩
    (by rintro _ _ ⟨rfl, rfl⟩; exact hf)

theorem scanTemplateChunk_tok (h : Pos L s) (opening : Char) (head : Bool) :
    Tokenises L (scanTemplateChunk opening head) s := by
  unfold scanTemplateChunk
  refine Sat.bind (expect_reads h _) ?_
  rintro _ _ ⟨k1, hk1, rfl, _, rfl⟩
  refine Sat.bind (P := fun _ s' => Moved 1 s s') (Sat.modify ((Moved.afterN hk1).same rfl rfl rfl rfl rfl rfl)) ?_
  rintro _ s1 m1
  refine Sat.bind (scan2Until_reads _ _ (fun s hs hr => scanTemplateChar_reads hs hr) (m1.pos h)) ?_
  rintro cooked _ ⟨k2, hk2, rfl, _⟩
  have m2 := m1.trans (Moved.afterN hk2)
  refine Sat.bind (P := fun _ s' => Moved (1 + k2) s s') (m2.same rfl rfl rfl rfl rfl rfl) ?_
  rintro raw s2 m3
  refine peek2_bind ?_
  dsimp only
  refine Sat.bind (P := fun _ s' => ∃ k, 1 ≤ k ∧ Moved k s s') ?_ ?_
  · refine Sat.ite (fun hc => ?_) (fun _ => Sat.ite (fun hc => ?_) (fun _ => ?_))
    · have hl : 2 ≤ s2.rest.length := by
        rcases hr : s2.rest with _ | ⟨_, _ | ⟨_, _⟩⟩ <;> simp_all
      refine Sat.bind (P := fun _ s' => s' = afterConsume s2) rfl ?_
      rintro _ _ rfl
      refine Sat.bind (P := fun _ s' => s' = afterN 2 s2) rfl ?_
      rintro _ _ rfl
      refine Sat.bind (P := fun _ s' => Moved (1 + k2 + 2) s s')
        (Sat.modify ((m3.trans (Moved.afterN hl)).same rfl rfl rfl rfl rfl rfl)) ?_
      rintro _ s3 m4
      exact ⟨_, by omega, m4⟩
    · have hl : 1 ≤ s2.rest.length := by
        rcases hr : s2.rest with _ | ⟨_, _⟩ <;> simp_all
      refine Sat.bind (P := fun _ s' => s' = afterN 1 s2) rfl ?_
      rintro _ _ rfl
      exact ⟨_, by omega, m3.trans (Moved.afterN hl)⟩
    · exact Or.inr (Or.inl rfl)
  · rintro tail s3 ⟨k, hk, m4⟩
    refine (token_sat ..).mono ?_
    rintro t _ ⟨rfl, rfl⟩
    exact ⟨mkTok_ok (m4.pos h) (by simp [TokShape, mkTok]), by simp [mkTok], rfl, rfl, rfl, k, hk, m4⟩

/-! ### Punctuators -/

theorem punc0_sat {v : Str} {p : Punctuator} (hp : Punctuator.ofStr v = some p) :
    Sat (ScanFail L) (punc0 v) s
      (fun t s' => s' = s ∧ t = mkTok s .punctuator (.punc p) none none none none none none) := by
  unfold punc0
  rw [hp]
  exact Sat.bind (P := fun a s' => a = p ∧ s' = s) ⟨rfl, rfl⟩ (by rintro _ _ ⟨rfl, rfl⟩; exact tokenSimple_sat _ _)

theorem punc_tok {k : Nat} {v : Str} {p : Punctuator} {s0 : Scanner} (hp : Punctuator.ofStr v = some p)
    (h : Pos L s0) (hk : 1 ≤ k) (hm : Moved k s0 s) :
    Sat (ScanFail L) (punc0 v) s (fun t s' => TokOk L t ∧ t.tokentype ≠ .eof ∧ t.lineNum = s'.line ∧
      t.start = s'.start ∧ t.«end» = (if s'.current = 0 then Env.usizeMax else s'.current - 1) ∧
      ∃ k, 1 ≤ k ∧ Moved k s0 s') := by
  refine (punc0_sat hp).mono ?_
  rintro t _ ⟨rfl, rfl⟩
  exact ⟨mkTok_ok (hm.pos h) (by simp [TokShape, mkTok]), by simp [mkTok], rfl, rfl, rfl, k, hk, hm⟩

omit [Env] in
theorem length_of_getElem? {l : Str} {c : Char} {n : Nat} (h : l[n]? = some c) : n + 1 ≤ l.length := by
  have := List.getElem?_eq_some_iff.1 h
  exact this.1

theorem consume_tok {α : Type} {k : Nat} {s0 : Scanner} {f : Option Char → SM α} {Q : α → Scanner → Prop}
    (hm : Moved k s0 s) (hr : 1 ≤ s.rest.length)
    (hf : Moved (k + 1) s0 (afterConsume s) → Sat (ScanFail L) (f s.rest.head?) (afterConsume s) Q) :
    Sat (ScanFail L) (consume >>= f) s Q :=
  Sat.bind (P := fun a s' => a = s.rest.head? ∧ s' = afterConsume s) ⟨rfl, rfl⟩
    (by rintro _ _ ⟨rfl, rfl⟩; exact hf (hm.trans (Moved.afterN (k := 1) hr)))

theorem punc1_tok {k : Nat} {v : Str} {p : Punctuator} {s0 : Scanner} (hp : Punctuator.ofStr v = some p)
    (h : Pos L s0) (hr : 1 ≤ s.rest.length) (hm : Moved k s0 s) :
    Sat (ScanFail L) (punc1 v) s (fun t s' => TokOk L t ∧ t.tokentype ≠ .eof ∧ t.lineNum = s'.line ∧
      t.start = s'.start ∧ t.«end» = (if s'.current = 0 then Env.usizeMax else s'.current - 1) ∧
      ∃ k, 1 ≤ k ∧ Moved k s0 s') := by
  unfold punc1
  refine consume_tok hm hr (fun m1 => ?_)
  exact punc_tok hp h (by omega) m1

theorem punc2_tok {k : Nat} {v : Str} {p : Punctuator} {s0 : Scanner} (hp : Punctuator.ofStr v = some p)
    (h : Pos L s0) (hr : 2 ≤ s.rest.length) (hm : Moved k s0 s) :
    Sat (ScanFail L) (punc2 v) s (fun t s' => TokOk L t ∧ t.tokentype ≠ .eof ∧ t.lineNum = s'.line ∧
      t.start = s'.start ∧ t.«end» = (if s'.current = 0 then Env.usizeMax else s'.current - 1) ∧
      ∃ k, 1 ≤ k ∧ Moved k s0 s') := by
  unfold punc2
  refine consume_tok hm (by omega) (fun m1 => ?_)
  refine consume_tok m1 (by simp; omega) (fun m2 => ?_)
  exact punc_tok hp h (by omega) m2

omit [Env] in
theorem ofStr_single {c : Char} (h : isSingleCharPunctuator c = true) : ∃ p, Punctuator.ofStr [c] = some p := by
  simp [isSingleCharPunctuator] at h
  rcases h with (((((((((rfl | rfl) | rfl) | rfl) | rfl) | rfl) | rfl) | rfl) | rfl) | rfl) <;> exact ⟨_, rfl⟩

omit [Env] in
theorem Moved.zero (s : Scanner) : Moved 0 s s := Moved.afterN (k := 0) (Nat.zero_le _)

omit [Env] in
theorem len_of_any {l : Str} {n : Nat} {p : Char → Bool} (h : l[n]?.any p = true) : n + 1 ≤ l.length := by
  cases hc : l[n]? with
  | none => simp [hc] at h
  | some c => exact length_of_getElem? hc

/-- enough characters are left for a leaf of `scanPunctuator_tok` -/
macro "len" : tactic => `(tactic| first
  | omega
  | grind
  | (simp only [afterConsume_rest, List.getElem?_tail, List.length_tail, Nat.reduceAdd] at *
     grind))

/-- closes the leaves of `scanPunctuator_tok` -/
macro "punc_leaf" : tactic => `(tactic|
  first
  | exact error_sat (by assumption) _
  | (refine punc_tok (by rfl) (by assumption) ?_ (by assumption); omega)
  | (refine punc1_tok (by rfl) (by assumption) ?_ (by assumption); len)
  | (refine punc2_tok (by rfl) (by assumption) ?_ (by assumption); len))

theorem scanPunctuator_tok (h : Pos L s) : Tokenises L scanPunctuator s := by
  unfold scanPunctuator Tokenises
  refine peek2_bind ?_
  cases hr : s.rest with
  | nil => exact error_sat h _
  | cons c r =>
    have m0 := Moved.zero s
    have hl : 1 ≤ s.rest.length := by simp [hr]
    simp only [List.getElem?_cons_zero, List.getElem?_cons_succ]
    refine Sat.ite (fun hc => ?_) (fun hc0 => ?_)
    · refine Sat.bind (P := fun _ s' => Moved 0 s s' ∧ 1 ≤ s'.rest.length)
        (Sat.modify ⟨m0.same rfl rfl rfl rfl rfl rfl, hl⟩) ?_
      rintro _ s' ⟨m, hl'⟩
      punc_leaf
    refine Sat.ite (fun hc => ?_) (fun hc1 => ?_)
    · refine Sat.bind (P := fun _ s' => Moved 0 s s' ∧ 1 ≤ s'.rest.length)
        (Sat.modify ⟨m0.same rfl rfl rfl rfl rfl rfl, hl⟩) ?_
      rintro _ s' ⟨m, hl'⟩
      punc_leaf
    refine Sat.ite (fun hc => ?_) (fun hc2 => ?_)
    · obtain ⟨p, hp⟩ := ofStr_single hc
      exact punc1_tok hp h hl m0
    refine Sat.ite (fun hc => ?_) (fun hc3 => ?_)
    · refine consume_tok m0 hl (fun m1 => peek2_bind ?_)
      dsimp only
      refine Sat.ite (fun hq => Sat.ite (fun _ => ?_) (fun _ => ?_)) (fun _ => Sat.ite (fun _ => ?_) (fun _ => ?_))
      all_goals punc_leaf
    refine Sat.ite (fun hc => ?_) (fun hc4 => ?_)
    · have : 2 ≤ s.rest.length := by cases r <;> simp_all
      refine Sat.ite (fun _ => ?_) (fun _ => Sat.ite (fun _ => ?_) (fun _ => ?_))
      all_goals punc_leaf
    refine Sat.ite (fun hc => ?_) (fun hc5 => ?_)
    · have : 2 ≤ s.rest.length := by cases r <;> simp_all
      refine Sat.ite (fun _ => ?_) (fun _ => Sat.ite (fun _ => ?_) (fun _ => ?_))
      all_goals punc_leaf
    refine Sat.ite (fun hc => ?_) (fun hc6 => ?_)
    · have : 2 ≤ s.rest.length := by cases r <;> simp_all
      refine Sat.ite (fun _ => ?_) (fun _ => Sat.ite (fun _ => ?_) (fun _ => ?_))
      all_goals punc_leaf
    refine Sat.ite (fun hc => ?_) (fun hc7 => ?_)
    · have : 2 ≤ s.rest.length := by cases r <;> simp_all
      refine Sat.ite (fun _ => ?_) (fun _ => Sat.ite (fun _ => ?_) (fun _ => ?_))
      all_goals punc_leaf
    refine Sat.ite (fun hc => ?_) (fun hc8 => ?_)
    · have : 2 ≤ s.rest.length := by cases r <;> simp_all
      refine Sat.ite (fun _ => ?_) (fun _ => ?_)
      all_goals punc_leaf
    refine Sat.ite (fun hc => ?_) (fun hc9 => ?_)
    · have : 2 ≤ s.rest.length := by cases r <;> simp_all
      refine Sat.ite (fun _ => ?_) (fun _ => ?_)
      all_goals punc_leaf
    refine Sat.ite (fun hc => ?_) (fun hc10 => ?_)
    · refine consume_tok m0 hl (fun m1 => peek2_bind ?_)
      dsimp only
      refine Sat.ite (fun _ => ?_) (fun _ => ?_)
      all_goals punc_leaf
    refine Sat.ite (fun hc => ?_) (fun hc11 => ?_)
    · refine consume_tok m0 hl (fun m1 => peek2_bind ?_)
      dsimp only
      refine Sat.ite (fun _ => ?_) (fun _ => Sat.ite (fun _ => ?_) (fun _ => Sat.ite (fun _ => ?_) (fun _ => ?_)))
      all_goals punc_leaf
    refine Sat.ite (fun hc => ?_) (fun hc12 => ?_)
    · refine consume_tok m0 hl (fun m1 => peek2_bind ?_)
      dsimp only
      refine Sat.ite (fun _ => ?_) (fun _ => Sat.ite (fun _ => ?_) (fun _ => ?_))
      all_goals punc_leaf
    refine Sat.ite (fun hc => ?_) (fun hc13 => ?_)
    · refine consume_tok m0 hl (fun m1 => peek2_bind ?_)
      dsimp only
      refine Sat.ite (fun _ => ?_) (fun _ => Sat.ite (fun _ => ?_) (fun _ => Sat.ite (fun _ => ?_) (fun _ => ?_)))
      all_goals punc_leaf
    refine Sat.ite (fun hc => ?_) (fun hc14 => ?_)
    · refine consume_tok m0 hl (fun m1 => peek2_bind ?_)
      dsimp only
      refine Sat.ite (fun _ => ?_) (fun _ => Sat.ite (fun _ => ?_) (fun _ => Sat.ite (fun _ => ?_) (fun _ => ?_)))
      all_goals punc_leaf
    refine Sat.ite (fun hc => ?_) (fun hc15 => ?_)
    · refine consume_tok m0 hl (fun m1 => peek2_bind ?_)
      dsimp only
      refine Sat.ite (fun _ => ?_) (fun _ => Sat.ite (fun hq => ?_) (fun _ => Sat.ite (fun _ => ?_) (fun _ => ?_)))
      · punc_leaf
      · refine consume_tok m1 (by len) (fun m2 => peek2_bind ?_)
        dsimp only
        refine Sat.ite (fun _ => ?_) (fun _ => ?_)
        all_goals punc_leaf
      all_goals punc_leaf
    · exact error_sat h _

theorem scanDivPunctuator_tok (h : Pos L s) : Tokenises L scanDivPunctuator s := by
  unfold scanDivPunctuator Tokenises
  refine peek2_bind ?_
  have m0 := Moved.zero s
  dsimp only
  refine Sat.ite (fun _ => ?_) (fun _ => Sat.ite (fun _ => ?_) (fun _ => ?_))
  all_goals punc_leaf

/-! ### Trivia -/

theorem singleLineLoop_reads (n : Nat) (hn : s.rest.length < n) :
    Reads L (singleLineLoop n) s (fun _ _ => True) := by
  induction n generalizing s with
  | zero => omega
  | succ n ih =>
    unfold singleLineLoop
    refine Reads.bind peek_reads ?_
    rintro a k hk ⟨rfl, rfl⟩
    cases hr : s.rest with
    | nil => exact Reads.pure trivial
    | cons c r =>
      simp only [List.head?_cons]
      refine Reads.ite (fun _ => Reads.pure trivial) (fun hp => ?_)
      refine Reads.bind (consume_reads (by simp [hr])) ?_
      rintro _ k1 _ ⟨_, rfl⟩
      exact ih (by simp [hr] at *; omega)

theorem multiLineLoop_reads (n : Nat) (hn : s.rest.length < n) :
    Reads L (multiLineLoop n) s (fun _ _ => True) := by
  induction n generalizing s with
  | zero => omega
  | succ n ih =>
    unfold multiLineLoop
    refine Reads.bind peek2_reads ?_
    rintro a k hk ⟨rfl, rfl⟩
    rcases hr : s.rest with _ | ⟨c, r⟩
    · exact Reads.pure trivial
    · simp only [List.getElem?_cons_zero, List.getElem?_cons_succ]
      refine Reads.ite (fun hc => ?_) (fun hp => ?_)
      · refine Reads.bind (consume_reads (by simp [hr])) ?_
        rintro _ k1 _ ⟨_, rfl⟩
        refine Reads.bind (consume_reads ?_) ?_
        · cases r <;> simp_all
        rintro _ k2 _ ⟨_, rfl⟩
        exact Reads.pure trivial
      refine Reads.bind (consume_reads (by simp [hr])) ?_
      rintro _ k1 _ ⟨_, rfl⟩
      exact ih (by simp [hr] at *; omega)

theorem scanCommentsF_reads (n : Nat) (hn : s.rest.length < n) :
    Reads L (scanCommentsF n) s (fun _ _ => True) := by
  induction n generalizing s with
  | zero => omega
  | succ n ih =>
    unfold scanCommentsF
    refine Reads.bind peek2_reads ?_
    rintro a k hk ⟨rfl, rfl⟩
    rcases hr : s.rest with _ | ⟨c, r⟩
    · exact Reads.pure trivial
    · have hne : (afterN 0 s).rest ≠ [] := by simp [hr]
      simp only [List.getElem?_cons_zero, List.getElem?_cons_succ]
      refine Reads.ite (fun hc => ?_) (fun _ => ?_)
      · refine Reads.bind (consume_reads hne) ?_
        rintro _ k1 _ ⟨_, rfl⟩
        exact ih (by simp [hr] at *; omega)
      refine Reads.ite (fun hc => ?_) (fun _ => ?_)
      · refine Reads.bind (consume_reads hne) ?_
        rintro _ k1 _ ⟨_, rfl⟩
        refine Reads.bind (consume_reads (by cases r <;> simp_all)) ?_
        rintro _ k1 _ ⟨_, rfl⟩
        exact ih (by simp [hr] at *; omega)
      refine Reads.ite (fun hc => ?_) (fun _ => ?_)
      · refine Reads.bind (consume_reads hne) ?_
        rintro _ k1 _ ⟨_, rfl⟩
        exact ih (by simp [hr] at *; omega)
      refine Reads.ite (fun hc => ?_) (fun _ => ?_)
      · refine Reads.bind (P := fun _ k => 2 ≤ k) ?_ ?_
        · unfold scanSinglelineComment
          refine Reads.bind (consume_reads hne) ?_
          rintro _ k1 _ ⟨_, rfl⟩
          refine Reads.bind (consume_reads (by cases r <;> simp_all)) ?_
          rintro _ k2 _ ⟨_, rfl⟩
          exact (singleLineLoop_reads _ (Nat.lt_succ_self _)).mono (by intros; omega)
        rintro _ k1 hk1 h2
        exact ih (by simp [hr] at *; omega)
      refine Reads.ite (fun hc => ?_) (fun _ => Reads.pure trivial)
      · refine Reads.bind (P := fun _ k => 2 ≤ k) ?_ ?_
        · unfold scanMultilineComment
          refine Reads.bind (consume_reads hne) ?_
          rintro _ k1 _ ⟨_, rfl⟩
          refine Reads.bind (consume_reads (by cases r <;> simp_all)) ?_
          rintro _ k2 _ ⟨_, rfl⟩
          exact (multiLineLoop_reads _ (Nat.lt_succ_self _)).mono (by intros; omega)
        rintro _ k1 hk1 h2
        exact ih (by simp [hr] at *; omega)

theorem scanComments_reads : Reads L scanComments s (fun _ _ => True) :=
  scanCommentsF_reads _ (Nat.lt_succ_self _)

/-! ### `next` -/

/-- What `scanToken` returns: end of input, or a token of at least one character. -/
def ScanPost (L : Nat) (s : Scanner) (t : Token) (s' : Scanner) : Prop :=
  TokOk L t ∧ t.lineNum = s'.line ∧ t.start = s'.start ∧
  t.«end» = (if s'.current = 0 then Env.usizeMax else s'.current - 1) ∧
  ((t.tokentype = .eof ∧ s.rest = [] ∧ Moved 0 s s') ∨ (t.tokentype ≠ .eof ∧ ∃ k, 1 ≤ k ∧ Moved k s s'))

theorem Tokenises.post {m : SM Token} (h : Tokenises L m s) : Sat (ScanFail L) m s (ScanPost L s) :=
  Sat.mono h (by rintro t s' ⟨h1, h2, h3, h4, h5, h6⟩; exact ⟨h1, h3, h4, h5, Or.inr ⟨h2, h6⟩⟩)

theorem scanToken_sat (h : Pos L s) (goal : LexGoal) : Sat (ScanFail L) (scanToken goal) s (ScanPost L s) := by
  cases hr : s.rest with
  | nil =>
    have e : scanToken goal s = tokenSimple .eof .null s := by unfold scanToken; rw [hr]
    unfold Sat
    rw [e]
    refine (tokenSimple_sat (L := L) (s := s) .eof .null).mono ?_
    rintro t _ ⟨rfl, rfl⟩
    refine ⟨mkTok_ok h (by simp [TokShape, mkTok]), rfl, rfl, rfl, Or.inl ⟨by simp [mkTok], hr, Moved.zero _⟩⟩
  | cons c r =>
    have e : ∀ m : SM Token, scanToken goal s = m s → Sat (ScanFail L) m s (ScanPost L s) →
        Sat (ScanFail L) (scanToken goal) s (ScanPost L s) := by
      intro m hm hs; unfold Sat at *; rw [hm]; exact hs
    by_cases h1 : isIdentifierStart c
    · exact e scanIdentifier (by unfold scanToken; rw [hr]; dsimp only; rw [if_pos h1]) (scanIdentifier_tok h).post
    by_cases h2 : c = '"' ∨ c = '\''
    · exact e scanStringLiteral (by unfold scanToken; rw [hr]; dsimp only; rw [if_neg h1, if_pos h2]) (scanStringLiteral_tok h).post
    by_cases h3 : c = '.' ∧ r.head?.any isDecimalDigit
    · exact e scanNumericLiteral (by unfold scanToken; rw [hr]; dsimp only; rw [if_neg h1, if_neg h2, if_pos h3]) (scanNumericLiteral_tok h).post
    by_cases h4 : isDecimalDigit c
    · exact e scanNumericLiteral (by unfold scanToken; rw [hr]; dsimp only; rw [if_neg h1, if_neg h2, if_neg h3, if_pos h4]) (scanNumericLiteral_tok h).post
    by_cases h5 : c = '`'
    · exact e scanTemplate (by unfold scanToken; rw [hr]; dsimp only; rw [if_neg h1, if_neg h2, if_neg h3, if_neg h4, if_pos h5]) (scanTemplateChunk_tok h _ _).post
    by_cases h6 : c = '}' ∧ s.curly.head? = some .template
    · have h' : Pos L { s with curly := s.curly.tail } := h
      refine e (fun s => scanTemplateSubstitutionTail { s with curly := s.curly.tail })
        (by unfold scanToken; rw [hr]; dsimp only; rw [if_neg h1, if_neg h2, if_neg h3, if_neg h4, if_neg h5, if_pos h6]) ?_
      refine Sat.mono (s := s) (m := fun _ => scanTemplateSubstitutionTail { s with curly := s.curly.tail })
        (scanTemplateChunk_tok h' '}' false).post ?_
      rintro t s' ⟨h1, h2, h3, h4, h5⟩
      refine ⟨h1, h2, h3, h4, ?_⟩
      rcases h5 with ⟨a, b, c⟩ | ⟨a, k, hk, m⟩
      · exact Or.inl ⟨a, b, ⟨c.le, c.rest, c.current, c.start, c.line, c.mono, c.unscanned, c.state⟩⟩
      · exact Or.inr ⟨a, k, hk, ⟨m.le, m.rest, m.current, m.start, m.line, m.mono, m.unscanned, m.state⟩⟩
    by_cases h7 : c = '/' ∧ goal = .div
    · exact e scanDivPunctuator (by unfold scanToken; rw [hr]; dsimp only; rw [if_neg h1, if_neg h2, if_neg h3, if_neg h4, if_neg h5, if_neg h6, if_pos h7]) (scanDivPunctuator_tok h).post
    by_cases h8 : c = '/' ∧ goal = .regExp
    · exact e scanRegexpLiteral (by unfold scanToken; rw [hr]; dsimp only; rw [if_neg h1, if_neg h2, if_neg h3, if_neg h4, if_neg h5, if_neg h6, if_neg h7, if_pos h8]) (scanRegexpLiteral_tok h).post
    · exact e scanPunctuator (by unfold scanToken; rw [hr]; dsimp only; rw [if_neg h1, if_neg h2, if_neg h3, if_neg h4, if_neg h5, if_neg h6, if_neg h7, if_neg h8]) (scanPunctuator_tok h).post

/-- `next` without a pushed-back token: trivia, then a token that starts where the trivia ends. -/
theorem scanFresh_sat (h : Pos L s) (goal : LexGoal) :
    Sat (ScanFail L) (scanFresh goal) s (fun t s' =>
      TokOk L t ∧ t.lineNum = s'.line ∧ s.line ≤ s'.line ∧
      s'.line + lineBreaks s'.rest = s.line + lineBreaks s.rest ∧
      s'.unscanned = s.unscanned ∧ s'.state = s.state ∧
      ∃ w k, w + k ≤ s.rest.length ∧ s'.rest = s.rest.drop (w + k) ∧ s'.current = s.current + w + k ∧
        t.start = s.current + w ∧
        t.«end» = (if s'.current = 0 then Env.usizeMax else s'.current - 1) ∧
        ((t.tokentype = .eof ∧ s'.rest = [] ∧ k = 0) ∨ (t.tokentype ≠ .eof ∧ 1 ≤ k))) := by
  unfold scanFresh
  refine Sat.bind (P := fun _ s' => Moved 0 s s') (Sat.modify ((Moved.zero s).same rfl rfl rfl rfl rfl rfl)) ?_
  rintro _ s1 m1
  refine Sat.bind scanComments_reads ?_
  rintro _ _ ⟨w, hw, rfl, _⟩
  have m2 := m1.trans (Moved.afterN hw)
  refine Sat.bind (P := fun _ s' => s' = { afterN w s1 with col := 1, start := (afterN w s1).current }) rfl ?_
  rintro _ s2 rfl
  have hp : Pos L (afterN w s1) := m2.pos h
  refine (scanToken_sat (s := { afterN w s1 with col := 1, start := (afterN w s1).current }) hp goal).mono ?_
  rintro t s' ⟨h1, h2, h3, h4, h5⟩
  have hc := m2.current
  have hr := m2.rest
  have hle := m2.le
  have hline := m2.line
  have hmono := m2.mono
  rcases h5 with ⟨a, b, m⟩ | ⟨a, k, hk, m⟩
  · refine ⟨h1, h2, Nat.le_trans hmono m.mono, by rw [m.line]; exact hline, by rw [m.unscanned]; exact m2.unscanned,
      by rw [m.state]; exact m2.state, w, 0, by omega, ?_, ?_, ?_, h4, Or.inl ⟨a, ?_, rfl⟩⟩
    · rw [m.rest]; simp only [hr, List.drop_zero, Nat.add_zero, Nat.zero_add]
    · rw [m.current]; simp only [hc]; omega
    · rw [h3, m.start]; simp only [hc]; omega
    · rw [m.rest, List.drop_zero]; exact b
  · have hl := m.le
    simp only [hr, List.length_drop] at hl
    refine ⟨h1, h2, Nat.le_trans hmono m.mono, by rw [m.line]; exact hline, by rw [m.unscanned]; exact m2.unscanned,
      by rw [m.state]; exact m2.state, w, k, by omega, ?_, ?_, ?_, h4, Or.inr ⟨a, hk⟩⟩
    · rw [m.rest]; simp only [hr, List.drop_drop, Nat.zero_add]
    · rw [m.current]; simp only [hc]; omega
    · rw [h3, m.start]; simp only [hc]; omega

end Scanner
end Giron

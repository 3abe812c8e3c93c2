import Verif.Proofs.Lex.Eats
/-
Trivia.
-/
namespace Giron
open M Spec
namespace Scanner
variable {s : Scanner}

theorem bind_consume {β : Type} {c : Char} {r : Str} {f : Option Char → SM β} (h : s.rest = c :: r) :
    (consume >>= f) s = f (some c) (afterConsume s) := M.bind_ok (consume_cons h)

theorem bind_peek2 {β : Type} {f : Option Char × Option Char → SM β} :
    (peek2 >>= f) s = f (s.rest[0]?, s.rest[1]?) s := M.bind_ok (peek2_eq s)

theorem bind_peek {β : Type} {f : Option Char → SM β} : (peek >>= f) s = f s.rest.head? s := M.bind_ok (peek_eq s)

theorem rest_afterConsume {c : Char} {r : Str} (h : s.rest = c :: r) : (afterConsume s).rest = r := by simp [h]

theorem singleLineLoop_eq {body r : Str} {n : Nat} (h : s.rest = body ++ r)
    (hr : Run (fun c => !isLineTerminator c) body r) (hn : body.length < n) :
    singleLineLoop n s = .ok ((), afterN body.length s) := by
  induction body generalizing s n with
  | nil =>
    cases n with
    | zero => simp at hn
    | succ n =>
      unfold singleLineLoop
      rw [bind_peek]
      simp only [List.nil_append] at h
      cases hc : s.rest.head? with
      | none => rfl
      | some c =>
        have := hr.2 c (by rw [← h, hc])
        simp only at this ⊢
        rw [if_pos (by simpa using this)]; rfl
  | cons c body ih =>
    cases n with
    | zero => simp at hn
    | succ n =>
      unfold singleLineLoop
      rw [bind_peek, h]
      simp only [List.cons_append, List.head?_cons]
      have hc : isLineTerminator c = false := by simpa using hr.1 c (by simp)
      rw [if_neg (by simp [hc]), bind_consume h]
      rw [ih (by simp [h]) ⟨fun d hd => hr.1 d (by simp [hd]), hr.2⟩ (by simpa using hn)]
      rfl

theorem noClose_tail {c : Char} {x : Str} (h : NoClose (c :: x)) : NoClose x :=
  fun a b he => h (c :: a) b (by rw [he]; rfl)

theorem noClose_nil : NoClose [] := by
  intro a b h; simp at h

theorem multiLineLoop_eq {body r : Str} {n : Nat} (h : s.rest = body ++ '*' :: '/' :: r) (hb : NoClose body)
    (hn : body.length < n) : multiLineLoop n s = .ok ((), afterN (body.length + 2) s) := by
  induction body generalizing s n with
  | nil =>
    cases n with
    | zero => simp at hn
    | succ n =>
      unfold multiLineLoop
      simp only [List.nil_append] at h
      rw [bind_peek2, h]
      simp only [List.getElem?_cons_zero, List.getElem?_cons_succ, and_self, if_true]
      rw [bind_consume h, bind_consume (rest_afterConsume h)]
      rfl
  | cons c body ih =>
    cases n with
    | zero => simp at hn
    | succ n =>
      unfold multiLineLoop
      simp only [List.cons_append] at h
      rw [bind_peek2, h]
      simp only [List.getElem?_cons_zero, List.getElem?_cons_succ]
      have hc : ¬ (c = '*' ∧ (body ++ '*' :: '/' :: r)[0]? = some '/') := by
        rintro ⟨rfl, h0⟩
        cases body with
        | nil => simp at h0
        | cons d body =>
          simp at h0
          subst h0
          exact hb [] body rfl
      rw [if_neg hc, bind_consume h]
      rw [ih (by simp [h]) (noClose_tail hb) (by simpa using hn)]
      rfl

theorem multiLineLoop_open {n : Nat} (hb : NoClose s.rest) (hn : s.rest.length < n) :
    multiLineLoop n s = .ok ((), afterN s.rest.length s) := by
  generalize hl : s.rest = body at *
  induction body generalizing s n with
  | nil =>
    cases n with
    | zero => simp at hn
    | succ n =>
      unfold multiLineLoop
      rw [bind_peek2, hl]
      rfl
  | cons c body ih =>
    cases n with
    | zero => simp at hn
    | succ n =>
      unfold multiLineLoop
      rw [bind_peek2, hl]
      simp only [List.getElem?_cons_zero, List.getElem?_cons_succ]
      have hc : ¬ (c = '*' ∧ body[0]? = some '/') := by
        rintro ⟨rfl, h0⟩
        cases body with
        | nil => simp at h0
        | cons d body =>
          simp at h0
          subst h0
          exact hb [] body rfl
      rw [if_neg hc, bind_consume hl]
      rw [ih (by simp [hl]) (noClose_tail hb) (by simpa using hn)]
      rfl

theorem slash_not_blank : charIsWhitespace '/' = false ∧ isLineTerminator '/' = false := by decide

theorem scanCommentsF_eq {w r : Str} (ht : Trivia w r) (hr : ¬ StartsTrivia r) {n : Nat} (h : s.rest = w ++ r)
    (hn : w.length < n) : scanCommentsF n s = .ok ((), afterN w.length s) := by
  induction ht generalizing s n with
  | @done r =>
    cases n with
    | zero => simp at hn
    | succ n =>
      unfold scanCommentsF
      rw [bind_peek2]
      simp only [List.nil_append] at h
      cases hc : s.rest with
      | nil => rfl
      | cons c x =>
        simp only [List.getElem?_cons_zero, List.getElem?_cons_succ]
        rw [hc] at h
        have hb : isBlank c = false := by
          cases hb : isBlank c with
          | false => rfl
          | true => exact absurd (Or.inl ⟨c, x, h.symm, hb⟩) hr
        simp only [isBlank, Bool.or_eq_false_iff] at hb
        have h1 : ¬ (c = '/' ∧ x[0]? = some '/') := by
          rintro ⟨rfl, h0⟩
          cases x with
          | nil => simp at h0
          | cons d x =>
            simp at h0; subst h0
            exact hr (Or.inr (Or.inl ⟨x, h.symm⟩))
        have h2 : ¬ (c = '/' ∧ x[0]? = some '*') := by
          rintro ⟨rfl, h0⟩
          cases x with
          | nil => simp at h0
          | cons d x =>
            simp at h0; subst h0
            exact hr (Or.inr (Or.inr ⟨x, h.symm⟩))
        have h3 : ¬ (c = '\r' ∧ x[0]? = some '\n') := by
          rintro ⟨rfl, _⟩; simp [isLineTerminator] at hb
        rw [if_neg (by simp [hb]), if_neg h3, if_neg (by simp [hb]), if_neg h1, if_neg h2]
        rfl
  | @blank c w r hb _ ih =>
    cases n with
    | zero => simp at hn
    | succ n =>
      unfold scanCommentsF
      simp only [List.cons_append] at h
      rw [bind_peek2, h]
      simp only [List.getElem?_cons_zero, List.getElem?_cons_succ]
      have key : (do let _ ← consume; scanCommentsF n : SM Unit) s = .ok ((), afterN (c :: w).length s) := by
        rw [bind_consume h, ih hr (rest_afterConsume h) (by simpa using hn)]; rfl
      by_cases h1 : charIsWhitespace c = true
      · rw [if_pos h1]; exact key
      rw [if_neg h1]
      have h2 : isLineTerminator c = true := by simpa [isBlank, h1] using hb
      by_cases h3 : c = '\r' ∧ (w ++ r)[0]? = some '\n'
      · exact absurd (by rw [h3.1]; decide) h1
      rw [if_neg h3, if_pos h2]; exact key
  | @line body w r hrun _ ih =>
    cases n with
    | zero => simp at hn
    | succ n =>
      unfold scanCommentsF
      simp only [List.cons_append] at h
      rw [bind_peek2, h]
      simp only [List.getElem?_cons_zero, List.getElem?_cons_succ, slash_not_blank]
      rw [if_neg (by simp), if_neg (by simp), if_neg (by simp), if_pos (by simp)]
      have h1 : scanSinglelineComment s = .ok ((), afterN (body.length + 2) s) := by
        unfold scanSinglelineComment
        have h2 := rest_afterConsume h
        have h3 := rest_afterConsume h2
        refine (bind_consume h).trans ((bind_consume h2).trans ?_)
        show singleLineLoop _ _ = _
        rw [singleLineLoop_eq (body := body) (r := w ++ r) (by rw [h3]; simp) hrun (by rw [h3]; simp; omega)]
        rfl
      rw [M.bind_ok h1, ih hr (by simp [h]) (by simp at hn; omega), ← afterN_add]
      congr 3
      simp; omega
  | @block body w r hb _ ih =>
    cases n with
    | zero => simp at hn
    | succ n =>
      unfold scanCommentsF
      simp only [List.cons_append] at h
      rw [bind_peek2, h]
      simp only [List.getElem?_cons_zero, List.getElem?_cons_succ, slash_not_blank]
      rw [if_neg (by simp), if_neg (by simp), if_neg (by simp), if_neg (by simp), if_pos (by simp)]
      have h1 : scanMultilineComment s = .ok ((), afterN (body.length + 4) s) := by
        unfold scanMultilineComment
        have h2 := rest_afterConsume h
        have h3 := rest_afterConsume h2
        refine (bind_consume h).trans ((bind_consume h2).trans ?_)
        show multiLineLoop _ _ = _
        rw [multiLineLoop_eq (body := body) (r := w ++ r) (by rw [h3]; simp) hb (by rw [h3]; simp; omega)]
        rfl
      have hd : (afterN (body.length + 4) s).rest = w ++ r := by
        rw [afterN_rest, h]
        have : body.length + 4 = (('/' :: '*' :: (body ++ ['*', '/'])) : Str).length := by simp
        rw [this]
        have e : '/' :: '*' :: (body ++ '*' :: '/' :: w ++ r) = ('/' :: '*' :: (body ++ ['*', '/'])) ++ (w ++ r) := by simp
        rw [e, List.drop_left]
      rw [M.bind_ok h1, ih hr hd (by simp at hn; omega), ← afterN_add]
      congr 3
      simp; omega
  | @openBlock body hb =>
    cases n with
    | zero => simp at hn
    | succ n =>
      unfold scanCommentsF
      simp only [List.cons_append] at h
      rw [bind_peek2, h]
      simp only [List.append_nil, List.getElem?_cons_zero, List.getElem?_cons_succ, slash_not_blank]
      rw [if_neg (by simp), if_neg (by simp), if_neg (by simp), if_neg (by simp), if_pos (by simp)]
      have h1 : scanMultilineComment s = .ok ((), afterN (body.length + 2) s) := by
        unfold scanMultilineComment
        have h2 := rest_afterConsume h
        have h3 := rest_afterConsume h2
        refine (bind_consume h).trans ((bind_consume h2).trans ?_)
        show multiLineLoop _ _ = _
        simp only [List.append_nil] at h3
        rw [multiLineLoop_open (by rw [h3]; exact hb) (by simp), h3]
        rfl
      rw [M.bind_ok h1]
      cases n with
      | zero => simp at hn
      | succ n =>
        unfold scanCommentsF
        rw [bind_peek2]
        have : (afterN (body.length + 2) s).rest = [] := by simp [h]
        rw [this]; rfl

/-- Every text begins with a maximal trivia run. -/
theorem exists_trivia (text : Str) : ∃ w r, text = w ++ r ∧ Trivia w r ∧ ¬ StartsTrivia r := by
  generalize hn : text.length = n
  induction n using Nat.strongRecOn generalizing text with
  | _ n ih =>
    by_cases hs : StartsTrivia text
    · rcases hs with ⟨c, x, rfl, hb⟩ | ⟨x, rfl⟩ | ⟨x, rfl⟩
      · obtain ⟨w, r, rfl, ht, hr⟩ := ih x.length (by simp at hn; omega) x rfl
        exact ⟨c :: w, r, rfl, .blank hb ht, hr⟩
      · have hrun := run_takeWhile (fun c => !isLineTerminator c) x
        have hx : x.takeWhile (fun c => !isLineTerminator c) ++ x.dropWhile (fun c => !isLineTerminator c) = x := by simp
        have hl : (x.dropWhile (fun c => !isLineTerminator c)).length ≤ x.length := by
          have := congrArg List.length hx; simp only [List.length_append] at this; omega
        obtain ⟨w, r, he, ht, hr⟩ := ih _ (by simp at hn; omega) (x.dropWhile (fun c => !isLineTerminator c)) rfl
        refine ⟨'/' :: '/' :: (x.takeWhile (fun c => !isLineTerminator c) ++ w), r, ?_, .line ?_ ht, hr⟩
        · simp only [List.cons_append, List.append_assoc, ← he, hx]
        · rw [← he]; exact hrun
      · by_cases hc : NoClose x
        · refine ⟨'/' :: '*' :: x, [], by simp, .openBlock hc, ?_⟩
          rintro (⟨c, y, h, _⟩ | ⟨y, h⟩ | ⟨y, h⟩) <;> simp at h
        · -- the first occurrence of the closing delimiter
          have : ∃ a b, x = a ++ '*' :: '/' :: b ∧ NoClose a := by
            clear ih hn
            induction x with
            | nil => exact absurd noClose_nil hc
            | cons c x ihx =>
              by_cases h0 : ∃ b, c :: x = '*' :: '/' :: b
              · obtain ⟨b, hb⟩ := h0
                exact ⟨[], b, by simpa using hb, noClose_nil⟩
              · have hc' : ¬ NoClose x := by
                  intro hx
                  apply hc
                  intro a b he
                  cases a with
                  | nil => exact h0 ⟨b, by simpa using he⟩
                  | cons d a =>
                    simp at he
                    exact hx a b he.2
                obtain ⟨a, b, rfl, ha⟩ := ihx hc'
                refine ⟨c :: a, b, rfl, ?_⟩
                intro p q hpq
                cases p with
                | nil =>
                  simp at hpq
                  obtain ⟨rfl, rfl⟩ := hpq
                  exact h0 ⟨_, rfl⟩
                | cons d p =>
                  simp at hpq
                  exact ha p q hpq.2
          obtain ⟨a, b, rfl, ha⟩ := this
          obtain ⟨w, r, rfl, ht, hr⟩ := ih b.length (by simp at hn; omega) b rfl
          exact ⟨'/' :: '*' :: (a ++ '*' :: '/' :: w), r, by simp, .block ha ht, hr⟩
    · exact ⟨[], text, rfl, .done, hs⟩

theorem scanComments_eq {w r : Str} (ht : Trivia w r) (hr : ¬ StartsTrivia r) (h : s.rest = w ++ r) :
    scanComments s = .ok ((), afterN w.length s) :=
  scanCommentsF_eq ht hr h (by simp [h]; omega)

/-- the maximal trivia run is unique -/
theorem trivia_unique {w r w' r' : Str} (ht : Trivia w r) (hr : ¬ StartsTrivia r) (ht' : Trivia w' r')
    (hr' : ¬ StartsTrivia r') (h : w ++ r = w' ++ r') : w = w' ∧ r = r' := by
  let s : Scanner := Scanner.new (w ++ r)
  have h1 := scanComments_eq (s := s) ht hr rfl
  have h2 := scanComments_eq (s := s) ht' hr' h
  rw [h1] at h2
  have h3 : w.length = w'.length := by
    have := congrArg (fun e : Except Fail (Unit × Scanner) => match e with | .ok p => p.2.current | _ => 0) h2
    simpa [s, Scanner.new] using this
  exact List.append_inj h h3

end Scanner
end Giron

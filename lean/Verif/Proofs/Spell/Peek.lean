import Verif.Proofs.Spell.Class
/-
Looking at the next token: it is then the next one.
-/
namespace Giron
open M Spec Spec.Lang
namespace Parser
variable [Env] {α β : Type} {c : Content} {R : β → List Mark → Content → Prop} {r : Rec}

/-- `Reads` when the next token has been looked at and is `t`. -/
def ReadsPeeked (c : Content) (t : Token) (m : PM α) (Q : α → List Mark → Content → Prop) : Prop :=
  ∀ s past n text a s', Stands s past ⟨c, n⟩ text → s.scanner.unscanned = some t → m s = .ok (a, s') →
    ∃ ms past' w' text', Stands s' past' w' text' ∧ Passes past ⟨c, n⟩ text ms past' w' text' ∧ Q a ms w'.c

theorem Reads.peeked {m : PM α} {Q : α → List Mark → Content → Prop} {t : Token} (h : Reads c m Q) : ReadsPeeked c t m Q :=
  fun s past n text a s' hs _ hm => h s past n text a s' hs hm

theorem ReadsPeeked.ite {m m' : PM α} {Q : α → List Mark → Content → Prop} {t : Token} {p : Prop} [Decidable p]
    (h : p → ReadsPeeked c t m Q) (h' : ¬ p → ReadsPeeked c t m' Q) : ReadsPeeked c t (if p then m else m') Q := by
  by_cases hp : p
  · rw [if_pos hp]; exact h hp
  · rw [if_neg hp]; exact h' hp

theorem ReadsPeeked.quiet {m : PM α} {k : α → PM β} {t : Token} [hq : Quiet m] (hk : ∀ a, ReadsPeeked c t (k a) R) :
    ReadsPeeked c t (m >>= k) R := by
  intro s past n text b s'' hs hu hm
  obtain ⟨a, s1, h1, h2⟩ := bind_ok_inv hm
  obtain ⟨e1, e2, e3⟩ := hq.out _ _ _ h1
  exact hk a _ _ _ _ _ _ (hs.of_eq e1 e2 e3) (by rw [e2]; exact hu) h2

theorem ReadsPeeked.advance {g : LexGoal} {k : Token → PM β} {t : Token}
    (h : ∀ t0 c', IsTok t0 c → IsTok t c' → Reads c' (k t0) fun b ws c'' => R b (c :: ws) c'')
    (hc : c ≠ .eof := by first | assumption | exact (fun h => nomatch h)) :
    ReadsPeeked c t (Parser.advance g >>= k) R := by
  intro s past n text b s'' hs hu hm
  obtain ⟨a, s1, h1, h2⟩ := bind_ok_inv hm
  unfold Parser.advance at h1
  split at h1
  · next t' sc hn =>
    cases h1
    obtain ⟨⟨c', n'⟩, text', k1, k2, k3⟩ := Reads.next_stands hs hn
    have ht : t' = t := by
      unfold Scanner.next at hn
      rw [hu] at hn
      cases hn; rfl
    subst ht
    obtain ⟨ws, p2, c2, t2, l1, l2, l3⟩ := h s.current c' hs.cur k1 _ _ _ _ b s'' k3 h2
    exact ⟨_, _, _, _, l1, .step hc k2 l2, l3⟩
  · cases h1

theorem Reads.peek {k : Token → PM β} (hc : ∃ v ∈ lookWords, c = .name v)
    (h : ∀ t c', IsTok t c' → ReadsPeeked c t (k t) R) : Reads c (peekToken >>= k) R := by
  intro s past n text b s'' hs hm
  obtain ⟨t, s1, h1, h2⟩ := bind_ok_inv hm
  unfold peekToken at h1
  obtain ⟨_, s2, h3, h1⟩ := bind_ok_inv h1
  obtain ⟨t', s3, h4, h1⟩ := bind_ok_inv h1
  obtain ⟨_, s4, h5, h1⟩ := bind_ok_inv h1
  cases h1
  cases h3
  unfold liftScanner at h4 h5
  split at h4
  · next t' sc hn =>
    cases h4
    obtain ⟨w', text', k1, k2, k3, k4, k5, k6, k7, _⟩ := Reads.next_tok (past := past) (w := ⟨c, n⟩) (text := text)
      (s := { s with scanner := { s.scanner with state := some (ScannerState.mk s.scanner.start s.scanner.current
        s.scanner.line s.scanner.col s.scanner.newline s.scanner.rawString s.scanner.curly) } })
      ⟨hs.cur, hs.fresh, hs.text, hs.yes, hs.no, hs.base, hs.exact⟩ hn
    unfold Scanner.restoreState at h5
    dsimp only at h5
    rw [k6] at h5
    cases h5
    refine h _ w'.c k1 _ past n text b s'' ?_ ?_ h2
    · refine ⟨?_, ?_, ?_, hs.yes, hs.no, hs.base, hs.exact⟩
      · exact hs.cur
      · exact ⟨k3.1, hs.fresh.2⟩
      · subst k5
        exact .inr ⟨_, w', rfl, k1, k2, k7, hc⟩
    · rfl
  · cases h4

end Parser
end Giron

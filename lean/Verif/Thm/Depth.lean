import Verif.Thm.Outcome
import Verif.Thm.Witness
import Verif.Proofs.Deep.Walk
/-
C01: the bounds of the model are no bounds.
-/
namespace Giron
open Parser

/-- `parse_script`, where the functions may call each other `n` deep -/
def parseScriptDeep [Env] (n : Nat) (source : Str) : Except Fail Node :=
  (match Parser.new source with
    | .ok p => Parser.parseScriptBody (Parser.run n) p
    | .error e => .error e).map Prod.fst

/-- `parse_module`, where the functions may call each other `n` deep -/
def parseModuleDeep [Env] (n : Nat) (source : Str) : Except Fail Node :=
  (match Parser.new source with
    | .ok p => Parser.parseModuleBody (Parser.run n) p
    | .error e => .error e).map Prod.fst

/-- C01.  The depth of calls that the model allows is no limit: with any greater depth the answer is the same, so that it is
the answer of a parser that may call itself as deep as it likes. -/
theorem C01_more_depth_changes_nothing [Env] (source : Str) {n : Nat} (hn : 2 * source.length + 6 ≤ n) :
    parseScriptDeep n source = parseScript source ∧ parseModuleDeep n source = parseModule source := by
  have hr : RecDp (run (depth source)) (run n) := recDp_run hn
  have h1 := (C01_parsing_terminates source).1
  have h2 := (C01_parsing_terminates source).2
  unfold parseScriptDeep parseModuleDeep
  unfold parseScript parseScriptState at *
  unfold parseModule parseModuleState at *
  revert h1 h2
  cases Parser.new source with
  | error f => exact fun _ _ => ⟨rfl, rfl⟩
  | ok p =>
    dsimp only
    intro h1 h2
    constructor
    · rcases (dp_parseScriptBody (r := run (depth source)) (r' := run n)).out p with h | h
      · rw [h] at h1; exact absurd rfl h1
      · rw [h]
    · rcases (dp_parseModuleBody (r := run (depth source)) (r' := run n)).out p with h | h
      · rw [h] at h2; exact absurd rfl h2
      · rw [h]

/-- A loop with a number of rounds: more rounds change nothing, unless there are too few. -/
def EnoughRounds {σ α : Type} (loop : Nat → M σ α) : Prop :=
  ∀ n n' s, n ≤ n' → loop n s ≠ .error .fuel → loop n' s = loop n s

theorem enough_of {σ α : Type} {loop : Nat → M σ α} (h : ∀ n n', n ≤ n' → Dp (loop n) (loop n')) : EnoughRounds loop := by
  intro n n' s hn hf
  rcases (h n n' hn).out s with h | h
  · exact absurd h hf
  · exact h

/-- C01.  The same for the loops of the parser: the number of rounds that the model allows is no limit. -/
theorem C01_more_rounds_change_nothing [Env] (r : Rec) :
    (∀ p (m : PM Node), EnoughRounds (whilePuncF p m)) ∧ (∀ p (m : PM Node), EnoughRounds (untilPuncF p m)) ∧
    (∀ p (m : PM FunctionParameter), EnoughRounds (untilPuncOrRestF p m)) ∧ (∀ m, EnoughRounds (untilEofF m)) ∧
    EnoughRounds (directiveProloguesF r) ∧ (∀ b, EnoughRounds fun n => templateLoopF r n b) ∧
    (∀ x, EnoughRounds fun n => memberLoopF r n x) ∧ (∀ x, EnoughRounds fun n => callLoopF r n x) ∧
    (∀ k x, EnoughRounds fun n => climbInnerF r k n x) ∧ (∀ k x, EnoughRounds fun n => climbF r k n x) ∧
    EnoughRounds (consequentF r) ∧ ∀ b, EnoughRounds fun n => casesF r n b := by
  have : RecDp r r := ⟨inferInstance, inferInstance, inferInstance, inferInstance, inferInstance, inferInstance, fun _ _ => inferInstance,
    inferInstance, inferInstance⟩
  exact ⟨fun _ _ => enough_of fun _ _ h => dp_whilePuncF h, fun _ _ => enough_of fun _ _ h => dp_untilPuncF h,
    fun _ _ => enough_of fun _ _ h => dp_untilPuncOrRestF h, fun _ => enough_of fun _ _ h => dp_untilEofF h,
    enough_of fun _ _ h => dp_directiveProloguesF h, fun _ => enough_of fun _ _ h => dp_templateLoopF h _,
    fun _ => enough_of fun _ _ h => dp_memberLoopF h _, fun _ => enough_of fun _ _ h => dp_callLoopF h _,
    fun _ _ => enough_of fun _ _ h => dp_climbInnerF h _, fun _ _ => enough_of fun _ _ h => dp_climbF h _,
    enough_of fun _ _ h => dp_consequentF h, fun _ => enough_of fun _ _ h => dp_casesF h _⟩

/-- C01.  And for those of the scanner. -/
theorem C01_more_rounds_of_the_scanner_change_nothing [Env] :
    (∀ {α : Type} p (read : SM α), EnoughRounds (Scanner.scanUntilF p read)) ∧
    (∀ p read, EnoughRounds (Scanner.scan2UntilF p read)) ∧ EnoughRounds Scanner.singleLineLoop ∧
    EnoughRounds Scanner.multiLineLoop ∧ EnoughRounds Scanner.scanCommentsF ∧ EnoughRounds Scanner.scanStringCpF ∧
    EnoughRounds Scanner.regexpBodyF :=
  ⟨fun _ _ => enough_of fun _ _ h => dp_scanUntilF h, fun _ _ => enough_of fun _ _ h => dp_scan2UntilF h,
    enough_of fun _ _ h => dp_singleLineLoop h, enough_of fun _ _ h => dp_multiLineLoop h,
    enough_of fun _ _ h => dp_scanCommentsF h, enough_of fun _ _ h => dp_scanStringCpF h, enough_of fun _ _ h => dp_regexpBodyF h⟩

/-- the hypotheses are met: a run that stops with too little depth does not with enough -/
example : letI := ascii; parseScriptDeep 3 "((x))".toList ≠ parseScript "((x))".toList ∧
    parseScriptDeep 100 "((x))".toList = parseScript "((x))".toList := by
  letI := ascii
  have h : (match parseScriptDeep 3 "((x))".toList with
    | .error .fuel => true
    | _ => false) = true := by decide +kernel
  refine ⟨fun he => ?_, (C01_more_depth_changes_nothing _ (by decide)).1⟩
  have hf := (C01_parsing_terminates "((x))".toList).1
  rw [← he] at hf
  revert h hf
  cases parseScriptDeep 3 "((x))".toList with
  | error f => cases f <;> simp
  | ok t => simp

end Giron

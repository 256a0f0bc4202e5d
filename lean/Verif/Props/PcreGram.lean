import Verif.Lemmas.PcreGramPrefix

/-
C60: the parser follows the grammar file.
-/
namespace Ctre
open Parse

/-- C60: a text derived by the grammar file is read to the end, and the parser answers what the actions of the derivation
yield: it accepts with the same result, rejects if an action rejects, and does not compile if an action does not apply. -/
theorem C60_derived (P : PropTable) {y : List Event} (h : Derives [.nt .start] y) :
    (∀ c, perform P none {} y = .ok c → parse P (text y) = .accept c) ∧
    (perform P none {} y = .reject → ∃ rest, parse P (text y) = .reject rest) ∧
    (perform P none {} y = .ill → parse P (text y) = .ill) := by
  have := decide_of_run P (run_start h) none {}
  change Answer (perform P none {} y) (parse P (text y)) at this
  refine ⟨fun c hc => ?_, fun hc => ?_, fun hc => ?_⟩ <;> (rw [hc] at this; exact this)

/-- C60: the parser accepts exactly the texts that the grammar file derives and whose actions succeed, with the result of
these actions. -/
theorem C60_accepts_iff (P : PropTable) (t : List Nat) (c : Ctx) :
    parse P t = .accept c ↔ ∃ y, Derives [.nt .start] y ∧ text y = t ∧ perform P none {} y = .ok c := by
  constructor
  · intro h
    obtain ⟨y, hy⟩ := run_of_decide P h
    obtain ⟨h1, h2⟩ := run_sound hy (by simp [Sym.good])
    have := decide_of_run P hy none {}
    rw [show Parse.decide P (parseFuel t.length) none t [.nt .s] {} = _ from h] at this
    refine ⟨y, genT_start.1 h1, h2, ?_⟩
    cases hp : perform P none {} y with
    | ok c' => rw [hp] at this; cases this; rfl
    | reject => rw [hp] at this; obtain ⟨_, h⟩ := this; cases h
    | ill => rw [hp] at this; cases this
  · rintro ⟨y, h1, rfl, h2⟩
    exact (C60_derived P h1).1 c h2

/-- C60: a pattern is built from a text exactly when the grammar file derives the text and the actions leave this
pattern. -/
theorem C60_builds_iff (P : PropTable) (t : List Nat) (r : Re) :
    build P t = .pattern r ↔
      ∃ y c, Derives [.nt .start] y ∧ text y = t ∧ perform P none {} y = .ok c ∧ c.stack.head? = some (.re r) := by
  constructor
  · intro h
    unfold build at h
    split at h
    · rename_i c hc
      obtain ⟨y, h1, h2, h3⟩ := (C60_accepts_iff P t c).1 hc
      refine ⟨y, c, h1, h2, h3, ?_⟩
      split at h
      · rename_i hs; cases h; rw [hs]; rfl
      · cases h
    all_goals cases h
  · rintro ⟨y, c, h1, h2, h3, h4⟩
    have := (C60_accepts_iff P t c).2 ⟨y, h1, h2, h3⟩
    unfold build
    rw [this]
    cases hs : c.stack with
    | nil => rw [hs] at h4; cases h4
    | cons a l => rw [hs] at h4; cases h4; simp only [hs]

/-- C60: the grammar file is unambiguous: a text has at most one sequence of actions. -/
theorem C60_unambiguous {y y' : List Event} (h : Derives [.nt .start] y) (h' : Derives [.nt .start] y')
    (e : text y = text y') : y = y' := by
  have a := run_start h
  have b := run_start h'
  rw [e, b] at a
  cases a
  rfl

/-- C60: a text that the grammar file does not derive is not accepted. -/
theorem C60_underivable (P : PropTable) (t : List Nat) (h : ∀ y, Derives [.nt .start] y → text y ≠ t) :
    (∃ rest, parse P t = .reject rest) ∨ parse P t = .ill := by
  cases hp : parse P t with
  | accept c =>
    obtain ⟨y, h1, h2, _⟩ := (C60_accepts_iff P t c).1 hp
    exact (h y h1 h2).elim
  | reject rest => exact .inl ⟨rest, rfl⟩
  | ill => exact .inr rfl
  | timeout =>
    have := parse_terminates P t (n := parseFuel t.length) (by simp [parseFuel]; omega)
    exact (this hp).elim

/-- C60: a syntax error is reported no later than necessary: what precedes the reported position is the beginning of a text
that the grammar file derives. -/
theorem C60_error_viable (P : PropTable) (t : List Nat) {p : Nat} (h : build P t = .syntaxError p) :
    ∃ y, Derives [.nt .start] y ∧ p ≤ t.length ∧ p ≤ (text y).length ∧ (text y).take p = t.take p := by
  unfold build at h
  split at h
  · split at h <;> cases h
  · rename_i rest hr
    cases h
    obtain ⟨u, w, y, rfl, h1, h2⟩ := reject_viable P hr (by simp [Sym.good, Sym.solid])
    have e : (u ++ rest).length - rest.length = u.length := by simp
    refine ⟨y, genT_start.1 h1, by omega, ?_, ?_⟩
    · rw [e, h2]; simp
    · rw [e, h2]; simp
  · cases h
  · cases h

/-! ### A concrete case: `a|b` -/

/-- Reading `a|b`. -/
def sampleEvents : List Event :=
  [.ch 97, .act .pushCharacter, .ch 124, .ch 98, .act .pushCharacter, .act .makeAlternate]

theorem sampleEvents_derives : Derives [.nt .start] sampleEvents := by
  have str : ∀ (v : Nat) σ y, v ∈ nonspecialCharactersSet → Derives σ y →
      Derives (.nt .string :: σ) (.ch v :: .act .pushCharacter :: y) := by
    intro v σ y hv h
    refine .nt (p := [.nt .atomRepeat, .nt .string2]) (by simp [prods]) ?_
    refine .nt (p := [.nt .atom, .nt .rept]) (by simp [prods]) ?_
    refine .nt (p := [.nt .character]) (by simp [prods]) ?_
    refine .nt (p := [.chars nonspecialCharactersSet, .act .pushCharacter]) (by simp [prods]) ?_
    refine .chars hv (.act ?_)
    refine .nt (p := []) (by simp [prods]) ?_
    exact .nt (p := []) (by simp [prods]) h
  refine .nt (p := [.nt .content]) (by simp [prods]) ?_
  refine .nt (p := [.nt .string, .nt .content2]) (by simp [prods]) ?_
  refine str 97 _ _ (by decide +kernel) ?_
  refine .nt (p := [.chars [124], .nt .content, .act .makeAlternate]) (by simp [prods]) ?_
  refine .chars (by simp) ?_
  refine .nt (p := [.nt .string, .nt .content2]) (by simp [prods]) ?_
  refine str 98 _ _ (by decide +kernel) ?_
  refine .nt (p := []) (by simp [prods]) ?_
  exact .act .nil

example (P : PropTable) : ∃ c r, perform P none {} sampleEvents = .ok c ∧ c.stack = [.re r] ∧
    build P (text sampleEvents) = .pattern r := by
  refine ⟨_, _, rfl, rfl, ?_⟩
  exact (C60_builds_iff P _ _).2 ⟨_, _, sampleEvents_derives, rfl, rfl, rfl⟩

/-- `a||b` is not derived; the error is reported behind `a|`, which `a|b` completes. -/
example (P : PropTable) : (∀ y, Derives [.nt .start] y → text y ≠ [97, 124, 124, 98]) ∧
    build P [97, 124, 124, 98] = .syntaxError 2 := by
  refine ⟨fun y h e => ?_, rfl⟩
  have h1 := run_start h
  rw [e, show run (parseFuel _) [97, 124, 124, 98] [.nt .s] = .reject by rfl] at h1
  cases h1

end Ctre

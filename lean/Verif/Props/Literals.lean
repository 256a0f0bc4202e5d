import Verif.Lemmas.Ll1
import Verif.Props.PcreGram
import Verif.Props.Language

/-
C70: the parser as it is written, one round per character, and the literals that expose its answer.
-/
namespace Ctre
open Parse Surface

/-- C70: whatever the actions are, one round for every character and one more decide: the machine accepts or rejects at a
position within the input, or an action has no overload. -/
theorem C70_decided {σ : Type} (A : Selector σ) (t : List Nat) (c : σ) :
    (∃ r, trampoline A t c = .res r ∧ (r.decision = .accept ∨ r.decision = .reject) ∧ r.position ≤ t.length) ∨
    trampoline A t c = .ill := by
  obtain ⟨h1, h2⟩ := trampoline_ends A t c
  cases hr : trampoline A t c with
  | res r =>
    obtain ⟨h3, h4⟩ := h2 r hr
    refine .inl ⟨r, rfl, ?_, h4⟩
    cases hd : r.decision with
    | accept => exact .inl rfl
    | reject => exact .inr rfl
    | undecided => exact (h3 hd).elim
  | ill => exact .inr rfl
  | timeout => rw [hr] at h1; exact (h1.1 rfl).elim

/-- C70: a literal builds the pattern, and reports the error at the position, that the theorems about `build` describe. -/
theorem C70_builds (P : PropTable) (t : List Nat) : buildLiteral P t = build P t := by
  unfold buildLiteral build
  rw [trampoline_pcre]
  obtain ⟨h1, h2⟩ := trampoline_ends (pcreActions P) t {}
  cases hr : trampoline (pcreActions P) t {} with
  | ill => rfl
  | timeout => rw [hr] at h1; exact (h1.1 rfl).elim
  | res r =>
    have h3 := h2 r hr
    obtain ⟨rp, rs, rc, rd⟩ := r
    cases rd with
    | accept => rfl
    | reject =>
      have h4 : rp ≤ t.length := h3.2
      simp only [LRes.answer, GRes.toPRes, reduceCtorEq, if_false, List.length_drop]
      congr 1
      omega
    | undecided => exact (h3.1 rfl).elim

/-- C70: `"..."_ctre_test` is true exactly for the texts that the grammar file derives, and compiles for every text. -/
theorem C70_test (t : List Nat) : ctreTest t ≠ none ∧
    (ctreTest t = some true ↔ ∃ y, Derives [.nt .start] y ∧ Parse.text y = t) := by
  obtain ⟨h1, h2⟩ := trampoline_ends emptyActions t ()
  unfold ctreTest
  have back : (∃ y, Derives [.nt .start] y ∧ Parse.text y = t) → (trampoline emptyActions t ()).answer t = .accept () := by
    rintro ⟨y, hy, rfl⟩
    exact h1.unique ⟨by simp, _, direct_of_run (run_start hy) none⟩
  cases hr : trampoline emptyActions t () with
  | ill =>
    rw [hr] at h1
    obtain ⟨_, n, hn⟩ := h1
    exact (direct_empty_not_ill _ _ _ _ hn).elim
  | timeout => rw [hr] at h1; exact (h1.1 rfl).elim
  | res r =>
    have h3 := (h2 r hr).1
    rw [hr] at h1 back
    obtain ⟨rp, rs, rc, rd⟩ := r
    refine ⟨by simp [LRes.isCorrect], ?_⟩
    cases rd with
    | accept =>
      refine ⟨fun _ => ?_, fun _ => rfl⟩
      obtain ⟨_, n, hn⟩ := h1
      obtain ⟨y, hy⟩ := run_of_direct _ hn
      obtain ⟨h4, h5⟩ := run_sound hy (by simp [Sym.good])
      exact ⟨y, genT_start.1 h4, h5⟩
    | reject =>
      refine ⟨fun h => ?_, fun h => ?_⟩
      · simp [LRes.isCorrect] at h
      · have := back h
        cases this
    | undecided => exact (h3 rfl).elim

/-- `correct_with` of the pattern actions, in terms of the parser of the other theorems. -/
theorem ctreSyntax_iff (P : PropTable) (t : List Nat) : ctreSyntax P t = some true ↔ ∃ c, parse P t = .accept c := by
  rw [trampoline_pcre]
  unfold ctreSyntax
  cases hr : trampoline (pcreActions P) t {} with
  | ill => simp [LRes.isCorrect, LRes.answer, GRes.toPRes]
  | timeout => simp [LRes.isCorrect, LRes.answer, GRes.toPRes]
  | res r =>
    obtain ⟨rp, rs, rc, rd⟩ := r
    cases rd <;> simp [LRes.isCorrect, LRes.answer, GRes.toPRes]

/-- C70: `"..."_ctre_syntax` is true exactly for the texts that the grammar file derives and whose actions succeed. -/
theorem C70_syntax (P : PropTable) (t : List Nat) :
    ctreSyntax P t = some true ↔ ∃ y c, Derives [.nt .start] y ∧ Parse.text y = t ∧ perform P none {} y = .ok c := by
  rw [ctreSyntax_iff]
  constructor
  · rintro ⟨c, h⟩
    obtain ⟨y, h1, h2, h3⟩ := (C60_accepts_iff P t c).1 h
    exact ⟨y, c, h1, h2, h3⟩
  · rintro ⟨y, c, h⟩
    exact ⟨c, (C60_accepts_iff P t c).2 ⟨y, h⟩⟩

/-- C70: what `_ctre_syntax` accepts, `_ctre_test` accepts. -/
theorem C70_syntax_test {P : PropTable} {t : List Nat} (h : ctreSyntax P t = some true) : ctreTest t = some true := by
  obtain ⟨y, c, h1, h2, _⟩ := (C70_syntax P t).1 h
  exact (C70_test t).2.2 ⟨y, h1, h2⟩

/-- C70: the two differ exactly where an action of the derivation rejects or has no overload. -/
theorem C70_difference (P : PropTable) (t : List Nat) : (ctreTest t = some true ∧ ctreSyntax P t ≠ some true) ↔
    ∃ y, Derives [.nt .start] y ∧ Parse.text y = t ∧ (perform P none {} y = .reject ∨ perform P none {} y = .ill) := by
  constructor
  · rintro ⟨h1, h2⟩
    obtain ⟨y, h3, h4⟩ := (C70_test t).2.1 h1
    refine ⟨y, h3, h4, ?_⟩
    cases hp : perform P none {} y with
    | ok c => exact (h2 ((C70_syntax P t).2 ⟨y, c, h3, h4, hp⟩)).elim
    | reject => exact .inl rfl
    | ill => exact .inr rfl
  · rintro ⟨y, h1, h2, h3⟩
    refine ⟨(C70_test t).2.2 ⟨y, h1, h2⟩, fun h => ?_⟩
    obtain ⟨y', c, h4, h5, h6⟩ := (C70_syntax P t).1 h
    have := C60_unambiguous h1 h4 (by rw [h2, h5])
    subst this
    rcases h3 with h3 | h3 <;> (rw [h3] at h6; cases h6)

/-- C70: `"..."_ctre_gen` of an accepted text has one element, the pattern that the other functions use. -/
theorem C70_gen {P : PropTable} {t : List Nat} (hu : ¬ Unusual t) {l : List PItem} (h : ctreGen P t = some l) :
    ∃ r, l = [.re r] ∧ build P t = .pattern r := by
  have hp : ∃ c, parse P t = .accept c ∧ c.stack = l := by
    rw [trampoline_pcre]
    unfold ctreGen at h
    cases hr : trampoline (pcreActions P) t {} with
    | ill => rw [hr] at h; cases h
    | timeout => rw [hr] at h; cases h
    | res r =>
      rw [hr] at h
      obtain ⟨rp, rs, rc, rd⟩ := r
      cases rd with
      | accept => simp at h; exact ⟨rc, rfl, h⟩
      | reject => simp at h
      | undecided => simp at h
  obtain ⟨c, h1, h2⟩ := hp
  rcases parse_back h1 with h3 | ⟨b, hw, rfl⟩
  · exact (hu h3).elim
  · have h3 := parse_print hw
    rw [h1] at h3
    cases h3
    refine ⟨_, h2.symm, ?_⟩
    unfold build
    rw [h1]

/-- C70: and it compiles exactly when `_ctre_syntax` is true. -/
theorem C70_gen_iff (P : PropTable) (t : List Nat) : (∃ l, ctreGen P t = some l) ↔ ctreSyntax P t = some true := by
  unfold ctreGen ctreSyntax
  cases hr : trampoline (pcreActions P) t {} with
  | ill => simp [LRes.isCorrect]
  | timeout => simp [LRes.isCorrect]
  | res r =>
    obtain ⟨rp, rs, rc, rd⟩ := r
    cases rd <;> simp [LRes.isCorrect]

/-- C70, the exception is necessary: `(?im)a` leaves two elements, and the second, the switch to ignoring case, is lost. -/
theorem C70_fails_two : ctreGen {} [40, 63, 105, 109, 41, 97] =
    some [.re (.seq [.mode .multiline, .cc (.chr 97)]), .re (.mode .caseInsensitive)] := rfl

/-- C70: `_ctre_test` does not tell that a pattern is usable: `\1` without a group. -/
theorem C70_fails_test : ctreTest [92, 49] = some true ∧ ctreSyntax {} [92, 49] = some false ∧
    ∃ p, build {} [92, 49] = .syntaxError p := ⟨rfl, rfl, _, rfl⟩

/-! ### Cases -/

example : ctreTest [97, 124, 124, 98] = some false ∧ ctreTest [97, 124, 98] = some true ∧
    ctreSyntax {} [97, 124, 98] = some true ∧
    ctreGen {} [97, 124, 98] = some [.re (.sel [.cc (.chr 97), .cc (.chr 98)])] := ⟨rfl, rfl, rfl, rfl⟩

/-- The last round, after the last character, is needed: after one round per character the text `a` is undecided. -/
example : ∃ r, LRes.rounds emptyActions [97] (parseFuel 1) 0 (decideAt emptyActions [97] (parseFuel 1) 0 [.nt .s] ()) = .res r ∧
    r.decision = .undecided := ⟨_, rfl, rfl⟩

end Ctre

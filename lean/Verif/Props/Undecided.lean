import Verif.Lemmas.ParseStuck
import Verif.Props.Parser
import Verif.Props.Language

/-
C74: the texts on which the parser does not decide.
-/
namespace Ctre
open Parse Surface

/-- C74: a pattern text in which none of seven features occurs is accepted or rejected; the parser cannot stop without a
decision. -/
theorem C74_decided (P : PropTable) (t : List Nat) (h : ¬ Undecided P.find t) :
    (∃ r, build P t = .pattern r) ∨ ∃ p, build P t = .syntaxError p := by
  cases hb : build P t with
  | pattern r => exact .inl ⟨r, rfl⟩
  | syntaxError p => exact .inr ⟨p, rfl⟩
  | ill => exact (h (build_ill hb)).elim
  | timeout => exact (C28_build_terminates P t hb).elim

/-- C28, as far as it holds: on a text without any of the seven features the parser stops after a linear number of
steps and accepts or rejects.  Missing: the texts with one of the features, among them those of
`C28_fails_undecided`. -/
theorem C28_decided_partial (P : PropTable) (t : List Nat) (h : ¬ Undecided P.find t) {n : Nat} (hn : 12 * t.length + 3 ≤ n) :
    (∃ c r ts, Parse.decide P n none t [.nt .s] {} = .accept c ∧ c.stack = .re r :: ts) ∨
      ∃ rest, Parse.decide P n none t [.nt .s] {} = .reject rest := by
  rw [(C28_terminates P t hn).2]
  rcases C74_decided P t h with ⟨r, hb⟩ | ⟨p, hb⟩
  · left
    unfold build at hb
    split at hb
    · rename_i c hp
      split at hb
      · rename_i r' ts hs
        exact ⟨c, r', ts, hp, hs⟩
      · cases hb
    all_goals cases hb
  · right
    unfold build at hb
    split at hb
    · split at hb <;> cases hb
    · exact ⟨_, ‹_›⟩
    all_goals cases hb

/-- C74: on such texts the accepted ones are exactly the texts of the documented syntax (unless `)?+` occurs), and all
the others are rejected with a position. -/
theorem C74_rejected (P : PropTable) (t : List Nat) (h : ¬ Undecided P.find t) (hu : ¬ Unusual t) :
    (∃ b : Body, b.WF P.find 0 ∧ b.print = t) ∨
      (∃ p, build P t = .syntaxError p) ∧ ¬ ∃ b : Body, b.WF P.find 0 ∧ b.print = t := by
  rcases C74_decided P t h with ⟨r, hb⟩ | ⟨p, hb⟩
  · rcases build_back hb with h | ⟨b, hw, hp, _⟩
    · exact (hu h).elim
    · exact .inl ⟨b, hw, hp⟩
  · right
    refine ⟨⟨p, hb⟩, ?_⟩
    rintro ⟨b, hw, rfl⟩
    rw [build_print hw] at hb
    cases hb

/-- C74: in particular a text in which none of thirteen sequences of two to four characters stands is accepted or
rejected. -/
theorem C74_unmarked (P : PropTable) (t : List Nat) (h : ∀ w ∈ featureMarks, ¬ w <:+: t) :
    (∃ r, build P t = .pattern r) ∨ ∃ p, build P t = .syntaxError p := by
  refine C74_decided P t ?_
  have hm : ∀ {w : List Nat} (a b : List Nat), w ∈ featureMarks → t = a ++ w ++ b → False := fun a b hw e => h _ hw ⟨a, b, e.symm⟩
  rintro ⟨a, u, b, e, hf⟩
  cases hf with
  | letters x y hx _ =>
    simp only [modeLetters, List.mem_cons, List.not_mem_nil, or_false] at hx
    rcases hx with rfl | rfl | rfl | rfl
    · exact hm (w := [40, 63, 105]) a (y :: b) (by simp [featureMarks]) (by simpa using e)
    · exact hm (w := [40, 63, 99]) a (y :: b) (by simp [featureMarks]) (by simpa using e)
    · exact hm (w := [40, 63, 115]) a (y :: b) (by simp [featureMarks]) (by simpa using e)
    · exact hm (w := [40, 63, 109]) a (y :: b) (by simp [featureMarks]) (by simpa using e)
  | possessive u => exact hm (w := [41, 63, 43]) (a ++ [40, 63, 58] ++ u) b (by simp [featureMarks]) (by simpa using e)
  | hex m ds hx _ _ =>
    rcases hx with rfl | rfl
    · exact hm (w := [92, 120, 123]) a (ds ++ [125] ++ b) (by simp [featureMarks]) (by simpa using e)
    · exact hm (w := [92, 117, 123]) a (ds ++ [125] ++ b) (by simp [featureMarks]) (by simpa using e)
  | reference n k x _ _ =>
    exact hm (w := [92, 103, 123]) (a ++ [40, 63, 60] ++ n ++ [62] ++ opens k) (x :: b) (by simp [featureMarks]) (by simpa using e)
  | posix neg n =>
    exact hm (w := [91, 58]) a ((if neg then [94] else []) ++ n.name ++ [58, 93, 45] ++ b) (by simp [featureMarks]) (by simpa using e)
  | property m name w hx _ _ _ =>
    rcases hx with rfl | rfl
    · exact hm (w := [92, 112, 123]) a (name ++ [61] ++ w ++ [125] ++ b) (by simp [featureMarks]) (by simpa using e)
    · exact hm (w := [92, 80, 123]) a (name ++ [61] ++ w ++ [125] ++ b) (by simp [featureMarks]) (by simpa using e)
  | behind d u x hx _ =>
    rcases hx with rfl | rfl
    · exact hm (w := [40, 63, 60, 61]) a (u ++ [40, 63, x, 41] ++ b) (by simp [featureMarks]) (by simpa using e)
    · exact hm (w := [40, 63, 60, 33]) a (u ++ [40, 63, x, 41] ++ b) (by simp [featureMarks]) (by simpa using e)

/-- C74: for each of the seven features there is a text with it on which the parser does not decide.  The texts are
`((?im)a)`, `(?:a??)?+`, `\x{100000000}`, `(?<n>\g{m})`, `[[:alpha:]-z]`,
`[\p{sc=x}]` and `(?<=(?i)a)`. -/
theorem C74_sharp :
    build {} [40, 40, 63, 105, 109, 41, 97, 41] = .ill ∧
    build {} [40, 63, 58, 97, 63, 63, 41, 63, 43] = .ill ∧
    build {} [92, 120, 123, 49, 48, 48, 48, 48, 48, 48, 48, 48, 125] = .ill ∧
    build {} [40, 63, 60, 110, 62, 92, 103, 123, 109, 125, 41] = .ill ∧
    build {} [91, 91, 58, 97, 108, 112, 104, 97, 58, 93, 45, 122, 93] = .ill ∧
    build {} [91, 92, 112, 123, 115, 99, 61, 120, 125, 93] = .ill ∧
    build {} [40, 63, 60, 61, 40, 63, 105, 41, 97, 41] = .ill := by
  exact ⟨rfl, rfl, rfl, rfl, rfl, rfl, rfl⟩

/-! ### Cases -/

-- `(?:a)\d(?<n>b)?[^x-z]{2,3}` is accepted and `(?:a)\d(?<n>b` rejected, and both fulfil the hypotheses of C74_unmarked
example : ∀ w ∈ featureMarks, ¬ w <:+: [40, 63, 58, 97, 41, 92, 100, 40, 63, 60, 110, 62, 98, 41, 63, 91, 94, 120, 45, 122, 93, 123, 50, 44, 51, 125] := by
  decide
example : ∃ r, build {} [40, 63, 58, 97, 41, 92, 100, 40, 63, 60, 110, 62, 98, 41, 63, 91, 94, 120, 45, 122, 93, 123, 50, 44, 51, 125] =
  .pattern r := ⟨_, rfl⟩
example : ∀ w ∈ featureMarks, ¬ w <:+: [40, 63, 58, 97, 41, 92, 100, 40, 63, 60, 110, 62, 98] := by decide
example : build {} [40, 63, 58, 97, 41, 92, 100, 40, 63, 60, 110, 62, 98] = .syntaxError 13 := rfl

-- each text of C74_sharp has its feature
example : Undecided (fun _ _ => none) [40, 40, 63, 105, 109, 41, 97, 41] :=
  ⟨[40], _, [41, 97, 41], rfl, .letters 105 109 (by decide) (by decide)⟩
example : Undecided (fun _ _ => none) [40, 63, 58, 97, 63, 63, 41, 63, 43] := ⟨[], _, [], rfl, .possessive [97, 63, 63]⟩
example : Undecided (fun _ _ => none) [92, 120, 123, 49, 48, 48, 48, 48, 48, 48, 48, 48, 125] :=
  ⟨[], _, [], rfl, .hex 120 [49, 48, 48, 48, 48, 48, 48, 48, 48] (.inl rfl) (by simp [isHex, isDec]) (by decide)⟩
example : Undecided (fun _ _ => none) [40, 63, 60, 110, 62, 92, 103, 123, 109, 125, 41] :=
  ⟨[], _, [125, 41], rfl, .reference [110] 0 109 (by simp [isNameChar, isNameStart]) (by simp [isNameStart])⟩
example : Undecided (fun _ _ => none) [91, 91, 58, 97, 108, 112, 104, 97, 58, 93, 45, 122, 93] :=
  ⟨[91], _, [122, 93], rfl, .posix false .alpha⟩
example : Undecided (fun _ _ => none) [91, 92, 112, 123, 115, 99, 61, 120, 125, 93] :=
  ⟨[91], _, [93], rfl, .property 112 [115, 99] [120] (.inl rfl) (by simp [isPropWord, isPropChar, isNameChar, isNameStart])
    (by simp [isPropWord, isPropChar, isNameChar, isNameStart]) rfl⟩
example : Undecided (fun _ _ => none) [40, 63, 60, 61, 40, 63, 105, 41, 97, 41] :=
  ⟨[], _, [97, 41], rfl, .behind 61 [] 105 (.inl rfl) (by decide)⟩

end Ctre

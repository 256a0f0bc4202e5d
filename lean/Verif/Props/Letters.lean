import Verif.Props.Modes
import Verif.Lemmas.Letters

/-
C37: inline modes of several letters.
-/
namespace Ctre
open Parse Surface

/-- C37 fails for several letters, always in the same way: where the first alternative of a pattern has a mode of several
letters, each letter after the first removes one item from the beginning of that alternative. With the modes written
separately, that is with the items `pre`, `(?m)`, … , `post`, the pattern means what is left after the first `ms.length`
items; `ms` are the letters after the first. The items removed are to contain no group. -/
theorem C37_letters (P : PropTable) {pre : List (Atom × Quant)} {m : Mode} {ms : List Mode} {post : Cat} {l : Option Alt}
    (h : ((Cat.preceded pre post).orElse l).WF P.find 0) (h0 : ∀ p ∈ pre.take ms.length, p.1.groups = 0) :
    build P (piecesText pre ++ lettersText (m :: ms) ++ (post.orElse l).print) =
      build P (piecesText ((pre ++ letterPieces (m :: ms)).drop ms.length) ++ (post.orElse l).print) ∧
    ∃ r, build P (piecesText pre ++ lettersText (m :: ms) ++ (post.orElse l).print) = .pattern r := by
  refine ⟨?_, _, build_letters h⟩
  have hg : ∀ p ∈ (pre ++ letterPieces (m :: ms)).take ms.length, p.1.groups = 0 := by
    intro p hp
    rw [List.take_append, List.mem_append] at hp
    rcases hp with hp | hp
    · exact h0 p hp
    · have := List.mem_of_mem_take hp
      simp only [letterPieces, List.mem_map] at this
      obtain ⟨m', _, rfl⟩ := this
      rfl
  have hw : (Cat.preceded pre post).WF P.find 0 := by
    cases l with
    | none => exact h
    | some l => exact h.1
  have h1 := preceded_letters (m :: ms) post pre hw
  have h2 := preceded_drop post ms.length _ hg h1.1
  rw [build_letters h, ← orElse_print (preceded_print post _)]
  refine (build_print (b := .alt _) ?_).symm
  cases l with
  | none => exact h2.1
  | some l =>
    refine ⟨h2.1, ?_⟩
    rw [h2.2, h1.2]
    exact h.2

/-- C37: of several letters at the beginning of a pattern only the last one has an effect; `(?im)` is `(?m)`. -/
theorem C37_letters_last (P : PropTable) (ms : List Mode) (m : Mode) {post : Cat} {l : Option Alt}
    (h : (post.orElse l).WF P.find 0) :
    build P (lettersText (ms ++ [m]) ++ (post.orElse l).print) = build P (modeText m ++ (post.orElse l).print) ∧
    ∃ r, build P (lettersText (ms ++ [m]) ++ (post.orElse l).print) = .pattern r := by
  obtain ⟨m0, ms0, e⟩ : ∃ m0 ms0, ms ++ [m] = m0 :: ms0 := by cases ms <;> exact ⟨_, _, rfl⟩
  have := C37_letters P (pre := []) (m := m0) (ms := ms0) (post := post) (l := l) h (by simp)
  have hl : ms0.length = ms.length := by have := congrArg List.length e; simpa using this.symm
  rw [← e] at this
  simpa [piecesText, letterPieces, hl, List.map_append, modeText, Atom.print, Quant.print] using this

/-- The items `x`, `y*`. -/
def sampleItems : List (Atom × Quant) := [(.ch (.plain 120), .none), (.ch (.plain 121), .star .greedy)]

-- `xy*(?ims)a|b` is `(?i)(?m)(?s)a|b`, `xy*(?im)a|b` is `y*(?i)(?m)a|b`, and `(?im)a|b` is `(?m)a|b`
example : build {} [120, 121, 42, 40, 63, 105, 109, 115, 41, 97, 124, 98] =
      build {} [40, 63, 105, 41, 40, 63, 109, 41, 40, 63, 115, 41, 97, 124, 98] ∧
    build {} [120, 121, 42, 40, 63, 105, 109, 41, 97, 124, 98] =
      build {} [121, 42, 40, 63, 105, 41, 40, 63, 109, 41, 97, 124, 98] ∧
    build {} [40, 63, 105, 109, 41, 97, 124, 98] = build {} [40, 63, 109, 41, 97, 124, 98] :=
  ⟨(C37_letters {} (pre := sampleItems) (m := .caseInsensitive) (ms := [.multiline, .singleline])
      (post := .one (.ch (.plain 97)) .none) (l := some (.one (.one (.ch (.plain 98)) .none)))
      (by simp [sampleItems, Cat.preceded, Cat.orElse, Alt.WF, Cat.WF, Atom.WF, Char1.WF, special, Quant.WF])
      (by simp [sampleItems, Atom.groups])).1,
    (C37_letters {} (pre := sampleItems) (m := .caseInsensitive) (ms := [.multiline])
      (post := .one (.ch (.plain 97)) .none) (l := some (.one (.one (.ch (.plain 98)) .none)))
      (by simp [sampleItems, Cat.preceded, Cat.orElse, Alt.WF, Cat.WF, Atom.WF, Char1.WF, special, Quant.WF])
      (by simp [sampleItems, Atom.groups])).1,
    (C37_letters_last {} [.caseInsensitive] .multiline (post := .one (.ch (.plain 97)) .none)
      (l := some (.one (.one (.ch (.plain 98)) .none)))
      (by simp [Cat.orElse, Alt.WF, Cat.WF, Atom.WF, Char1.WF, special, Quant.WF])).1⟩

end Ctre

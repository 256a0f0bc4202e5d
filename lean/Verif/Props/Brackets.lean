import Verif.Lemmas.FlatEval
import Verif.Lemmas.Transfer

/-
C40: results do not depend on how concatenations are bracketed.
-/
namespace Ctre

/-- C40 for one evaluation: patterns `r` and `r'` that differ only in the bracketing of concatenations, anywhere inside,
give the same outcome before every continuation and after every prefix on the stack. -/
theorem C40_brackets_eval (C : Cfg) {r r' : Re} (h : SameUpToBrackets r r') (pre t : Stack) (s : List Ch) (lb : Bool)
    (cur : Nat) (f : Flags) (c : Caps) (o : Out) :
    Runs C s lb cur f c (pre ++ .re r :: t) o ↔ Runs C s lb cur f c (pre ++ .re r' :: t) o := by
  have e : flatStack (pre ++ .re r :: t) = flatStack (pre ++ .re r' :: t) := by
    simp only [flatStack_append, flatStack, Item.flat, show r.flat = r'.flat from h]
  exact ⟨runs_flat e, runs_flat e.symm⟩

theorem sameAttempts_flat (C : Cfg) {r r' : Re} (h : SameUpToBrackets r r') (s : List Ch) (f : Flags) :
    SameAttempts C C s s f f r r' := by
  have hc : initCaps r = initCaps r' := by
    unfold initCaps; rw [← captures_flat r, show r.flat = r'.flat from h, captures_flat]
  refine ⟨hc, ?_, ?_⟩
  · intro it o _ hr
    rw [← hc]
    exact (C40_brackets_eval C h [.startMark] [.endMark, .accept] s false it f _ o).1 hr
  · intro it o _ hr
    rw [← hc]
    exact (C40_brackets_eval C h [.startMark] [.re .sEnd, .endMark, .accept] s false it f _ o).1 hr

/-- C40: all entry points return the same results, captures included. -/
theorem C40_brackets_same_results (C : Cfg) {r r' : Re} (h : SameUpToBrackets r r') (s : List Ch) (f : Flags) (p : Nat)
    (hp : p ≤ s.length) (e : Exec) :
    (Returns (fun n => matchAt C n s f r p) e ↔ Returns (fun n => matchAt C n s f r' p) e) ∧
    (Returns (fun n => startsWithAt C n s f r p) e ↔ Returns (fun n => startsWithAt C n s f r' p) e) ∧
    (Returns (fun n => searchAt C n s f r p) e ↔ Returns (fun n => searchAt C n s f r' p) e) := by
  have H := sameAttempts_flat C h s f
  have H' := sameAttempts_flat C (show SameUpToBrackets r' r from h.symm) s f
  have ha : startsWithAnchor f r = startsWithAnchor f r' := by
    unfold startsWithAnchor
    rw [← anchor_flat, ← anchor_flat, show r.flat = r'.flat from h]
  exact ⟨⟨H.matchAt hp, H'.matchAt hp⟩, ⟨H.startsWithAt hp, H'.startsWithAt hp⟩,
    ⟨H.searchAt rfl ha hp, H'.searchAt rfl ha.symm hp⟩⟩

/-- C40 for three pieces: `(XY)Z`, `X(YZ)` and `XYZ` on the stack. -/
theorem C40_three_pieces (C : Cfg) (X Y Z : Re) (t : Stack) (s : List Ch) (lb : Bool) (cur : Nat) (f : Flags) (c : Caps)
    (o : Out) :
    (Runs C s lb cur f c (.re (.seq [.seq [X, Y], Z]) :: t) o ↔ Runs C s lb cur f c (.re X :: .re Y :: .re Z :: t) o) ∧
    (Runs C s lb cur f c (.re (.seq [X, .seq [Y, Z]]) :: t) o ↔ Runs C s lb cur f c (.re X :: .re Y :: .re Z :: t) o) ∧
    (Runs C s lb cur f c (.re (.seq [X, Y, Z]) :: t) o ↔ Runs C s lb cur f c (.re X :: .re Y :: .re Z :: t) o) := by
  have e : ∀ r, r.flat = X.flat ++ Y.flat ++ Z.flat →
      flatStack (.re r :: t) = flatStack (.re X :: .re Y :: .re Z :: t) := by
    intro r hr
    simp [flatStack, Item.flat, hr]
  refine ⟨?_, ?_, ?_⟩
  all_goals
    refine ⟨runs_flat (e _ ?_), runs_flat (e _ ?_).symm⟩ <;> simp [Re.flat, flatList]

-- bracketing inside a repetition inside a group: `((?:a(?:bc))*)` and `((?:(?:ab)c)*)`
example : SameUpToBrackets (.cap 1 none [.rep .greedy 0 0 [.seq [.cc (.chr 97), .seq [.cc (.chr 98), .cc (.chr 99)]]]])
    (.cap 1 none [.rep .greedy 0 0 [.seq [.cc (.chr 97), .cc (.chr 98)], .cc (.chr 99)]]) := by
  simp [SameUpToBrackets, Re.flat, flatList]

example : cMatch {} 60 [97, 98, 99, 97, 98, 99] {}
    (.cap 1 none [.rep .greedy 0 0 [.seq [.cc (.chr 97), .seq [.cc (.chr 98), .cc (.chr 99)]]]]) =
    .done { whole := ⟨some 0, some 6, true⟩, groups := [⟨1, none, ⟨some 0, some 6, true⟩⟩] } := by decide +kernel

-- the relation distinguishes different patterns: `ab` and `ba`
example : ¬ SameUpToBrackets (.seq [.cc (.chr 97), .cc (.chr 98)]) (.seq [.cc (.chr 98), .cc (.chr 97)]) := by
  simp [SameUpToBrackets, Re.flat, flatList]

end Ctre

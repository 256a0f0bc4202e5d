import Verif.Spec.Cuts
import Verif.Lemmas.Iterate
import Verif.Lemmas.Refine

/-
C39: access to captures.
-/
namespace Ctre

variable {C : Cfg} {n : Nat} {s : List Ch} {f : Flags} {r : Re} {c : Caps} {v : List Ch}

/-! ### C39 -/

theorem shape_attempt {p : Nat} {c : Caps} (hr : r.Numbered) (hp : p ≤ s.length) (h : attempt C n s f r p = .ok c) :
    shape c.groups = shape r.captures := ((attempt_safe C hr hp).2 c h).1.shape

theorem shape_search (hr : r.Numbered) (h : cSearch C n s f r = .done c) : shape c.groups = shape r.captures := by
  cases hm : c.whole.matched with
  | true =>
    obtain ⟨j, hj, h1, _⟩ := searchLoop_ok h hm
    exact shape_attempt hr (by split at hj <;> omega) h1
  | false =>
    have := (searchLoop_fail' hr (by split <;> omega) h hm).1
    rw [this]; rfl

/-- C39: every group of the pattern is reachable by its number, and the result has one slot for each, plus
one for the whole match. -/
theorem C39_reachable_by_number (hr : r.WellNumbered) (h : cSearch C n s f r = .done c) :
    c.count = r.captures.length + 1 ∧ (∀ g ∈ c.groups, c.get g.id = some g.slot) ∧
    ∀ id ∈ groupIds r.captures, (c.get id).isSome = true := by
  have hsh := shape_search hr.numbered h
  have hids : groupIds c.groups = groupIds r.captures := by rw [groupIds_shape, groupIds_shape, hsh]
  refine ⟨?_, ?_, ?_⟩
  · have := congrArg List.length hsh
    simp only [shape, List.length_map] at this
    simp [Caps.count, this]
  · intro g hg
    have hnz : g.id ≠ 0 := by
      have h1 : g.id ∈ groupIds c.groups := List.mem_map.2 ⟨g, hg, rfl⟩
      rw [hids] at h1
      intro h0
      rw [h0] at h1
      exact hr.positive h1
    have hnd : (groupIds c.groups).Nodup := by rw [hids]; exact hr.distinct
    simp only [Caps.get, if_neg hnz]
    clear hids hsh hnz
    generalize c.groups = gs at hg hnd
    induction gs with
    | nil => simp at hg
    | cons x gs ih =>
      simp only [groupIds, List.map_cons, List.nodup_cons] at hnd
      simp only [selectId]
      rcases List.mem_cons.1 hg with rfl | hg
      · simp
      · rw [if_neg]
        · exact ih hg hnd.2
        · intro h
          exact hnd.1 (List.mem_map.2 ⟨g, hg, h.symm⟩)
  · intro id hid
    rw [← hids, ← hasId_iff, ← selectId_isSome] at hid
    unfold Caps.get
    split
    · rfl
    · exact hid

/-- C39: access by name is access by the number of the first group with that name. -/
theorem C39_named_access (hr : r.WellNumbered) (h : cSearch C n s f r = .done c) (name : List Nat) :
    c.getName name = (groupNumber r.captures name).bind c.get := by
  have hsh := shape_search hr.numbered h
  have hids : groupIds c.groups = groupIds r.captures := by rw [groupIds_shape, groupIds_shape, hsh]
  unfold Caps.getName
  rw [selectName_eq (by rw [hids]; exact hr.distinct), groupNumber_shape name hsh]
  cases hg : groupNumber r.captures name with
  | none => rfl
  | some id =>
    have hid : id ∈ groupIds r.captures := by
      clear h hsh hids hr
      generalize r.captures = gs at hg
      induction gs with
      | nil => simp [groupNumber] at hg
      | cons g gs ih =>
        simp only [groupNumber] at hg
        split at hg
        · simp only [Option.some.injEq] at hg; subst hg; simp [groupIds]
        · have := ih hg; simp [groupIds] at this ⊢; exact .inr this
    have : id ≠ 0 := fun h0 => hr.positive (h0 ▸ hid)
    simp [Caps.get, this]

/-! ### Cases -/

/-- `(?<x>a)|(b)` -/
def sampleNamed : Re := .sel [.cap 1 (some [120]) [.cc (.chr 97)], .cap 2 none [.cc (.chr 98)]]

example : sampleNamed.WellNumbered := ⟨by decide, by decide, by decide⟩
example : cSearch {} 20 [98] {} sampleNamed = .done { whole := ⟨some 0, some 1, true⟩, groups :=
    [{ id := 1, name := some [120] }, { id := 2, slot := ⟨some 0, some 1, true⟩ }] } := by decide +kernel
example : groupNumber sampleNamed.captures [120] = some 1 := by decide

end Ctre

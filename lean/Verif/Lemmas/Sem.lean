import Verif.Spec.Iterate
import Verif.Lemmas.EvalEqs

/-
Relational meaning of stacks, on the state of the machine (capture slots included).  An intermediate
step between the machine and the specification.
-/
namespace Ctre

/-- Position, modes and groups. -/
structure SSt where
  pos : Nat
  ml : Bool
  ci : Bool
  gs : List Group

/-- The flags with the modes of a state. -/
def SSt.flags (x : SSt) : Flags := { blk := false, ml := x.ml, ci := x.ci }

/-- Slot a back reference reads. -/
def refSlot (gs : List Group) (id : Nat) : Option Slot := if id = 0 then some {} else selectId id gs

mutual
def Re.Sem (U : Uni) : Re → List Ch → SSt → SSt → Prop
  | .cc cl, s, x, y => ∃ v, s[x.pos]? = some v ∧ cl.matchChar U x.ci v = true ∧
      y = { x with pos := x.pos + 1 }
  | .any, s, x, y => ∃ v, s[x.pos]? = some v ∧ (x.ml = true → v ≠ 10) ∧ y = { x with pos := x.pos + 1 }
  | .str cs, s, x, y => ∃ p, matchString x.ci s cs x.pos = .yes p ∧ y = { x with pos := p }
  | .sel l, s, x, y => SemSel U l s x y
  | .seq l, s, x, y => SemSeq U l s x y
  | .empty, _, x, y => y = x
  | .rep _ a b l, s, x, y => ∃ k, a ≤ k ∧ (b = 0 ∨ k ≤ b) ∧
      Iterate (fun x y => ∃ z, SemSeq U l s x z ∧ y = { z with ml := x.ml, ci := x.ci }) k x y
  | .cap id _ l, s, x, y => hasId id x.gs = true ∧ ∃ z,
      SemSeq U l s { x with gs := modifyId id (fun sl => { sl with b := some x.pos }) x.gs } z ∧
      y = { z with gs := modifyId id (fun sl => { sl with e := some z.pos, matched := true }) z.gs }
  | .bref id, s, x, y => ∃ p q, brefCmp s x.pos (refSlot x.gs id) = some (.yes p, q) ∧
      y = { x with pos := p }
  | .brefName n, s, x, y => ∃ p q, brefCmp s x.pos (selectName n x.gs) = some (.yes p, q) ∧
      y = { x with pos := p }
  | .ahead true l, s, x, y => ∃ z, SemSeq U l s x z ∧ y = { x with gs := z.gs }
  | .ahead false l, s, x, y => (¬ ∃ z, SemSeq U l s x z) ∧ y = x
  | .behind true l, s, x, y => ∃ z, SemSeq U l s.reverse { x with pos := s.length - x.pos } z ∧
      y = { x with gs := z.gs }
  | .behind false l, s, x, y =>
      (¬ ∃ z, SemSeq U l s.reverse { x with pos := s.length - x.pos } z) ∧ y = x
  | .atomic l, s, x, y => ∃ z, SemSeq U l s x z ∧ y = { z with ml := x.ml, ci := x.ci }
  | .mode m, _, x, y =>
      y = { x with ml := (x.flags.add m).ml, ci := (x.flags.add m).ci }
  | .boundary c, s, x, y => testAt U s x.pos x.flags (.boundary c) = .yes ∧ y = x
  | .notBoundary c, s, x, y => testAt U s x.pos x.flags (.notBoundary c) = .yes ∧ y = x
  | .sBegin, s, x, y => testAt U s x.pos x.flags .sBegin = .yes ∧ y = x
  | .sEnd, s, x, y => testAt U s x.pos x.flags .sEnd = .yes ∧ y = x
  | .sEndLine, s, x, y => testAt U s x.pos x.flags .sEndLine = .yes ∧ y = x
  | .lBegin, s, x, y => testAt U s x.pos x.flags .lBegin = .yes ∧ y = x
  | .lEnd, s, x, y => testAt U s x.pos x.flags .lEnd = .yes ∧ y = x
  | .reject _, _, _, _ => False

def SemSeq (U : Uni) : List Re → List Ch → SSt → SSt → Prop
  | [], _, x, y => y = x
  | r :: l, s, x, y => ∃ z, Re.Sem U r s x z ∧ SemSeq U l s z y

def SemSel (U : Uni) : List Re → List Ch → SSt → SSt → Prop
  | [], _, _, _ => False
  | r :: l, s, x, y => Re.Sem U r s x y ∨ SemSel U l s x y
end

/-- One iteration of a loop: modes set inside do not survive. -/
def BodyR (U : Uni) (l : List Re) (s : List Ch) (x y : SSt) : Prop :=
  ∃ z, SemSeq U l s x z ∧ y = { z with ml := x.ml, ci := x.ci }

theorem Re.Sem_test {U : Uni} {r : Re} (h : r.isTest = true) {s : List Ch} {x y : SSt} :
    r.Sem U s x y ↔ testAt U s x.pos x.flags r = .yes ∧ y = x := by
  cases r <;> first | (simp [Re.isTest] at h; done) | simp [Re.Sem]

/-- Meaning of a stack; the marks for the whole match have no effect here. -/
def StackSem (U : Uni) : Stack → List Ch → SSt → SSt → Prop
  | [], _, _, _ => False
  | .accept :: t, _, x, y => t = [] ∧ y = x
  | .endCycle :: t, _, x, y => t = [] ∧ y = x
  | .endAhead :: t, _, x, y => t = [] ∧ y = x
  | .endBehind :: t, _, x, y => t = [] ∧ y = x
  | .startMark :: t, s, x, y => StackSem U t s x y
  | .endMark :: t, s, x, y => StackSem U t s x y
  | .numMark id :: t, s, x, y => hasId id x.gs = true ∧ StackSem U t s
      { x with gs := modifyId id (fun sl => { sl with e := some x.pos, matched := true }) x.gs } y
  | .re r :: t, s, x, y => ∃ z, r.Sem U s x z ∧ StackSem U t s z y

theorem StackSem_items {U : Uni} {l : List Re} {t : Stack} {s : List Ch} : ∀ {x y : SSt},
    StackSem U (items l t) s x y ↔ ∃ z, SemSeq U l s x z ∧ StackSem U t s z y := by
  induction l with
  | nil => intro x y; simp [items, SemSeq]
  | cons r l ih =>
    intro x y
    have : items (r :: l) t = .re r :: items l t := rfl
    rw [this]
    simp only [StackSem, SemSeq, ih]
    constructor
    · rintro ⟨z, h, w, h', h''⟩; exact ⟨w, ⟨z, h, h'⟩, h''⟩
    · rintro ⟨w, ⟨z, h, h'⟩, h''⟩; exact ⟨z, h, w, h', h''⟩

/-- State of the machine without the slot of the whole match. -/
def sst (cur : Nat) (f : Flags) (c : Caps) : SSt := ⟨cur, f.ml, f.ci, c.groups⟩

/-- Identifiers and names of the groups; they never change. -/
abbrev Shape := List (Nat × Option (List Nat))

/-- Identifiers and names of the groups; they never change. -/
def shape (gs : List Group) : Shape := gs.map fun g => (g.id, g.name)

theorem shape_modifyId (id : Nat) (g : Slot → Slot) (gs : List Group) :
    shape (modifyId id g gs) = shape gs := by
  induction gs with
  | nil => rfl
  | cons x gs ih =>
    unfold modifyId
    split
    · simp [shape]
    · simpa [shape] using ih

theorem hasId_shape {id : Nat} : ∀ {gs gs' : List Group}, shape gs = shape gs' → hasId id gs = hasId id gs'
  | [], [], _ => rfl
  | [], _ :: _, h => by simp [shape] at h
  | _ :: _, [], h => by simp [shape] at h
  | g :: gs, g' :: gs', h => by
    simp only [shape, List.map_cons, List.cons.injEq, Prod.mk.injEq] at h
    simp only [hasId, h.1.1]
    rw [hasId_shape (gs := gs) (gs' := gs') h.2]

theorem Iterate.inv {α : Type} {R : α → α → Prop} {P : α → Prop} (hR : ∀ x y, R x y → P x → P y)
    {k : Nat} {x y : α} (h : Iterate R k x y) (hx : P x) : P y := by
  induction h with
  | zero => exact hx
  | succ h1 _ ih => exact ih (hR _ _ h1 hx)

mutual
theorem Re.Sem.shape {U : Uni} : ∀ {r : Re} {s : List Ch} {x y : SSt}, r.Sem U s x y →
    Ctre.shape y.gs = Ctre.shape x.gs
  | .sel l, s, x, y, h => by simp only [Re.Sem] at h; exact SemSel.shape h
  | .seq l, s, x, y, h => by simp only [Re.Sem] at h; exact SemSeq.shape h
  | .rep _ _ _ l, s, x, y, h => by
    simp only [Re.Sem] at h
    obtain ⟨k, _, _, h⟩ := h
    refine Iterate.inv (P := fun z => Ctre.shape z.gs = Ctre.shape x.gs) ?_ h rfl
    rintro u v ⟨z, hz, rfl⟩ hu
    exact (SemSeq.shape hz).trans hu
  | .cap _ _ l, s, x, y, h => by
    simp only [Re.Sem] at h
    obtain ⟨_, z, hz, rfl⟩ := h
    simpa [shape_modifyId] using SemSeq.shape hz
  | .ahead true l, s, x, y, h => by
    simp only [Re.Sem] at h; obtain ⟨z, hz, rfl⟩ := h; simpa using SemSeq.shape hz
  | .behind true l, s, x, y, h => by
    simp only [Re.Sem] at h; obtain ⟨z, hz, rfl⟩ := h; simpa using SemSeq.shape hz
  | .ahead false l, s, x, y, h => by simp only [Re.Sem] at h; rw [h.2]
  | .behind false l, s, x, y, h => by simp only [Re.Sem] at h; rw [h.2]
  | .atomic l, s, x, y, h => by
    simp only [Re.Sem] at h; obtain ⟨z, hz, rfl⟩ := h; simpa using SemSeq.shape hz
  | .cc _, s, x, y, h | .any, s, x, y, h => by
    simp only [Re.Sem] at h; obtain ⟨_, _, _, rfl⟩ := h; rfl
  | .str _, s, x, y, h => by
    simp only [Re.Sem] at h; obtain ⟨_, _, rfl⟩ := h; rfl
  | .bref _, s, x, y, h | .brefName _, s, x, y, h => by
    simp only [Re.Sem] at h; obtain ⟨_, _, _, rfl⟩ := h; rfl
  | .empty, s, x, y, h | .mode _, s, x, y, h => by simp only [Re.Sem] at h; rw [h]
  | .reject _, s, x, y, h => by simp [Re.Sem] at h
  | .boundary _, s, x, y, h | .notBoundary _, s, x, y, h | .sBegin, s, x, y, h | .sEnd, s, x, y, h
  | .sEndLine, s, x, y, h | .lBegin, s, x, y, h | .lEnd, s, x, y, h => by
    simp only [Re.Sem] at h; rw [h.2]

theorem SemSeq.shape {U : Uni} : ∀ {l : List Re} {s : List Ch} {x y : SSt}, SemSeq U l s x y →
    Ctre.shape y.gs = Ctre.shape x.gs
  | [], s, x, y, h => by simp only [SemSeq] at h; rw [h]
  | r :: l, s, x, y, h => by
    simp only [SemSeq] at h
    obtain ⟨z, h1, h2⟩ := h
    exact (SemSeq.shape h2).trans (Re.Sem.shape h1)

theorem SemSel.shape {U : Uni} : ∀ {l : List Re} {s : List Ch} {x y : SSt}, SemSel U l s x y →
    Ctre.shape y.gs = Ctre.shape x.gs
  | [], s, x, y, h => by simp [SemSel] at h
  | r :: l, s, x, y, h => by
    simp only [SemSel] at h
    rcases h with h | h
    · exact Re.Sem.shape h
    · exact SemSel.shape h
end

end Ctre

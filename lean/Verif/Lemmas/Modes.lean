import Verif.Spec.Modes
import Verif.Lemmas.Literal
import Verif.Lemmas.FlatEval
import Verif.Lemmas.Transfer
import Verif.Lemmas.Runs
import Verif.Lemmas.SurfaceMeaning

/-
Inline modes.
-/
namespace Ctre
open Parse Surface

theorem ci_add (f : Flags) (m : Mode) :
    (f.add m).ci = if m = .caseInsensitive then true else if m = .caseSensitive then false else f.ci := by
  cases m <;> simp [Flags.add]

theorem add_ml (f : Flags) (m : Mode) :
    (f.add m).ml = if m = .multiline then true else if m = .singleline then false else f.ml := by
  cases m <;> simp [Flags.add]

/-- The last of the two settings wins. -/
theorem fold_last {g : Flags → Bool} {x y : Mode} (hxy : x ≠ y)
    (hg : ∀ f m, g (f.add m) = if m = x then true else if m = y then false else g f) :
    ∀ (l : List Mode) (f : Flags), g (l.foldl Flags.add f) = true ↔ LastIs x [y] l ∨ (g f = true ∧ y ∉ l)
  | [], f => by simp [LastIs]
  | m :: l, f => by
    rw [List.foldl_cons, fold_last hxy hg l]
    have h : LastIs x [y] (m :: l) ↔ LastIs x [y] l ∨ (m = x ∧ y ∉ l) := by
      constructor
      · rintro ⟨l₁, l₂, h1, h2⟩
        cases l₁ with
        | nil =>
          cases h1
          exact .inr ⟨rfl, h2 y (by simp)⟩
        | cons m' l₁ =>
          cases h1
          exact .inl ⟨l₁, l₂, rfl, h2⟩
      · rintro (⟨l₁, l₂, rfl, h2⟩ | ⟨rfl, h⟩)
        · exact ⟨m :: l₁, l₂, rfl, h2⟩
        · exact ⟨[], l, rfl, by simpa using h⟩
    rw [h, hg]
    by_cases h1 : m = x
    · subst h1
      have hne : ¬ y = m := fun h => hxy h.symm
      by_cases h3 : y ∈ l <;> simp [hne, h3]
    · by_cases h2 : m = y
      · subst h2; simp [h1]
      · simp [h1, h2, Ne.symm h2]

namespace Parse

theorem ms_ne {b a : Re} (ha : a ≠ .seq []) : makeSequence b a ≠ .seq [] := by
  unfold makeSequence
  repeat' split
  all_goals first | simp | skip
  all_goals
    unfold combineRepeat
    repeat' split
    all_goals simp

theorem kind_ne {k : RepKind} {r : Re} (h : r ≠ .seq []) : kindTree k r ≠ .seq [] := by
  unfold kindTree
  split
  · simp
  · simp
  · exact h

theorem optional_ne (r : Re) : makeOptional r ≠ .seq [] := by
  unfold makeOptional
  split <;> simp

theorem quant_ne {q : Quant} {r : Re} (h : r ≠ .seq []) : quantTree q r ≠ .seq [] := by
  cases q <;> simp only [quantTree]
  · exact h
  · exact kind_ne (optional_ne r)
  · exact kind_ne (by simp)
  · exact kind_ne (by simp)
  · simp
  · exact kind_ne (by simp)
  · exact kind_ne (by simp)

theorem alternate_ne (b a : Re) : makeAlternate b a ≠ .seq [] := by
  unfold makeAlternate
  split <;> simp

mutual
theorem atom_ne : ∀ a : Atom, atomTree a ≠ .seq []
  | .group b => by simp only [atomTree]; exact body_ne b
  | .ch _ | .cls _ | .set _ _ | .dot | .bol | .eol | .subjectBegin | .subjectEnd | .subjectEndLine | .unknown _ _ | .wordBoundary
  | .notWordBoundary | .ref _ | .refNumber _ | .refRelative _ _ | .refName _ | .cap _ _ | .named _ _ _ | .ahead _ _
  | .behind _ _ | .atomic _ | .mode _ => by simp [atomTree]
theorem cat_ne : ∀ l : Cat, catTree l ≠ .seq []
  | .one a q => by simp only [catTree]; exact quant_ne (atom_ne a)
  | .cons a q l => by simp only [catTree]; exact ms_ne (quant_ne (atom_ne a))
theorem alt_ne : ∀ l : Alt, altTree l ≠ .seq []
  | .empty => by simp [altTree]
  | .one c => by simp only [altTree]; exact cat_ne c
  | .bar c l => by simp only [altTree]; exact alternate_ne _ _
theorem body_ne : ∀ b : Body, bodyTree b ≠ .seq []
  | .alt l => by simp only [bodyTree]; exact alt_ne l
  | .lead l => by simp only [bodyTree]; exact alternate_ne _ _
end

theorem mode_seq (m : Mode) (x : Re) (l : List Re) : makeSequence (.seq (x :: l)) (.mode m) = .seq (.mode m :: x :: l) := by
  unfold makeSequence
  split <;> simp_all

theorem mode_flat {m : Mode} {b : Re} (hb : b ≠ .seq []) : (makeSequence b (.mode m)).flat = (Re.seq [.mode m, b]).flat := by
  cases b with
  | seq l =>
    cases l with
    | nil => exact (hb rfl).elim
    | cons x l => simp [mode_seq, Re.flat, flatList]
  | _ => simp [makeSequence, Re.flat, flatList]

theorem runs_moded {C : Cfg} {s : List Ch} {lb : Bool} {cur : Nat} {f : Flags} {c : Caps} {t : Stack} {m : Mode} {b : Re}
    (hb : b ≠ .seq []) {o : Out} :
    Runs C s lb cur f c (.re (makeSequence b (.mode m)) :: t) o ↔ Runs C s lb cur (f.add m) c (.re b :: t) o := by
  have e : flatStack (.re (makeSequence b (.mode m)) :: t) = flatStack (.re (.seq [.mode m, b]) :: t) := by
    simp only [flatStack, Item.flat, mode_flat hb]
  rw [show Runs C s lb cur f c (.re (makeSequence b (.mode m)) :: t) o ↔
      Runs C s lb cur f c (.re (.seq [.mode m, b]) :: t) o from ⟨runs_flat e, runs_flat e.symm⟩]
  rw [runs_seq_cons, runs_mode, runs_seq_one]

theorem captures_moded {m : Mode} {b : Re} (hb : b ≠ .seq []) : initCaps (makeSequence b (.mode m)) = initCaps b := by
  unfold initCaps
  rw [← captures_flat, mode_flat hb, captures_flat]
  simp [Re.captures, capturesList]

theorem andThen_print : ∀ l l' : Cat, (l.andThen l').print = l.print ++ l'.print
  | .one a q, l' => by simp [Cat.andThen, Cat.print]
  | .cons a q l, l' => by simp [Cat.andThen, Cat.print, andThen_print l l']

theorem inline_print (pre : Cat) (m : Mode) (post : Cat) :
    (pre.inline m post).print = pre.print ++ modeText m ++ post.print := by
  simp [Cat.inline, andThen_print, Cat.print, Atom.print, Quant.print, modeText]

theorem andThen_wf {find : List Nat → Option (List Nat) → Option Nat} : ∀ (l l' : Cat) (k : Nat),
    (l.andThen l').WF find k ↔ l.WF find k ∧ l'.WF find (k + l.groups)
  | .one a q, l', k => by simp [Cat.andThen, Cat.WF, Cat.groups, and_assoc]
  | .cons a q l, l', k => by
    simp [Cat.andThen, Cat.WF, Cat.groups, and_assoc, andThen_wf l l', Nat.add_assoc]

theorem inline_wf {find : List Nat → Option (List Nat) → Option Nat} {pre post : Cat} {m : Mode} {k : Nat}
    (h1 : pre.WF find k) (h2 : post.WF find (k + pre.groups)) : (pre.inline m post).WF find k := by
  unfold Cat.inline
  rw [andThen_wf]
  refine ⟨h1, ?_⟩
  simpa [Cat.WF, Atom.WF, Quant.WF, Atom.groups] using h2

theorem andThen_match {E : Env} : ∀ (l l' : Cat) {s : List Ch} {σ τ : MState},
    (l.andThen l').Match E s σ τ ↔ ∃ ρ, l.Match E s σ ρ ∧ l'.Match E s ρ τ
  | .one a q, l', s, σ, τ => by
    cases q <;> simp only [Cat.andThen, Cat.Match]
  | .cons a q l, l', s, σ, τ => by
    have ih := fun (ρ : MState) => andThen_match (E := E) l l' (s := s) (σ := ρ) (τ := τ)
    have assoc : ∀ A : MState → Prop, (∃ ρ, A ρ ∧ ∃ π, l.Match E s ρ π ∧ l'.Match E s π τ) ↔
        ∃ π, (∃ ρ, A ρ ∧ l.Match E s ρ π) ∧ l'.Match E s π τ :=
      fun A => ⟨fun ⟨ρ, a, π, b, c⟩ => ⟨π, ⟨ρ, a, b⟩, c⟩, fun ⟨π, ⟨ρ, a, b⟩, c⟩ => ⟨ρ, a, π, b, c⟩⟩
    cases q <;> simp only [Cat.andThen, Cat.Match, ih] <;> exact assoc _

theorem inline_match {E : Env} {pre post : Cat} {m : Mode} {s : List Ch} {σ τ : MState} :
    (pre.inline m post).Match E s σ τ ↔ ∃ ρ, pre.Match E s σ ρ ∧ post.Match E s (ρ.setMode m) τ := by
  unfold Cat.inline
  rw [andThen_match]
  refine exists_congr fun ρ => and_congr_right fun _ => ?_
  simp [Cat.Match, Atom.Match]

/-! ### Text with a mode in the middle -/

theorem litInline_tree (m : Mode) (w : Nat) (ws : List Nat) : ∀ (v : Nat) (vs : List Nat),
    catTree ((litCat v vs).inline m (litCat w ws)) = .seq [litTree (v :: vs), .mode m, litTree (w :: ws)]
  | v, [] => by
    simp only [litCat, Cat.inline, Cat.andThen, catTree, quantTree, atomTree, litCat_tree]
    cases ws <;> rfl
  | v, [x] => by
    have := litInline_tree m w ws x []
    simp only [litCat, Cat.inline, Cat.andThen, catTree, quantTree, atomTree] at this ⊢
    rw [this]
    rfl
  | v, x :: y :: vs => by
    have := litInline_tree m w ws x (y :: vs)
    simp only [litCat, Cat.inline, Cat.andThen, catTree, quantTree, atomTree] at this ⊢
    rw [this]
    rfl

end Parse
end Ctre

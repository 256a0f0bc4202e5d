import Verif.Spec.Spelling
import Verif.Lemmas.ParseBody
import Verif.Lemmas.SurfaceMeaning

/-
Trees do not depend on the spelling of characters and numbers.
-/
namespace Ctre.Parse
open Surface

theorem charTree_plainly (c : Char1) : charTree c.plainly = charTree c := by
  cases c with
  | control l =>
    by_cases h : l = 101
    · simp [Char1.plainly, charTree, h]
    · simp [Char1.plainly, charTree, Char1.code, h]
  | _ => rfl

theorem decimal_plain (ds : List Nat) : decimal (plainNumber ds) % szMod = decimal ds % szMod := by
  simp only [plainNumber, decimal, List.foldl_cons, List.foldl_nil]
  simp only [szMod]
  omega

theorem itemTree_plainly (i : SetItem) : itemTree i.plainly = itemTree i := by
  cases i <;> simp only [SetItem.plainly, itemTree, charTree_plainly]

theorem itemsTree_plainly (l : List SetItem) : itemsTree (l.map SetItem.plainly) = itemsTree l := by
  cases l with
  | nil => rfl
  | cons i l =>
    simp only [List.map_cons, itemsTree, itemTree_plainly, List.foldl_map]

theorem quantTree_plainly (q : Quant) (r : Re) : quantTree q.plainly r = quantTree q r := by
  cases q <;> simp only [Quant.plainly, quantTree, decimal_plain]

mutual
theorem atomTree_plainly : ∀ a : Atom, atomTree a.plainly = atomTree a
  | .ch c => by simp only [Atom.plainly, atomTree, charTree_plainly]
  | .cls c => by simp only [Atom.plainly]
  | .set neg l => by simp only [Atom.plainly, atomTree, setTree, itemsTree_plainly]
  | .dot => by simp only [Atom.plainly]
  | .bol => by simp only [Atom.plainly]
  | .eol => by simp only [Atom.plainly]
  | .subjectBegin => by simp only [Atom.plainly]
  | .subjectEnd => by simp only [Atom.plainly]
  | .subjectEndLine => by simp only [Atom.plainly]
  | .unknown _ _ => by simp only [Atom.plainly]
  | .wordBoundary => by simp only [Atom.plainly]
  | .notWordBoundary => by simp only [Atom.plainly]
  | .ref d => by simp only [Atom.plainly]
  | .refNumber ds => by simp only [Atom.plainly, atomTree, decimal_plain]
  | .refRelative ds id => by simp only [Atom.plainly, atomTree]
  | .refName n => by simp only [Atom.plainly]
  | .cap id b => by simp only [Atom.plainly, atomTree, bodyTree_plainly b]
  | .named id n b => by simp only [Atom.plainly, atomTree, bodyTree_plainly b]
  | .group b => by simp only [Atom.plainly, atomTree, bodyTree_plainly b]
  | .ahead pos b => by simp only [Atom.plainly, atomTree, bodyTree_plainly b]
  | .behind pos b => by simp only [Atom.plainly, atomTree, bodyTree_plainly b]
  | .atomic b => by simp only [Atom.plainly, atomTree, bodyTree_plainly b]
  | .mode m => by simp only [Atom.plainly]
theorem catTree_plainly : ∀ l : Cat, catTree l.plainly = catTree l
  | .one a q => by simp only [Cat.plainly, catTree, quantTree_plainly, atomTree_plainly a]
  | .cons a q l => by simp only [Cat.plainly, catTree, quantTree_plainly, atomTree_plainly a, catTree_plainly l]
theorem altTree_plainly : ∀ l : Alt, altTree l.plainly = altTree l
  | .empty => by simp only [Alt.plainly]
  | .one c => by simp only [Alt.plainly, altTree, catTree_plainly c]
  | .bar c l => by simp only [Alt.plainly, altTree, catTree_plainly c, altTree_plainly l]
theorem bodyTree_plainly : ∀ b : Body, bodyTree b.plainly = bodyTree b
  | .alt l => by simp only [Body.plainly, bodyTree, altTree_plainly l]
  | .lead l => by simp only [Body.plainly, bodyTree, altTree_plainly l]
end

/-- The pattern that consists of one quantified atom. -/
def _root_.Ctre.Surface.Body.just (a : Atom) (q : Quant) : Body := .alt (.one (.one a q))

theorem just_print (a : Atom) (q : Quant) : (Body.just a q).print = a.print ++ q.print := by
  simp only [Body.just, Body.print, Alt.print, Cat.print]

theorem just_build {P : PropTable} {a : Atom} {q : Quant} (ha : a.WF P.find 0) (hq : q.WF) (hl : q = .opt .poss → a.lazyOnly = false) :
    build P (a.print ++ q.print) = .pattern (quantTree q (atomTree a)) := by
  have := build_print (P := P) (b := Body.just a q) (by simp only [Body.just, Body.WF, Alt.WF, Cat.WF]; exact ⟨ha, hq, hl⟩)
  rw [just_print] at this
  rw [this]
  simp only [Body.just, bodyTree, altTree, catTree]

theorem char_build {P : PropTable} {c : Char1} (hc : c.WF special) : build P c.print = .pattern (.cc (.chr (charTree c))) := by
  have := just_build (P := P) (a := .ch c) (q := .none) (by simpa only [Atom.WF] using hc) trivial (by simp)
  simpa only [Atom.print, Quant.print, List.append_nil, quantTree, atomTree] using this

theorem set_build {P : PropTable} {neg : Bool} {l : List SetItem} (h : SetWF P.find neg l) :
    build P ([91] ++ (if neg then [94] else []) ++ printItems l ++ [93]) = .pattern (.cc (setTree neg l)) := by
  have := just_build (P := P) (a := .set neg l) (q := .none) (by simpa only [Atom.WF] using h) trivial (by simp)
  simpa only [Atom.print, Quant.print, List.append_nil, quantTree, atomTree] using this

end Ctre.Parse

import Verif.Model.Api
import Verif.Spec.Cursor
import Verif.Spec.Utf8

/-
What is written in a call: the text of the pattern in a literal of some character type, and the subject in some representation.
-/
namespace Ctre

/-- The literal spells the text `t`, a sequence of code points. -/
inductive PatLit.Spells : PatLit → List Nat → Prop
  | utf8 (t : List Nat) : PatLit.Spells (.utf8 (utf8Encode t)) t
  | utf16 (t : List Nat) : PatLit.Spells (.utf16 (utf16Encode t)) t
  | utf32 (t : List Nat) : PatLit.Spells (.utf32 t) t
  | ascii (t : List Nat) : (∀ c ∈ t, c < 128) → PatLit.Spells (.narrow (t.map fun c : Nat => (c : Int))) t

/-- The subject holds the code points `s`; the code point with index `i` is at position `φ i`. -/
inductive Subject.Holds : Subject → List Nat → (Nat → Nat) → Prop
  | view (s : List Nat) : Subject.Holds (.view (s.map fun c : Nat => (c : Int))) s id
  | cstr (s : List Nat) (rest : List Ch) : 0 ∉ s → Subject.Holds (.cstr ((s.map fun c : Nat => (c : Int)) ++ 0 :: rest)) s id
  | utf8 (s : List Nat) : Subject.Holds (.u8 (utf8Encode s)) s (utf8Offset s)

end Ctre

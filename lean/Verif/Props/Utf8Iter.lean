import Verif.Model.Utf8Iter
import Verif.Props.Malformed

/-
C72: moving and comparing UTF-8 iterators.
-/
namespace Ctre

/-- C72: on arbitrary bytes, adding `k` to the iterator at the `i`-th value of the reading gives the iterator at the value
`i + k`, and reads outside the buffer exactly if there are fewer than `k` values from there on. -/
theorem C72_plus {b : List Nat} (hb : ∀ u ∈ b, u < 256) {r : List (Nat × Nat)} (h : Decodes b r) {i : Nat} (hi : i ≤ r.length)
    (k : Nat) : utf8Plus b (startOf r i) k = if i + k ≤ r.length then some (startOf r (i + k)) else none := by
  have H := decodes_walks (L := true) hb h
  have hlen : (codePoints (values r)).length = r.length := by simp [codePoints, values]
  induction k generalizing i with
  | zero => simp [utf8Plus, hi]
  | succ k ih =>
    unfold utf8Plus
    rcases Nat.lt_or_ge i r.length with hl | hl
    · have := H.next i (by rw [hlen]; exact hl)
      rw [show utf8Next b (startOf r i) = some (startOf r (i + 1)) from this]
      simp only [Option.bind_some, ih (show i + 1 ≤ r.length by omega)]
      rw [show i + 1 + k = i + (k + 1) by omega]
    · have he : i = r.length := by omega
      have := H.atEnd i (by rw [hlen]; exact hi)
      rw [hlen, he] at this
      simp only [utf8Cursor, decide_true, Option.some.injEq, decide_eq_true_eq] at this
      have hn : utf8Next b (startOf r i) = none := by
        unfold utf8Next
        rw [List.getElem?_eq_none (by rw [he]; exact this)]; rfl
      rw [hn, if_neg (by omega)]
      rfl

theorem utf8Prev_begin {s : List Nat} (hs : ∀ c ∈ s, IsScalar c) : utf8Prev (utf8Encode s) 0 = none := by
  unfold utf8Prev
  rw [if_neg (by omega)]

/-- C72: on a well-formed text, adding and subtracting move by code points: from the `i`-th, `+ k` leads to the code
point `i + k` and `- k` to the code point `i - k`, and they read outside the buffer exactly if there is none and it is not
the end. -/
theorem C72_wellformed {s : List Nat} (hs : ∀ c ∈ s, IsScalar c) {i : Nat} (hi : i ≤ s.length) (k : Nat) :
    (utf8Plus (utf8Encode s) (utf8Offset s i) k = if i + k ≤ s.length then some (utf8Offset s (i + k)) else none) ∧
    (utf8Minus (utf8Encode s) (utf8Offset s i) k = if k ≤ i then some (utf8Offset s (i - k)) else none) := by
  have H := utf8_walks (L := true) hs ⟨true, false, false, true⟩ rfl (by simp)
  have hlen : (codePoints s).length = s.length := by simp [codePoints]
  constructor
  · induction k generalizing i with
    | zero => simp [utf8Plus, hi]
    | succ k ih =>
      unfold utf8Plus
      rcases Nat.lt_or_ge i s.length with hl | hl
      · rw [show utf8Next (utf8Encode s) (utf8Offset s i) = some (utf8Offset s (i + 1)) from H.next i (by rw [hlen]; exact hl)]
        simp only [Option.bind_some, ih (show i + 1 ≤ s.length by omega)]
        rw [show i + 1 + k = i + (k + 1) by omega]
      · have he : i = s.length := by omega
        have hn : utf8Next (utf8Encode s) (utf8Offset s i) = none := by
          unfold utf8Next
          rw [List.getElem?_eq_none (by rw [he, utf8Offset_length])]; rfl
        rw [hn, if_neg (by omega)]
        rfl
  · induction k generalizing i with
    | zero => simp [utf8Minus]
    | succ k ih =>
      unfold utf8Minus
      cases i with
      | zero => rw [utf8Offset_zero, utf8Prev_begin hs, if_neg (by omega)]; rfl
      | succ i =>
        rw [show utf8Prev (utf8Encode s) (utf8Offset s (i + 1)) = some (utf8Offset s i) from
          H.prev rfl i (by rw [hlen]; omega)]
        simp only [Option.bind_some, ih (show i ≤ s.length by omega)]
        rw [show i + 1 - (k + 1) = i - k by omega]
        by_cases hk : k ≤ i
        · rw [if_pos hk, if_pos (by omega)]
        · rw [if_neg hk, if_neg (by omega)]

/-- C72: subtracting undoes adding on a well-formed text. -/
theorem C72_round_trip {s : List Nat} (hs : ∀ c ∈ s, IsScalar c) {i k : Nat} (hi : i + k ≤ s.length) :
    ∃ q, utf8Plus (utf8Encode s) (utf8Offset s i) k = some q ∧ utf8Minus (utf8Encode s) q k = some (utf8Offset s i) := by
  refine ⟨utf8Offset s (i + k), ?_, ?_⟩
  · rw [(C72_wellformed hs (by omega) k).1, if_pos hi]
  · rw [(C72_wellformed hs hi k).2, if_pos (by omega), Nat.add_sub_cancel]

/-- C72: the postfix operators give the iterator before the step and leave the one that one step leads to. -/
theorem C72_postfix (b : List Nat) (p : Nat) :
    utf8PostInc b p = (utf8Plus b p 1).map (fun q => (p, q)) ∧ utf8PostDec b p = (utf8Minus b p 1).map (fun q => (p, q)) := by
  unfold utf8PostInc utf8PostDec utf8Plus utf8Minus
  constructor
  · cases utf8Next b p <;> rfl
  · cases utf8Prev b p <;> rfl

theorem isZero_declared (b : List Nat) (p : Nat) : isZero b p ≠ .undeclared := by
  unfold isZero
  cases b[p]? <;> simp

/-- C72: exchanging the operands of `==` makes no difference. -/
theorem C72_symmetric (L : CppMode) (b : List Nat) (x y : U8Side) : eqOp L b x y = eqOp L b y x := by
  cases L <;> cases x <;> cases y <;> simp only [eqOp, eqDeclared, reduceCtorEq, if_false, if_true, isZero_declared] <;>
    (congr 1; exact decide_eq_decide.2 ⟨Eq.symm, Eq.symm⟩)

theorem isNotZero_eq (b : List Nat) (p : Nat) : isNotZero b p = (isZero b p).not := by
  unfold isNotZero isZero
  cases b[p]? <;> simp [U8Cmp.not]

/-- C72: the language version makes no difference to `==`. -/
theorem C72_versions_agree (b : List Nat) (x y : U8Side) : eqOp .before20 b x y = eqOp .since20 b x y := by
  rcases x with ⟨p, e⟩ | p | _ <;> rcases y with ⟨q, e'⟩ | q | _ <;>
    simp only [eqOp, eqDeclared, reduceCtorEq, if_false, if_true, isZero_declared]
  congr 1
  exact decide_eq_decide.2 ⟨Eq.symm, Eq.symm⟩

/-- C72: `!=` is the negation of `==`, unless it is used before C++20 with a pointer on the left and an iterator on the
right. -/
theorem C72_negation (L : CppMode) (b : List Nat) (x y : U8Side)
    (h : L = .since20 ∨ ∀ q p e, ¬ (x = .ptr q ∧ y = .iter p e)) : neOp L b x y = (eqOp L b x y).not := by
  cases L with
  | since20 => rfl
  | before20 =>
    have h := h.resolve_left (by simp)
    rcases x with ⟨p, e⟩ | p | _ <;> rcases y with ⟨q, e'⟩ | q | _
    case ptr.iter => exact absurd ⟨rfl, rfl⟩ (h _ _ _)
    all_goals simp only [neOp, eqOp, eqDeclared, U8Cmp.not, isNotZero_eq, ne_eq, decide_not, ge_iff_le]
    all_goals
      congr 1
      rw [← decide_not]
      exact decide_eq_decide.2 (by omega)

/-- C72: before C++20 a pointer and an iterator at the same place are both equal and unequal, with the pointer on the
left. -/
theorem C72_fails_pointer_left (b : List Nat) (p e : Nat) :
    eqOp .before20 b (.ptr p) (.iter p e) = .val true ∧ neOp .before20 b (.ptr p) (.iter p e) = .val true ∧
    neOp .since20 b (.ptr p) (.iter p e) = .val false := by
  simp [eqOp, neOp, eqDeclared, U8Cmp.not]

/-- C72: an iterator equals the sentinel exactly if iteration is over: the offset is not inside the buffer. -/
theorem C72_sentinel (L : CppMode) (b : List Nat) (p : Nat) :
    eqOp L b (.iter p b.length) .sentinel = .val true ↔ utf8Deref b p = none := by
  cases L <;>
  · simp only [eqOp, eqDeclared, reduceCtorEq, if_false, U8Cmp.val.injEq, decide_eq_true_eq]
    constructor
    · intro h
      unfold utf8Deref
      rw [List.getElem?_eq_none h]
    · intro h
      rcases Nat.lt_or_ge p b.length with hp | hp
      · obtain ⟨v, hv⟩ := utf8Deref_some hp
        rw [h] at hv
        cases hv
      · exact hp

/-- C72: a pointer is compared with the sentinel by the zero it should point to, not by the end of the buffer: at the end
of a buffer without a terminating zero that is a read outside. -/
theorem C72_fails_pointer_sentinel (L : CppMode) (b : List Nat) : eqOp L b .sentinel (.ptr b.length) = .outside := by
  cases L <;> simp [eqOp, eqDeclared, isZero]

-- U+20AC, `a`, U+1F600
example : utf8Plus (utf8Encode [0x20AC, 0x61, 0x1F600]) 0 2 = some 4 := by decide +kernel
example : utf8Minus (utf8Encode [0x20AC, 0x61, 0x1F600]) 8 2 = some 3 := by decide +kernel
example : utf8Plus (utf8Encode [0x20AC, 0x61, 0x1F600]) 0 4 = none := by decide +kernel
example : utf8Minus (utf8Encode [0x20AC, 0x61, 0x1F600]) 3 2 = none := by decide +kernel
-- a stray continuation, and a truncated sequence at the end
example : utf8Plus [0x80, 0x61, 0xE2, 0x82] 0 3 = some 5 := by decide +kernel
example : eqOp .since20 [0x61] .sentinel (.iter 1 1) = .val true := by decide +kernel
example : neOp .before20 [0x61] (.iter 0 1) .sentinel = .val true := by decide +kernel

end Ctre

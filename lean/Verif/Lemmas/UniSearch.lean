import Verif.Lemmas.UniBits
/-
The binary searches of the Unicode database: what they find in sorted tables, and what they cannot
find in any table.
-/
namespace Ctre.Ucd

/-- The search stays inside the array, and stops between an element that sends it on and one that
does not.  Nothing is assumed about the order of the elements. -/
theorem boundLoop_spec (right : Nat → Bool) (d : List Nat) (fuel first count : Nat)
    (h : first + count ≤ d.length) (hf : count ≤ fuel) :
    ∃ r, boundLoop right d fuel first count = some r ∧ first ≤ r ∧ r ≤ first + count ∧
      (first < r → right (d.getD (r - 1) 0) = true) ∧
      (r < first + count → right (d.getD r 0) = false) := by
  induction fuel generalizing first count with
  | zero =>
    obtain rfl : count = 0 := by omega
    exact ⟨first, by simp [boundLoop], by omega, by omega, by omega, by omega⟩
  | succ fuel ih =>
    cases count with
    | zero => exact ⟨first, by simp [boundLoop], by omega, by omega, by omega, by omega⟩
    | succ count =>
      rw [boundLoop, rd_of_lt _ (by omega)]
      simp only []
      by_cases hr : right (d.getD (first + (count + 1) / 2) 0) = true
      · rw [if_pos hr]
        obtain ⟨r, e, h1, h2, h3, h4⟩ := ih (first + (count + 1) / 2 + 1) (count + 1 - ((count + 1) / 2 + 1))
          (by omega) (by omega)
        refine ⟨r, e, by omega, by omega, fun _ => ?_, fun k => h4 (by omega)⟩
        by_cases k : first + (count + 1) / 2 + 1 < r
        · exact h3 k
        · have : r - 1 = first + (count + 1) / 2 := by omega
          rw [this]; exact hr
      · rw [if_neg hr]
        obtain ⟨r, e, h1, h2, h3, h4⟩ := ih first ((count + 1) / 2) (by omega) (by omega)
        refine ⟨r, e, by omega, by omega, h3, fun _ => ?_⟩
        by_cases k : r < first + (count + 1) / 2
        · exact h4 k
        · have : r = first + (count + 1) / 2 := by omega
          rw [this]; simpa using hr

theorem lowerBound_spec (d : List Nat) (v : Nat) :
    ∃ r, lowerBound d v = some r ∧ r ≤ d.length ∧ (r < d.length → ¬ d.getD r 0 < v) := by
  obtain ⟨r, e, _, h2, _, h4⟩ := boundLoop_spec (fun x => decide (x < v)) d d.length 0 d.length (by omega) (by omega)
  refine ⟨r, e, by omega, fun k => ?_⟩
  simpa using h4 (by omega)

/-- A binary search never claims to have found an element the array does not have, sorted or not. -/
theorem binarySearch_mem {d : List Nat} {v : Nat} (h : binarySearch d v = some true) : v ∈ d := by
  obtain ⟨r, e, h1, h2⟩ := lowerBound_spec d v
  rw [binarySearch, e] at h
  simp only [] at h
  split at h
  · simp at h
  · rename_i hr
    rw [rd_of_lt _ (by omega)] at h
    simp only [Option.map_some, Option.some.injEq, Bool.not_eq_true', decide_eq_false_iff_not] at h
    have h3 := h2 (by omega)
    have : d.getD r 0 = v := by omega
    rw [← this]
    exact getD_mem (by omega)

theorem binarySearch_some (d : List Nat) (v : Nat) : ∃ b, binarySearch d v = some b := by
  obtain ⟨r, e, h1, h2⟩ := lowerBound_spec d v
  rw [binarySearch, e]
  simp only []
  split
  · exact ⟨_, rfl⟩
  · rw [rd_of_lt _ (by omega)]; exact ⟨_, rfl⟩

/-- A binary search in a sorted array finds what is there. -/
theorem binarySearch_sorted {d : List Nat} (hs : d.Pairwise (· ≤ ·)) (v : Nat) :
    binarySearch d v = some (d.contains v) := by
  obtain ⟨b, hb⟩ := binarySearch_some d v
  cases b with
  | true =>
    have := binarySearch_mem hb
    rw [hb]; simp [this]
  | false =>
    rw [hb]
    by_cases hm : v ∈ d
    · exfalso
      obtain ⟨r, e, _, h2, h3, h4⟩ := boundLoop_spec (fun x => decide (x < v)) d d.length 0 d.length
        (by omega) (by omega)
      rw [binarySearch, lowerBound, e] at hb
      simp only [] at hb
      obtain ⟨i, hi, rfl⟩ := List.getElem_of_mem hm
      have mono : ∀ i j, i ≤ j → (hj : j < d.length) → d.getD i 0 ≤ d.getD j 0 := by
        intro i j hij hj
        simp only [List.getD_eq_getElem?_getD, List.getElem?_eq_getElem hj, List.getElem?_eq_getElem (show i < d.length by omega), Option.getD_some]
        rcases Nat.lt_or_eq_of_le hij with k | k
        · exact List.pairwise_iff_getElem.1 hs i j (by omega) hj k
        · subst k; exact Nat.le_refl _
      have gi : d.getD i 0 = d[i] := by simp [List.getD_eq_getElem?_getD, List.getElem?_eq_getElem hi]
      have hri : r ≤ i := by
        by_contra hk
        have h5 := h3 (by omega)
        simp only [decide_eq_true_eq] at h5
        have := mono i (r - 1) (by omega) (by omega)
        omega
      rw [if_neg (by omega), rd_of_lt _ (by omega)] at hb
      simp only [Option.map_some, Option.some.injEq, Bool.not_eq_false', decide_eq_true_eq] at hb
      have := mono r i hri hi
      omega
    · simp [hm]

/-! ### Step tables -/

/-- The key of an entry: the first code point it is about. -/
def key (v : Nat) : Nat := v >>> 8

/-- The keys of a table do not get smaller, nor are they smaller than `k`. -/
def sortedFrom : Nat → List Nat → Bool
  | _, [] => true
  | k, v :: l => Nat.ble k (key v) && sortedFrom (key v) l

/-- A step table: sorted and starting with code point 0. -/
def stepsOk (d : List Nat) : Bool :=
  match d with
  | [] => false
  | v :: l => key v == 0 && sortedFrom 0 l

/-- The value of a step table at `c`: that of the last entry whose key is at most `c`, but none
behind the last key; `cur` before the first key. -/
def runAt (cur : Nat) : List Nat → Nat → Option Nat
  | [], _ => none
  | v :: l, c => if c < key v then some cur else runAt (v &&& 0xFF) l c

theorem sortedFrom_get {k : Nat} {d : List Nat} (h : sortedFrom k d = true) {i : Nat} (hi : i < d.length) :
    k ≤ key (d.getD i 0) := by
  induction d generalizing k i with
  | nil => simp at hi
  | cons v l ih =>
    simp only [sortedFrom, Bool.and_eq_true, Nat.ble_eq] at h
    cases i with
    | zero => exact h.1
    | succ i => exact Nat.le_trans h.1 (ih h.2 (by simpa using hi))

theorem sortedFrom_mono {k : Nat} {d : List Nat} (h : sortedFrom k d = true) {i j : Nat} (hij : i ≤ j)
    (hj : j < d.length) : key (d.getD i 0) ≤ key (d.getD j 0) := by
  induction d generalizing k i j with
  | nil => simp at hj
  | cons v l ih =>
    simp only [sortedFrom, Bool.and_eq_true, Nat.ble_eq] at h
    cases j with
    | zero => obtain rfl : i = 0 := by omega
              exact Nat.le_refl _
    | succ j =>
      cases i with
      | zero => exact sortedFrom_get h.2 (by simpa using hj)
      | succ i => exact ih h.2 (by omega) (by simpa using hj)

/-- The entry in front of the upper bound is the one `runAt` takes. -/
theorem runAt_of_bound {k : Nat} {d : List Nat} (hs : sortedFrom k d = true) {c r : Nat} (cur : Nat)
    (hr : r ≤ d.length) (h1 : ∀ j, j < r → key (d.getD j 0) ≤ c) (h2 : ∀ j, r ≤ j → j < d.length → c < key (d.getD j 0)) :
    runAt cur d c = if r = d.length then none else if r = 0 then some cur else some (d.getD (r - 1) 0 &&& 0xFF) := by
  induction d generalizing k r cur with
  | nil => simp at hr; simp [runAt, hr]
  | cons v l ih =>
    simp only [sortedFrom, Bool.and_eq_true, Nat.ble_eq] at hs
    rw [runAt]
    cases r with
    | zero =>
      have := h2 0 (by omega) (by simp)
      rw [List.getD_cons_zero] at this
      rw [if_pos this]
      simp
    | succ r =>
      have h0 := h1 0 (by omega)
      simp only [List.getD_cons_zero] at h0
      rw [if_neg (by omega)]
      rw [ih hs.2 (r := r) (v &&& 0xFF) (by simpa using hr)
        (fun j hj => by simpa using h1 (j + 1) (by omega))
        (fun j hj hl => by simpa using h2 (j + 1) (by omega) (by simpa using hl))]
      simp only [List.length_cons, Nat.add_right_cancel_iff, Nat.add_one_sub_one, Nat.add_eq_zero_iff, Nat.one_ne_zero, and_false, if_false]
      split
      · rfl
      · cases r with
        | zero => simp
        | succ r => simp

theorem upperBound_spec {d : List Nat} (hs : stepsOk d = true) (c : Nat) :
    ∃ r, upperBound d c = some r ∧ 0 < r ∧ r ≤ d.length ∧ (∀ j, j < r → key (d.getD j 0) ≤ c) ∧
      (∀ j, r ≤ j → j < d.length → c < key (d.getD j 0)) := by
  obtain ⟨r, e, _, h2, h3, h4⟩ := boundLoop_spec (fun v => !decide (c < v >>> 8)) d d.length 0 d.length
    (by omega) (by omega)
  have hs0 : sortedFrom 0 d = true := by
    cases d with
    | nil => simp [stepsOk] at hs
    | cons v l =>
      simp only [stepsOk, Bool.and_eq_true, beq_iff_eq] at hs
      simp only [sortedFrom, Bool.and_eq_true, Nat.ble_eq]
      exact ⟨by omega, by rw [hs.1]; exact hs.2⟩
  have hpos : 0 < d.length ∧ key (d.getD 0 0) = 0 := by
    cases d with
    | nil => simp [stepsOk] at hs
    | cons v l =>
      simp only [stepsOk, Bool.and_eq_true, beq_iff_eq] at hs
      exact ⟨by simp, hs.1⟩
  have hr0 : 0 < r := by
    by_contra hk
    obtain rfl : r = 0 := by omega
    have := h4 (by omega)
    have h6 : c < key (d.getD 0 0) := by simpa [key] using this
    omega
  refine ⟨r, e, hr0, by omega, fun j hj => ?_, fun j hj hl => ?_⟩
  · have h5 : key (d.getD (r - 1) 0) ≤ c := by
      have := h3 (by omega)
      simpa [key] using this
    exact Nat.le_trans (sortedFrom_mono hs0 (by omega) (by omega)) h5
  · have h5 : c < key (d.getD r 0) := by
      have := h4 (by omega)
      simpa [key] using this
    exact Nat.lt_of_lt_of_le h5 (sortedFrom_mono hs0 hj hl)

theorem stepsOk_sorted {d : List Nat} (hs : stepsOk d = true) : sortedFrom 0 d = true := by
  cases d with
  | nil => simp [stepsOk] at hs
  | cons v l =>
    simp only [stepsOk, Bool.and_eq_true, beq_iff_eq] at hs
    simp only [sortedFrom, Bool.and_eq_true, Nat.ble_eq]
    exact ⟨by omega, by rw [hs.1]; exact hs.2⟩

/-- A range table read by `beforeUpper`. -/
theorem beforeUpper_spec {d : List Nat} (hs : stepsOk d = true) (c : Nat) :
    (beforeUpper d c = some none ∧ runAt 0 d c = none) ∨
    (∃ i, beforeUpper d c = some (some i) ∧ i + 1 < d.length ∧ key (d.getD i 0) ≤ c ∧ c < key (d.getD (i + 1) 0) ∧
      runAt 0 d c = some (d.getD i 0 &&& 0xFF)) := by
  obtain ⟨r, e, h0, h1, h2, h3⟩ := upperBound_spec hs c
  have hR := runAt_of_bound (stepsOk_sorted hs) 0 h1 h2 h3
  rw [beforeUpper, e]
  simp only []
  by_cases hl : r = d.length
  · left
    rw [if_pos hl] at hR
    exact ⟨if_pos hl, hR⟩
  · right
    rw [if_neg hl, if_neg (by omega)] at hR
    refine ⟨r - 1, ?_, by omega, h2 _ (by omega), h3 _ (by omega) (by omega), hR⟩
    rw [if_neg hl, if_neg (by omega)]

theorem rangeLookup_eq {d : List Nat} (hs : stepsOk d = true) (c : Nat) :
    rangeLookup d c = some ((runAt 0 d c).getD 0 != 0) := by
  rw [rangeLookup]
  rcases beforeUpper_spec hs c with ⟨e, h⟩ | ⟨i, e, hi, _, _, h⟩
  · rw [e, h]; rfl
  · rw [e, h]
    simp only []
    rw [rd_of_lt _ (by omega)]
    rfl

theorem compactValue_eq {d : List Nat} (hs : stepsOk d = true) (c dflt : Nat) :
    compactValue d c dflt = some ((runAt 0 d c).getD dflt) := by
  rw [compactValue]
  rcases beforeUpper_spec hs c with ⟨e, h⟩ | ⟨i, e, hi, _, _, h⟩
  · rw [e, h]; rfl
  · rw [e, h]
    simp only []
    rw [rd_of_lt _ (by omega)]
    rfl

/-! ### Bit maps of the range tables -/

/-- `n` ones or `n` zeros. -/
def fill (b : Bool) (n : Nat) : Nat := if b then Nat.sub (Nat.pow 2 n) 1 else 0

theorem testBit_fill {b : Bool} {n i : Nat} (h : i < n) : (fill b n).testBit i = b := by
  have e : fill b n = if b then 2 ^ n - 1 else 0 := rfl
  rw [e]
  cases b <;> simp [Nat.testBit_two_pow_sub_one, h]

/-- The code points from `k` on at which the value of a step table is not zero. -/
def runBits (k : Nat) (cur : Bool) : List Nat → Nat
  | [] => 0
  | v :: l => catHi (key v - k) (fill cur (key v - k)) (runBits (key v) ((v &&& 0xFF) != 0) l)

theorem testBit_runBits {k : Nat} {d : List Nat} (hs : sortedFrom k d = true) (cur : Nat) {c : Nat} (hc : k ≤ c) :
    (runBits k (cur != 0) d).testBit (c - k) = ((runAt cur d c).getD 0 != 0) := by
  induction d generalizing k cur with
  | nil => simp [runBits, runAt]
  | cons v l ih =>
    simp only [sortedFrom, Bool.and_eq_true, Nat.ble_eq] at hs
    rw [runBits, testBit_catHi, runAt]
    by_cases h : c < key v
    · rw [if_pos (by omega), if_pos h, testBit_fill (by omega)]
      rfl
    · rw [if_neg (by omega), if_neg h, ← ih hs.2 (v &&& 0xFF) (by omega)]
      congr 1
      omega

theorem lookup_ranges {d : List Nat} (hs : stepsOk d = true) (c : Nat) :
    rangeLookup d c = some ((runBits 0 false d).testBit c) := by
  rw [rangeLookup_eq hs]
  have := testBit_runBits (stepsOk_sorted hs) 0 (Nat.zero_le c)
  simp only [bne_self_eq_false, Nat.sub_zero] at this
  rw [this]

/-! ### Bit maps of the lists -/

/-- The set of the elements of a list. -/
def listBits : List Nat → Nat
  | [] => 0
  | x :: l => Nat.lor (Nat.shiftLeft 1 x) (listBits l)

theorem testBit_listBits (l : List Nat) (c : Nat) : (listBits l).testBit c = l.contains c := by
  induction l with
  | nil => simp [listBits]
  | cons x l ih =>
    have e : listBits (x :: l) = 1 <<< x ||| listBits l := rfl
    rw [e, Nat.testBit_or, ih, Nat.testBit_shiftLeft, List.contains_cons]
    congr 1
    by_cases h : c = x
    · subst h; simp
    · by_cases k : x ≤ c
      · have hx : c - x ≠ 0 := by omega
        have : (1 : Nat).testBit (c - x) = false := by
          rw [Bool.eq_false_iff, Ne, Nat.testBit_one_eq_true_iff_self_eq_zero]
          exact hx
        simp [k, h, this]
      · simp [k, h]

/-- What a list look-up finds: all elements of a short list; of a long one those on the path of the
search. -/
def flatBits (t : FlatArray) : Nat :=
  if t.size < 20 then listBits t.elems else listBits (t.elems.filter fun x => binarySearch t.elems x == some true)

theorem lookup_flat (t : FlatArray) (c : Nat) : t.lookup c = some ((flatBits t).testBit c) := by
  rw [FlatArray.lookup, flatBits]
  split
  · rw [testBit_listBits]
    congr 1
    rw [Bool.eq_iff_iff]
    simp
  · rw [testBit_listBits]
    obtain ⟨b, hb⟩ := binarySearch_some t.elems c
    rw [hb]
    congr 1
    rw [Bool.eq_iff_iff]
    constructor
    · intro h
      subst h
      simp [binarySearch_mem hb, hb]
    · intro h
      simp only [List.contains_eq_mem, List.mem_filter, beq_iff_eq, decide_eq_true_eq] at h
      rw [hb] at h
      simpa using h.2

end Ctre.Ucd

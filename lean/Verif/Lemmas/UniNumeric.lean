import Verif.Lemmas.UniSearch
import Verif.Model.UniNumeric
import Verif.Spec.UcdNumeric
import Verif.Spec.UcdGc
/-
The tables of numeric values as one list, and the look-up as membership in it.
-/
set_option maxRecDepth 100000
namespace Ctre.Ucd
open Unicode14

/-- The value of the first entry with key `c`. -/
def assoc (c : Nat) : List (Nat × Int) → Option Int
  | [] => none
  | e :: l => cond (Nat.beq e.1 c) (some e.2) (assoc c l)

theorem assoc_mem {c : Nat} {v : Int} : ∀ {l : List (Nat × Int)}, assoc c l = some v → (c, v) ∈ l
  | [], h => by simp [assoc] at h
  | e :: l, h => by
    simp only [assoc] at h
    cases hb : Nat.beq e.1 c with
    | true =>
      rw [hb] at h
      simp only [cond_true, Option.some.injEq] at h
      have := Nat.eq_of_beq_eq_true hb
      subst this; subst h
      exact List.mem_cons_self
    | false =>
      rw [hb] at h
      exact List.mem_cons_of_mem _ (assoc_mem h)

theorem assoc_none {c : Nat} : ∀ {l : List (Nat × Int)}, (∀ e ∈ l, e.1 ≠ c) → assoc c l = none
  | [], _ => rfl
  | e :: l, h => by
    have h1 : Nat.beq e.1 c = false := by
      cases hb : Nat.beq e.1 c with
      | true => exact absurd (Nat.eq_of_beq_eq_true hb) (h e List.mem_cons_self)
      | false => rfl
    rw [assoc, h1]
    exact assoc_none fun e' h' => h e' (List.mem_cons_of_mem _ h')

/-- The keys get larger from entry to entry. -/
def ascends : List (Nat × Int) → Bool
  | [] => true
  | [_] => true
  | a :: b :: l => Nat.blt a.1 b.1 && ascends (b :: l)

theorem ascends_tail {a : Nat × Int} {l : List (Nat × Int)} (h : ascends (a :: l) = true) :
    ascends l = true ∧ ∀ e ∈ l, a.1 < e.1 := by
  induction l generalizing a with
  | nil => simp [ascends]
  | cons b l ih =>
    simp only [ascends, Bool.and_eq_true] at h
    have hab : a.1 < b.1 := Nat.le_of_ble_eq_true h.1
    refine ⟨h.2, fun e he => ?_⟩
    rcases List.mem_cons.1 he with rfl | he
    · exact hab
    · exact Nat.lt_trans hab ((ih h.2).2 e he)

theorem ascends_assoc {c : Nat} {v : Int} : ∀ {l : List (Nat × Int)}, ascends l = true → (c, v) ∈ l → assoc c l = some v
  | [], _, h => by simp at h
  | e :: l, hs, h => by
    obtain ⟨h1, h2⟩ := ascends_tail hs
    rcases List.mem_cons.1 h with rfl | h
    · simp [assoc]
    · have h3 := h2 _ h
      have h4 : Nat.beq e.1 c = false := by
        cases hb : Nat.beq e.1 c with
        | true =>
          have := Nat.eq_of_beq_eq_true hb
          simp only at h3
          omega
        | false => rfl
      rw [assoc, h4]
      exact ascends_assoc h1 h

theorem ascends_get {l : List (Nat × Int)} (hs : ascends l = true) : ∀ {i j : Nat} {a b : Nat × Int}, i ≤ j →
    l[i]? = some a → l[j]? = some b → a.1 ≤ b.1 := by
  induction l with
  | nil => intro i j a b _ h; simp at h
  | cons e l ih =>
    intro i j a b hij ha hb
    obtain ⟨h1, h2⟩ := ascends_tail hs
    cases j with
    | zero =>
      have : i = 0 := by omega
      subst this
      rw [ha] at hb
      simp only [Option.some.injEq] at hb
      rw [hb]
    | succ j =>
      cases i with
      | zero =>
        simp only [List.getElem?_cons_zero, Option.some.injEq] at ha
        subst ha
        simp only [List.getElem?_cons_succ] at hb
        exact Nat.le_of_lt (h2 b (List.mem_of_getElem? hb))
      | succ i =>
        simp only [List.getElem?_cons_succ] at ha hb
        exact ih h1 (by omega) ha hb

/-- What a search for the first key that is not smaller finds. -/
theorem assoc_of_bound {l : List (Nat × Int)} (hs : ascends l = true) {c r : Nat} (hr : r ≤ l.length)
    (h1 : ∀ a, 0 < r → l[r-1]? = some a → a.1 < c) (h2 : ∀ a, l[r]? = some a → c ≤ a.1) :
    assoc c l = match l[r]? with
      | none => none
      | some e => if e.1 = c then some e.2 else none := by
  cases hl : l[r]? with
  | none =>
    simp only
    apply assoc_none
    intro e he hc
    obtain ⟨i, hi⟩ := List.getElem?_of_mem he
    have hi' : i < l.length := by
      rcases Nat.lt_or_ge i l.length with h | h
      · exact h
      · rw [List.getElem?_eq_none h] at hi; simp at hi
    have hrl : l.length ≤ r := by simpa using hl
    have hr0 : 0 < r := by omega
    have hlt : r - 1 < l.length := by omega
    have h3 := h1 _ hr0 (List.getElem?_eq_getElem hlt)
    have h4 := ascends_get hs (by omega : i ≤ r - 1) hi (List.getElem?_eq_getElem hlt)
    omega
  | some e =>
    simp only
    have h3 := h2 e hl
    by_cases he : e.1 = c
    · rw [if_pos he]
      exact ascends_assoc hs (by rw [← he]; exact List.mem_of_getElem? hl)
    · rw [if_neg he]
      apply assoc_none
      intro x hx hc
      obtain ⟨i, hi⟩ := List.getElem?_of_mem hx
      rcases Nat.lt_or_ge i r with h | h
      · have hlt : r - 1 < l.length := by omega
        have h4 := h1 _ (by omega) (List.getElem?_eq_getElem hlt)
        have h5 := ascends_get hs (by omega : i ≤ r - 1) hi (List.getElem?_eq_getElem hlt)
        omega
      · have h5 := ascends_get hs h hl hi
        omega

theorem getNumericValue_eq {a : List (Nat × Int)} (hs : ascends a = true) (c : Nat) :
    getNumericValue c a = some (assoc c a) := by
  obtain ⟨r, e, _, h2, h3, h4⟩ := boundLoop_spec (fun v => decide (v < c)) (a.map Prod.fst) (a.map Prod.fst).length 0
    (a.map Prod.fst).length (by omega) (by omega)
  have hb : lowerBound (a.map Prod.fst) c = some r := e
  simp only [List.length_map, Nat.zero_add, decide_eq_true_eq, decide_eq_false_iff_not] at h2 h3 h4
  have hget : ∀ {i : Nat} {x : Nat × Int}, a[i]? = some x → (a.map Prod.fst).getD i 0 = x.1 := by
    intro i x hx; simp [List.getD, hx]
  rw [getNumericValue, hb, assoc_of_bound hs h2
    (fun x h0 hx => by have := h3 h0; rw [hget hx] at this; exact this)
    (fun x hx => by
      have hlt : r < a.length := by
        rcases Nat.lt_or_ge r a.length with h | h
        · exact h
        · rw [List.getElem?_eq_none h] at hx; simp at hx
      have := h4 hlt; rw [hget hx] at this; omega)]
  simp only
  split
  · rename_i hl
    rw [hl, List.getElem?_eq_none (Nat.le_refl _)]
  · rename_i hl
    have hlt : r < a.length := by omega
    rw [List.getElem?_eq_getElem hlt]
    simp only
    by_cases hc : a[r].1 = c <;> simp [hc]

/-- The entries of a compact list: the code point and the last eight bits. -/
def unpack (d : List Nat) : List (Nat × Int) := d.map fun v => (v >>> 8, ((v &&& 0xFF : Nat) : Int))

theorem listValue_eq {d : List Nat} (hs : ascends (unpack d) = true) (c dflt : Nat) :
    ∃ v, listValue d c dflt = some v ∧ (v : Int) = (assoc c (unpack d)).getD dflt := by
  obtain ⟨r, e, _, h2, h3, h4⟩ := boundLoop_spec (fun v => decide (v >>> 8 < c)) d d.length 0 d.length (by omega) (by omega)
  simp only [Nat.zero_add, decide_eq_true_eq, decide_eq_false_iff_not] at h2 h3 h4
  have hlen : (unpack d).length = d.length := by simp [unpack]
  have hget : ∀ {i : Nat} {x : Nat × Int}, (unpack d)[i]? = some x → x.1 = (d.getD i 0) >>> 8 := by
    intro i x hx
    simp only [unpack, List.getElem?_map, Option.map_eq_some_iff] at hx
    obtain ⟨v, hv, rfl⟩ := hx
    simp [List.getD, hv]
  rw [listValue, e, assoc_of_bound hs (by omega : r ≤ (unpack d).length)
    (fun x h0 hx => by rw [hget hx]; exact h3 h0)
    (fun x hx => by
      have hlt : r < (unpack d).length := by
        rcases Nat.lt_or_ge r (unpack d).length with h | h
        · exact h
        · rw [List.getElem?_eq_none h] at hx; simp at hx
      rw [hget hx]
      exact Nat.not_lt.1 (h4 (by omega)))]
  simp only
  split
  · rename_i hl
    exact ⟨dflt, rfl, by rw [List.getElem?_eq_none (by omega)]; rfl⟩
  · rename_i hl
    have hlt : r < d.length := by omega
    simp only [rd, if_pos hlt, Option.map_some, Option.some.injEq, exists_eq_left', unpack, List.getElem?_map,
      List.getElem?_eq_getElem hlt, List.getD, Option.getD_some]
    by_cases hc : d[r] >>> 8 = c <;> simp [hc]

/-- Two lists sorted by their keys put together. -/
def merge : Nat → List (Nat × Int) → List (Nat × Int) → List (Nat × Int)
  | 0, xs, ys => xs ++ ys
  | _ + 1, [], ys => ys
  | _ + 1, x :: xs, [] => x :: xs
  | n + 1, x :: xs, y :: ys => cond (Nat.blt x.1 y.1) (x :: merge n xs (y :: ys)) (y :: merge n (x :: xs) ys)

theorem mem_merge {e : Nat × Int} : ∀ {n : Nat} {xs ys : List (Nat × Int)}, e ∈ merge n xs ys ↔ e ∈ xs ∨ e ∈ ys
  | 0, xs, ys => by simp [merge]
  | n + 1, [], ys => by simp [merge]
  | n + 1, x :: xs, [] => by simp [merge]
  | n + 1, x :: xs, y :: ys => by
    rw [merge]
    cases Nat.blt x.1 y.1
    · simp only [cond_false, List.mem_cons, mem_merge (n := n)]
      constructor
      · rintro (h | (h | h) | h) <;> simp [h]
      · rintro ((h | h) | (h | h)) <;> simp [h]
    · simp only [cond_true, List.mem_cons, mem_merge (n := n)]
      constructor
      · rintro (h | h | (h | h)) <;> simp [h]
      · rintro ((h | h) | (h | h)) <;> simp [h]

/-- The numerators of all code points, in order. -/
def numerators : List (Nat × Int) :=
  merge 3000 (unpack numericData8) (merge 1000 numericData16 (merge 1000 numericData32 numericData64))

/-- Code point, numerator and denominator. -/
def fractions : List (Nat × Int × Int) := numerators.map fun e => (e.1, e.2, (assoc e.1 numericDataD).getD 1)

theorem asc_numerators : ascends numerators = true := by decide +kernel
theorem asc_8 : ascends (unpack numericData8) = true := by decide +kernel
theorem asc_16 : ascends numericData16 = true := by decide +kernel
theorem asc_32 : ascends numericData32 = true := by decide +kernel
theorem asc_64 : ascends numericData64 = true := by decide +kernel
theorem asc_d : ascends numericDataD = true := by decide +kernel
theorem no255 : ((unpack numericData8).all fun e => e.2 != 255) = true := by decide +kernel
theorem nonzero : (fractions.all fun e => decide (0 < e.2.2)) = true := by decide +kernel

theorem withDenominator_eq (c : Nat) (n : Int) : withDenominator c n = some ⟨n, (assoc c numericDataD).getD 1⟩ := by
  rw [withDenominator, getNumericValue_eq asc_d]; rfl

theorem mem_fractions {c : Nat} {n d : Int} :
    (c, n, d) ∈ fractions ↔ (c, n) ∈ numerators ∧ d = (assoc c numericDataD).getD 1 := by
  simp only [fractions, List.mem_map, Prod.mk.injEq, Prod.exists]
  constructor
  · rintro ⟨c', n', h, rfl, rfl, rfl⟩; exact ⟨h, rfl⟩
  · rintro ⟨h, rfl⟩; exact ⟨c, n, h, rfl, rfl, rfl⟩

theorem mem_numerators {e : Nat × Int} : e ∈ numerators ↔
    e ∈ numericData64 ∨ e ∈ numericData32 ∨ e ∈ numericData16 ∨ e ∈ unpack numericData8 := by
  simp only [numerators, mem_merge]
  constructor
  · rintro (h | h | h | h) <;> simp [h]
  · rintro (h | h | h | h) <;> simp [h]

/-- The look-up: the entry of `fractions`, or none. -/
theorem cpNumericValue_eq (c : Nat) :
    (∃ n d, (c, n, d) ∈ fractions ∧ cpNumericValue c = some ⟨n, d⟩) ∨
    ((∀ n d, (c, n, d) ∉ fractions) ∧ cpNumericValue c = some {}) := by
  have key : ∀ n, (c, n) ∈ numerators → cpNumericValue c = withDenominator c n →
      ∃ n d, (c, n, d) ∈ fractions ∧ cpNumericValue c = some ⟨n, d⟩ := by
    intro n h1 h2
    exact ⟨n, _, mem_fractions.2 ⟨h1, rfl⟩, by rw [h2, withDenominator_eq]⟩
  unfold cpNumericValue at key ⊢
  simp only [getNumericValue_eq asc_64, getNumericValue_eq asc_32, getNumericValue_eq asc_16] at key ⊢
  cases h64 : assoc c numericData64 with
  | some n => rw [h64] at key; exact .inl (key n (mem_numerators.2 (.inl (assoc_mem h64))) rfl)
  | none =>
  cases h32 : assoc c numericData32 with
  | some n => rw [h64, h32] at key; exact .inl (key n (mem_numerators.2 (.inr (.inl (assoc_mem h32)))) rfl)
  | none =>
  cases h16 : assoc c numericData16 with
  | some n => rw [h64, h32, h16] at key; exact .inl (key n (mem_numerators.2 (.inr (.inr (.inl (assoc_mem h16))))) rfl)
  | none =>
  obtain ⟨v, hv, hva⟩ := listValue_eq asc_8 c 255
  rw [h64, h32, h16] at key
  simp only [hv] at key ⊢
  cases h8 : assoc c (unpack numericData8) with
  | some n =>
    rw [h8] at hva
    have hm := assoc_mem h8
    have hn := List.all_eq_true.1 no255 _ hm
    simp only [Option.getD_some] at hva
    subst hva
    have hne : v ≠ 255 := by intro h; subst h; simp at hn
    rw [if_pos hne] at key ⊢
    exact .inl (key _ (mem_numerators.2 (.inr (.inr (.inr hm)))) rfl)
  | none =>
    rw [h8] at hva
    have : v = 255 := by simp only [Option.getD_none] at hva; omega
    rw [if_neg (by omega)]
    refine .inr ⟨fun n d h => ?_, rfl⟩
    rcases mem_numerators.1 (mem_fractions.1 h).1 with h | h | h | h
    · rw [ascends_assoc asc_64 h] at h64; simp at h64
    · rw [ascends_assoc asc_32 h] at h32; simp at h32
    · rw [ascends_assoc asc_16 h] at h16; simp at h16
    · rw [ascends_assoc asc_8 h] at h8; simp at h8

theorem cpNumericValue_mem {c : Nat} {n d : Int} (h : (c, n, d) ∈ fractions) : cpNumericValue c = some ⟨n, d⟩ := by
  rcases cpNumericValue_eq c with ⟨n', d', h1, h2⟩ | ⟨h1, _⟩
  · obtain ⟨h3, h4⟩ := mem_fractions.1 h
    obtain ⟨h5, h6⟩ := mem_fractions.1 h1
    have h7 := ascends_assoc asc_numerators h3
    rw [ascends_assoc asc_numerators h5, Option.some.injEq] at h7
    rw [h2, h7, h6, ← h4]
  · exact absurd h (h1 n d)

/-- The code points of the specification with their values, one by one. -/
def specFractions : List (Nat × Int × Nat) :=
  numericRuns.flatMap fun r => (List.range r.count).map fun i => (r.first + i, r.num + r.step * (i : Int), r.den)

theorem mem_specFractions {c : Nat} {n : Int} {d : Nat} : (c, n, d) ∈ specFractions ↔ HasValue c n d := by
  simp only [specFractions, List.mem_flatMap, List.mem_map, List.mem_range, Prod.mk.injEq, HasValue]
  constructor
  · rintro ⟨r, hr, i, hi, rfl, rfl, rfl⟩
    exact ⟨r, hr, by omega, by omega, by rw [Nat.add_sub_cancel_left], rfl⟩
  · rintro ⟨r, hr, h1, h2, rfl, rfl⟩
    exact ⟨r, hr, c - r.first, by omega, by omega, rfl, rfl⟩

/-- Two lists about the same code points with the same fractions. -/
def sameFractions : List (Nat × Int × Int) → List (Nat × Int × Nat) → Bool
  | [], [] => true
  | a :: l, b :: m => Nat.beq a.1 b.1 && Nat.blt 0 b.2.2 && decide (a.2.1 * (b.2.2 : Int) = b.2.1 * a.2.2) && sameFractions l m
  | _, _ => false

theorem sameFractions_left {l : List (Nat × Int × Int)} {m : List (Nat × Int × Nat)} (h : sameFractions l m = true)
    {c : Nat} {n d : Int} (hm : (c, n, d) ∈ l) : ∃ n' d', (c, n', d') ∈ m ∧ 0 < d' ∧ n * (d' : Int) = n' * d := by
  induction l generalizing m with
  | nil => simp at hm
  | cons a l ih =>
    cases m with
    | nil => simp [sameFractions] at h
    | cons b m =>
      simp only [sameFractions, Bool.and_eq_true, decide_eq_true_eq] at h
      obtain ⟨⟨⟨h1, h2⟩, h3⟩, h4⟩ := h
      rcases List.mem_cons.1 hm with rfl | hm
      · refine ⟨b.2.1, b.2.2, ?_, Nat.le_of_ble_eq_true h2, h3⟩
        have e : c = b.1 := Nat.eq_of_beq_eq_true h1
        rw [e]
        exact List.mem_cons_self
      · obtain ⟨n', d', h5, h6⟩ := ih h4 hm
        exact ⟨n', d', List.mem_cons_of_mem _ h5, h6⟩

theorem sameFractions_right {l : List (Nat × Int × Int)} {m : List (Nat × Int × Nat)} (h : sameFractions l m = true)
    {c : Nat} {n' : Int} {d' : Nat} (hm : (c, n', d') ∈ m) :
    ∃ n d, (c, n, d) ∈ l ∧ 0 < d' ∧ n * (d' : Int) = n' * d := by
  induction l generalizing m with
  | nil =>
    cases m with
    | nil => simp at hm
    | cons b m => simp [sameFractions] at h
  | cons a l ih =>
    cases m with
    | nil => simp at hm
    | cons b m =>
      simp only [sameFractions, Bool.and_eq_true, decide_eq_true_eq] at h
      obtain ⟨⟨⟨h1, h2⟩, h3⟩, h4⟩ := h
      rcases List.mem_cons.1 hm with rfl | hm
      · refine ⟨a.2.1, a.2.2, ?_, Nat.le_of_ble_eq_true h2, h3⟩
        have e : a.1 = c := Nat.eq_of_beq_eq_true h1
        rw [← e]
        exact List.mem_cons_self
      · obtain ⟨n, d, h5, h6⟩ := ih h4 hm
        exact ⟨n, d, List.mem_cons_of_mem _ h5, h6⟩

theorem same : sameFractions fractions specFractions = true := by decide +kernel

/-- Every element of the first list is in the second; both are in the same order. -/
def isSub [DecidableEq α] : List α → List α → Bool
  | [], _ => true
  | _ :: _, [] => false
  | x :: xs, y :: ys => if x = y then isSub xs ys else isSub (x :: xs) ys

theorem isSub_mem [DecidableEq α] : ∀ {ys xs : List α}, isSub xs ys = true → ∀ x ∈ xs, x ∈ ys
  | ys, [], _, x, hx => by simp at hx
  | [], _ :: _, h, _, _ => by simp [isSub] at h
  | y :: ys, z :: xs, h, x, hx => by
    rw [isSub] at h
    split at h
    · rename_i e
      rcases List.mem_cons.1 hx with rfl | hx
      · rw [e]; exact List.mem_cons_self
      · exact List.mem_cons_of_mem _ (isSub_mem h x hx)
    · exact List.mem_cons_of_mem _ (isSub_mem h x hx)

/-- The decimal digits with their values, if every range is made of tens. -/
def digitFractions : List (Nat × Int × Int) :=
  gcNd.flatMap fun r => (List.range (r.2 + 1 - r.1)).map fun i => (r.1 + i, ((i % 10 : Nat) : Int), (1 : Int))

theorem digits_sub : isSub digitFractions fractions = true := by decide +kernel
theorem digits_tens : (gcNd.all fun r => (r.2 + 1 - r.1) % 10 == 0) = true := by decide +kernel

/-- The code points of a list of ranges. -/
def points (l : List (Nat × Nat)) : List Nat := l.flatMap fun r => (List.range (r.2 + 1 - r.1)).map (r.1 + ·)

theorem mem_points {l : List (Nat × Nat)} {c : Nat} : c ∈ points l ↔ inRanges l c := by
  simp only [points, List.mem_flatMap, List.mem_map, List.mem_range, inRanges]
  constructor
  · rintro ⟨r, hr, i, hi, rfl⟩; exact ⟨r, hr, by omega, by omega⟩
  · rintro ⟨r, hr, h1, h2⟩; exact ⟨r, hr, c - r.1, by omega, by omega⟩

theorem numbers_sub_nd : isSub (points gcNd) (fractions.map (·.1)) = true := by decide +kernel
theorem numbers_sub_nl : isSub (points gcNl) (fractions.map (·.1)) = true := by decide +kernel
theorem numbers_sub_no : isSub (points gcNo) (fractions.map (·.1)) = true := by decide +kernel

end Ctre.Ucd

import Verif.Model.Utf8
import Verif.Spec.Utf8
import Verif.Lemmas.Cursor

/-
The UTF-8 iterator on encoded code points and on arbitrary code units.
-/
namespace Ctre

/-- The packed table, over all code units. -/
theorem utf8Trail_table : ∀ u : Fin 256, utf8Trail u.val =
    if u.val < 0xC0 then 0 else if u.val < 0xE0 then 1 else if u.val < 0xF0 then 2 else if u.val < 0xF8 then 3 else 0 := by
  decide +kernel

theorem utf8Trail_eq {u : Nat} (h : u < 256) : utf8Trail u =
    if u < 0xC0 then 0 else if u < 0xE0 then 1 else if u < 0xF0 then 2 else if u < 0xF8 then 3 else 0 :=
  utf8Trail_table ⟨u, h⟩

theorem high_bit : ∀ u : Fin 256, (u.val &&& 0b10000000 = 0 ↔ u.val < 0x80) := by decide +kernel
theorem cont_bits : ∀ u : Fin 256, (u.val &&& 0b11000000 = 0b10000000 ↔ (0x80 ≤ u.val ∧ u.val < 0xC0)) := by decide +kernel
theorem low6 : ∀ u : Fin 64, (0x80 + u.val) &&& 0b00111111 = u.val := by decide +kernel
theorem low5 : ∀ u : Fin 32, (0xC0 + u.val) &&& (0b00111111 >>> 1) = u.val := by decide +kernel
theorem low4 : ∀ u : Fin 16, (0xE0 + u.val) &&& (0b00111111 >>> 2) = u.val := by decide +kernel
theorem low3 : ∀ u : Fin 8, (0xF0 + u.val) &&& (0b00111111 >>> 3) = u.val := by decide +kernel

theorem shift_or {a b : Nat} (h : b < 64) : (a <<< 6) ||| b = a * 64 + b := by
  rw [Nat.shiftLeft_eq, Nat.mul_comm a (2 ^ 6), ← Nat.two_pow_add_eq_or_of_lt (i := 6) h a]

theorem highBit_iff {u : Nat} (h : u < 256) : u &&& 0b10000000 = 0 ↔ u < 0x80 := high_bit ⟨u, h⟩
theorem cont_iff {u : Nat} (h : u < 256) : u &&& 0b11000000 = 0b10000000 ↔ (0x80 ≤ u ∧ u < 0xC0) := cont_bits ⟨u, h⟩

/-- The code units of a scalar value, by their number. -/
theorem utf8Of_cases {c : Nat} (h : IsScalar c) :
    (c < 0x80 ∧ utf8Of c = [c]) ∨
    (∃ x y, x < 32 ∧ y < 64 ∧ c = x * 64 + y ∧ utf8Of c = [0xC0 + x, 0x80 + y]) ∨
    (∃ x y z, x < 16 ∧ y < 64 ∧ z < 64 ∧ c = (x * 64 + y) * 64 + z ∧ utf8Of c = [0xE0 + x, 0x80 + y, 0x80 + z]) ∨
    (∃ x y z w, x < 8 ∧ y < 64 ∧ z < 64 ∧ w < 64 ∧ c = ((x * 64 + y) * 64 + z) * 64 + w ∧
      utf8Of c = [0xF0 + x, 0x80 + y, 0x80 + z, 0x80 + w]) := by
  unfold utf8Of
  have hc : c < 0x110000 := by rcases h with h | h <;> omega
  split
  · exact .inl ⟨by assumption, rfl⟩
  · split
    · exact .inr (.inl ⟨_, _, by omega, by omega, by omega, rfl⟩)
    · split
      · exact .inr (.inr (.inl ⟨_, _, _, by omega, by omega, by omega, by omega, rfl⟩))
      · exact .inr (.inr (.inr ⟨_, _, _, _, by omega, by omega, by omega, by omega, by omega, rfl⟩))

theorem get_after (pre l : List Nat) (k : Nat) : (pre ++ l)[pre.length + k]? = l[k]? := by
  rw [List.getElem?_append_right (by omega)]; congr 1; omega

theorem get_at (pre l : List Nat) : (pre ++ l)[pre.length]? = l[0]? := get_after pre l 0

theorem utf8Deref_at {c : Nat} (h : IsScalar c) (pre post : List Nat) :
    utf8Deref (pre ++ (utf8Of c ++ post)) pre.length = some c := by
  unfold utf8Deref
  rw [get_at, get_after, get_after, get_after]
  rcases utf8Of_cases h with ⟨hc, e⟩ | ⟨x, y, hx, hy, hc, e⟩ | ⟨x, y, z, hx, hy, hz, hc, e⟩ | ⟨x, y, z, w, hx, hy, hz, hw, hc, e⟩
  · rw [e]
    simp only [List.cons_append, List.getElem?_cons_zero, highBit_iff (show c < 256 by omega), hc, if_true]
  · rw [e]
    have h1 := low5 ⟨x, hx⟩; have h2 := low6 ⟨y, hy⟩
    simp only at h1 h2
    simp only [List.cons_append, List.getElem?_cons_zero, List.getElem?_cons_succ, List.nil_append,
      ne_eq, highBit_iff (show 192 + x < 256 by omega), cont_iff (show 128 + y < 256 by omega), utf8Trail_eq (show 192 + x < 256 by omega),
      show ¬ (192 + x < 128) by omega, show ¬ (192 + x < 192) by omega, show 192 + x < 224 by omega, if_true, if_false,
      Nat.one_ne_zero, h1, h2, shift_or hy, List.length_append, List.length_cons]
    rw [if_neg (by omega), if_neg (by omega), hc]
  · rw [e]
    have h1 := low4 ⟨x, hx⟩; have h2 := low6 ⟨y, hy⟩; have h3 := low6 ⟨z, hz⟩
    simp only at h1 h2 h3
    simp only [List.cons_append, List.getElem?_cons_zero, List.getElem?_cons_succ, List.nil_append,
      ne_eq, highBit_iff (show 224 + x < 256 by omega), cont_iff (show 128 + y < 256 by omega), cont_iff (show 128 + z < 256 by omega),
      utf8Trail_eq (show 224 + x < 256 by omega),
      show ¬ (224 + x < 128) by omega, show ¬ (224 + x < 192) by omega, show ¬ 224 + x < 224 by omega,
      show 224 + x < 240 by omega, if_true, if_false,
      show ¬ (2 = 0) by omega, show ¬ (2 = 1) by omega, h1, h2, h3, shift_or hy, shift_or hz, List.length_append, List.length_cons]
    rw [if_neg (by omega), if_neg (by omega), if_neg (by omega), hc]
  · rw [e]
    have h1 := low3 ⟨x, hx⟩; have h2 := low6 ⟨y, hy⟩; have h3 := low6 ⟨z, hz⟩; have h4 := low6 ⟨w, hw⟩
    simp only at h1 h2 h3 h4
    simp only [List.cons_append, List.getElem?_cons_zero, List.getElem?_cons_succ, List.nil_append,
      ne_eq, highBit_iff (show 240 + x < 256 by omega), cont_iff (show 128 + y < 256 by omega), cont_iff (show 128 + z < 256 by omega),
      cont_iff (show 128 + w < 256 by omega), utf8Trail_eq (show 240 + x < 256 by omega),
      show ¬ (240 + x < 128) by omega, show ¬ (240 + x < 192) by omega, show ¬ 240 + x < 224 by omega,
      show ¬ 240 + x < 240 by omega, show 240 + x < 248 by omega, if_true, if_false,
      show ¬ (3 = 0) by omega, show ¬ (3 = 1) by omega, show ¬ (3 = 2) by omega, h1, h2, h3, h4, shift_or hy, shift_or hz,
      shift_or hw, List.length_append, List.length_cons]
    rw [if_neg (by omega), if_neg (by omega), if_neg (by omega), if_neg (by omega), hc]

theorem utf8Next_at {c : Nat} (h : IsScalar c) (pre post : List Nat) :
    utf8Next (pre ++ (utf8Of c ++ post)) pre.length = some (pre.length + (utf8Of c).length) := by
  unfold utf8Next
  rw [get_at]
  rcases utf8Of_cases h with ⟨hc, e⟩ | ⟨x, y, hx, hy, hc, e⟩ | ⟨x, y, z, hx, hy, hz, hc, e⟩ | ⟨x, y, z, w, hx, hy, hz, hw, hc, e⟩
  · rw [e]
    simp only [List.cons_append, List.getElem?_cons_zero, Option.map_some, utf8Trail_eq (show c < 256 by omega),
      show c < 192 by omega, if_true, List.length_cons, List.length_nil]
  · rw [e]
    simp only [List.cons_append, List.getElem?_cons_zero, Option.map_some, utf8Trail_eq (show 192 + x < 256 by omega),
      show ¬ (192 + x < 192) by omega, show 192 + x < 224 by omega, if_true, if_false, List.length_cons, List.length_nil]
  · rw [e]
    simp only [List.cons_append, List.getElem?_cons_zero, Option.map_some, utf8Trail_eq (show 224 + x < 256 by omega),
      show ¬ (224 + x < 192) by omega, show ¬ 224 + x < 224 by omega, show 224 + x < 240 by omega, if_true, if_false,
      List.length_cons, List.length_nil]
  · rw [e]
    simp only [List.cons_append, List.getElem?_cons_zero, Option.map_some, utf8Trail_eq (show 240 + x < 256 by omega),
      show ¬ (240 + x < 192) by omega, show ¬ 240 + x < 224 by omega, show ¬ 240 + x < 240 by omega,
      show 240 + x < 248 by omega, if_true, if_false, List.length_cons, List.length_nil]

theorem utf8Scan_stop {b : List Nat} {p u : Nat} (h : b[p]? = some u) (hu : u < 256) (hc : u < 0x80 ∨ 0xC0 ≤ u) :
    utf8Scan b p = some p := by
  unfold utf8Scan
  simp only [h, cont_iff hu]
  rw [if_neg (by omega)]

theorem utf8Scan_next {b : List Nat} {p u : Nat} (h : b[p + 1]? = some u) (hu : u < 256) (hc : 0x80 ≤ u ∧ u < 0xC0) :
    utf8Scan b (p + 1) = utf8Scan b p := by
  rw [utf8Scan]
  simp only [h, cont_iff hu, hc, and_self, if_true]

theorem utf8Prev_at {c : Nat} (h : IsScalar c) (pre post : List Nat) :
    utf8Prev (pre ++ (utf8Of c ++ post)) (pre.length + (utf8Of c).length) = some pre.length := by
  unfold utf8Prev
  rw [if_neg (by simp only [List.length_append]; omega)]
  have g0 := get_at pre (utf8Of c ++ post)
  have g1 := get_after pre (utf8Of c ++ post) 1
  have g2 := get_after pre (utf8Of c ++ post) 2
  have g3 := get_after pre (utf8Of c ++ post) 3
  rcases utf8Of_cases h with ⟨hc, e⟩ | ⟨x, y, hx, hy, hc, e⟩ | ⟨x, y, z, hx, hy, hz, hc, e⟩ | ⟨x, y, z, w, hx, hy, hz, hw, hc, e⟩ <;>
    rw [e] at g0 g1 g2 g3 ⊢ <;>
    simp only [List.cons_append, List.nil_append, List.getElem?_cons_zero, List.getElem?_cons_succ] at g0 g1 g2 g3 <;>
    simp only [List.length_cons, List.length_nil, List.cons_append, List.nil_append, ← Nat.add_assoc, Nat.zero_add]
  · exact utf8Scan_stop g0 (by omega) (by omega)
  · rw [utf8Scan_next g1 (by omega) (by omega)]
    exact utf8Scan_stop g0 (by omega) (by omega)
  · show utf8Scan _ (pre.length + 2) = _
    rw [utf8Scan_next (p := pre.length + 1) g2 (by omega) (by omega), utf8Scan_next g1 (by omega) (by omega)]
    exact utf8Scan_stop g0 (by omega) (by omega)
  · show utf8Scan _ (pre.length + 3) = _
    rw [utf8Scan_next (p := pre.length + 2) g3 (by omega) (by omega), utf8Scan_next (p := pre.length + 1) g2 (by omega) (by omega),
      utf8Scan_next g1 (by omega) (by omega)]
    exact utf8Scan_stop g0 (by omega) (by omega)

theorem utf8Encode_append (s t : List Nat) : utf8Encode (s ++ t) = utf8Encode s ++ utf8Encode t := by
  simp [utf8Encode]

/-- The code units around a position. -/
theorem utf8Encode_split {s : List Nat} {i c : Nat} (h : s[i]? = some c) :
    utf8Encode s = utf8Encode (s.take i) ++ (utf8Of c ++ utf8Encode (s.drop (i + 1))) ∧
    utf8Offset s (i + 1) = utf8Offset s i + (utf8Of c).length := by
  obtain ⟨hi, hc⟩ := List.getElem?_eq_some_iff.1 h
  have e1 : s = s.take i ++ c :: s.drop (i + 1) := by
    rw [← hc, ← List.drop_eq_getElem_cons hi, List.take_append_drop]
  constructor
  · conv => lhs; rw [e1]
    rw [utf8Encode_append]
    rfl
  · unfold utf8Offset
    rw [List.take_add_one, h, utf8Encode_append, List.length_append]
    simp [utf8Encode]

theorem utf8Of_pos (c : Nat) : 0 < (utf8Of c).length := by
  unfold utf8Of; split <;> (try split) <;> (try split) <;> simp

theorem utf8Offset_lt {s : List Nat} : ∀ {i j : Nat}, i < j → j ≤ s.length → utf8Offset s i < utf8Offset s j := by
  intro i j h hj
  induction j with
  | zero => omega
  | succ j ih =>
    have := (utf8Encode_split (s := s) (i := j) (c := s[j]) (List.getElem?_eq_getElem (by omega))).2
    have h2 := utf8Of_pos s[j]
    by_cases hij : i = j
    · subst hij; omega
    · have := ih (by omega) (by omega); omega

theorem utf8Offset_zero (s : List Nat) : utf8Offset s 0 = 0 := by simp [utf8Offset, utf8Encode]
theorem utf8Offset_length (s : List Nat) : utf8Offset s s.length = (utf8Encode s).length := by simp [utf8Offset]

theorem utf8Offset_inj {s : List Nat} {i j : Nat} (hi : i ≤ s.length) (hj : j ≤ s.length) (h : utf8Offset s i = utf8Offset s j) :
    i = j := by
  rcases Nat.lt_trichotomy i j with hl | hl | hl
  · have := utf8Offset_lt hl hj; omega
  · exact hl
  · have := utf8Offset_lt hl hi; omega

/-- The code points as characters of a subject. -/
def codePoints (s : List Nat) : List Ch := s.map fun c : Nat => (c : Int)

/-- On encoded scalar values the iterator walks the code points, in both directions. -/
theorem utf8_walks {L : Bool} {s : List Nat} (hs : ∀ c ∈ s, IsScalar c) (o : Needs) (ho : o.refs = false)
    (hb : o.behind = true → L = true ∨ ∀ c ∈ s, c < 256) : Walks o (utf8Cursor L (utf8Encode s)) (codePoints s) false (utf8Offset s) where
  inj := by
    intro i j hi hj h
    simp only [codePoints, List.length_map] at hi hj
    exact utf8Offset_inj hi hj h
  size := by
    simp only [codePoints, List.length_map, utf8Cursor]
    induction s with
    | nil => simp
    | cons c s ih =>
      have := ih (fun c hc => hs c (by simp [hc])) (fun h => (hb h).imp id fun h' c hc => h' c (by simp [hc]))
      have h2 := utf8Of_pos c
      have h3 : utf8Encode (c :: s) = utf8Of c ++ utf8Encode s := rfl
      rw [h3, List.length_append, List.length_cons]
      omega
  atBegin := by
    intro _ i hi
    simp only [codePoints, List.length_map] at hi
    simp only [utf8Cursor]
    congr 1
    refine decide_eq_decide.2 ⟨fun h => ?_, fun h => by rw [h, utf8Offset_zero]⟩
    rw [← utf8Offset_zero s] at h
    exact utf8Offset_inj hi (by omega) h
  atEnd := by
    intro i hi
    simp only [codePoints, List.length_map] at hi ⊢
    simp only [utf8Cursor]
    congr 1
    rw [← utf8Offset_length]
    refine decide_eq_decide.2 ⟨fun h => ?_, fun h => by rw [h]; exact Nat.le_refl _⟩
    rcases Nat.lt_or_ge i s.length with hl | hl
    · have := utf8Offset_lt hl (Nat.le_refl _); omega
    · omega
  deref := by
    intro i v hv
    simp only [codePoints, List.getElem?_map, Option.map_eq_some_iff] at hv
    obtain ⟨c, hc, rfl⟩ := hv
    simp only [utf8Cursor]
    rw [(utf8Encode_split hc).1]
    have := utf8Deref_at (hs c (List.mem_of_getElem? hc)) (utf8Encode (s.take i)) (utf8Encode (s.drop (i + 1)))
    rw [show utf8Offset s i = (utf8Encode (s.take i)).length from rfl, this]
    rfl
  next := by
    intro i hi
    simp only [codePoints, List.length_map] at hi
    have hc := List.getElem?_eq_getElem hi
    simp only [utf8Cursor]
    rw [(utf8Encode_split hc).1, (utf8Encode_split hc).2]
    exact utf8Next_at (hs _ (List.mem_of_getElem? hc)) (utf8Encode (s.take i)) (utf8Encode (s.drop (i + 1)))
  prev := by
    intro _ i hi
    simp only [codePoints, List.length_map] at hi
    have hc := List.getElem?_eq_getElem hi
    simp only [utf8Cursor]
    rw [(utf8Encode_split hc).2]
    conv => lhs; rw [(utf8Encode_split hc).1]
    exact utf8Prev_at (hs _ (List.mem_of_getElem? hc)) (utf8Encode (s.take i)) (utf8Encode (s.drop (i + 1)))
  narrow := by
    intro h v hv
    simp only [codePoints, List.mem_map] at hv
    obtain ⟨c, hc, rfl⟩ := hv
    simp only [utf8Cursor]
    split
    · rfl
    · rename_i hL
      have := (hb h).resolve_left (by simpa using hL) c hc
      show (c : Int) % 256 = (c : Int)
      omega
  store := rfl
  refs := by rw [ho]; simp

/-- Reading at a position inside the buffer stays inside the buffer, whatever the code units. -/
theorem utf8Deref_some {b : List Nat} {p : Nat} (hp : p < b.length) : ∃ v, utf8Deref b p = some v := by
  unfold utf8Deref
  obtain ⟨u, hu⟩ : ∃ u, b[p]? = some u := ⟨_, List.getElem?_eq_getElem hp⟩
  have hlen : utf8Trail u ≤ 3 := by
    unfold utf8Trail; exact Nat.and_le_right
  rw [hu]
  dsimp only
  split
  · exact ⟨_, rfl⟩
  split
  · exact ⟨_, rfl⟩
  split
  · exact ⟨_, rfl⟩
  obtain ⟨u1, hu1⟩ : ∃ u, b[p + 1]? = some u := ⟨_, List.getElem?_eq_getElem (by omega)⟩
  rw [hu1]
  dsimp only
  split
  · exact ⟨_, rfl⟩
  split
  · exact ⟨_, rfl⟩
  obtain ⟨u2, hu2⟩ : ∃ u, b[p + 2]? = some u := ⟨_, List.getElem?_eq_getElem (by omega)⟩
  rw [hu2]
  dsimp only
  split
  · exact ⟨_, rfl⟩
  split
  · exact ⟨_, rfl⟩
  obtain ⟨u3, hu3⟩ : ∃ u, b[p + 3]? = some u := ⟨_, List.getElem?_eq_getElem (by omega)⟩
  rw [hu3]
  dsimp only
  split
  · exact ⟨_, rfl⟩
  · exact ⟨_, rfl⟩

/-- Offsets of a forward iteration. -/
def utf8Pos (b : List Nat) : Nat → Nat
  | 0 => 0
  | i + 1 => (utf8Next b (utf8Pos b i)).getD (utf8Pos b i)

theorem utf8Next_inside {b : List Nat} {p : Nat} (hp : p < b.length) : ∃ q, utf8Next b p = some q ∧ p < q := by
  unfold utf8Next
  rw [List.getElem?_eq_getElem hp]
  exact ⟨p + (utf8Trail b[p] + 1), rfl, by omega⟩

theorem utf8Pos_succ {b : List Nat} {i : Nat} (h : utf8Pos b i < b.length) :
    utf8Next b (utf8Pos b i) = some (utf8Pos b (i + 1)) ∧ utf8Pos b i < utf8Pos b (i + 1) := by
  obtain ⟨q, h1, h2⟩ := utf8Next_inside h
  have : utf8Pos b (i + 1) = q := by simp [utf8Pos, h1]
  rw [this]
  exact ⟨h1, h2⟩

/-- The iteration reaches the end. -/
theorem utf8_steps (b : List Nat) : ∃ N, N ≤ b.length ∧ b.length ≤ utf8Pos b N ∧ ∀ i, i < N → utf8Pos b i < b.length := by
  have key : ∀ k, (∀ i, i < k → utf8Pos b i < b.length) → k ≤ utf8Pos b k := by
    intro k
    induction k with
    | zero => intro _; omega
    | succ k ih =>
      intro h
      have h1 := ih (fun i hi => h i (by omega))
      have h2 := (utf8Pos_succ (h k (by omega))).2
      omega
  have : ∀ k, (∃ N, N ≤ k ∧ b.length ≤ utf8Pos b N ∧ ∀ i, i < N → utf8Pos b i < b.length) ∨
      ∀ i, i ≤ k → utf8Pos b i < b.length := by
    intro k
    induction k with
    | zero =>
      rcases Nat.lt_or_ge (utf8Pos b 0) b.length with h | h
      · exact .inr fun i hi => by rw [show i = 0 by omega]; exact h
      · exact .inl ⟨0, Nat.le_refl _, h, fun i hi => by omega⟩
    | succ k ih =>
      rcases ih with ⟨N, h1, h2⟩ | h
      · exact .inl ⟨N, by omega, h2⟩
      · rcases Nat.lt_or_ge (utf8Pos b (k + 1)) b.length with h' | h'
        · refine .inr fun i hi => ?_
          rcases Nat.lt_or_ge i (k + 1) with hik | hik
          · exact h i (by omega)
          · rw [show i = k + 1 by omega]; exact h'
        · exact .inl ⟨k + 1, Nat.le_refl _, h', fun i hi => h i (by omega)⟩
  rcases this b.length with h | h
  · exact h
  · have := key b.length (fun i hi => h i (by omega))
    have := h b.length (Nat.le_refl _)
    omega

/-- The iterator never reads outside the buffer going forward: it walks some sequence of characters. -/
theorem utf8_walks_forward {L : Bool} (b : List Nat) : ∃ s : List Ch, Walks ⟨false, false, false, true⟩ (utf8Cursor L b) s false (utf8Pos b) := by
  obtain ⟨N, hN, hend, hlt⟩ := utf8_steps b
  have hmono : ∀ i j, i < j → j ≤ N → utf8Pos b i < utf8Pos b j := by
    intro i j h hj
    induction j with
    | zero => omega
    | succ j ih =>
      have h2 := (utf8Pos_succ (hlt j (by omega))).2
      by_cases hij : i = j
      · subst hij; exact h2
      · have := ih (by omega) (by omega); omega
  refine ⟨(List.range N).map fun i => (((utf8Deref b (utf8Pos b i)).getD 0 : Nat) : Int), ?_⟩
  constructor
  · intro i j hi hj h
    simp only [List.length_map, List.length_range] at hi hj
    rcases Nat.lt_trichotomy i j with hl | hl | hl
    · have := hmono i j hl hj; omega
    · exact hl
    · have := hmono j i hl hi; omega
  · simp only [List.length_map, List.length_range, utf8Cursor]; exact hN
  · intro _ i hi
    simp only [List.length_map, List.length_range] at hi
    simp only [utf8Cursor]
    congr 1
    refine decide_eq_decide.2 ⟨fun h => ?_, fun h => by rw [h]; rfl⟩
    rcases Nat.eq_zero_or_pos i with h0 | h0
    · exact h0
    · have := hmono 0 i h0 hi; omega
  · intro i hi
    simp only [List.length_map, List.length_range] at hi ⊢
    simp only [utf8Cursor]
    congr 1
    refine decide_eq_decide.2 ⟨fun h => ?_, fun h => by rw [h]; exact hend⟩
    rcases Nat.lt_or_ge i N with hl | hl
    · have := hlt i hl; omega
    · omega
  · intro i v hv
    simp only [List.getElem?_map, Option.map_eq_some_iff] at hv
    obtain ⟨j, hj, rfl⟩ := hv
    obtain ⟨h1, h2⟩ := List.getElem?_eq_some_iff.1 hj
    simp only [List.length_range] at h1
    simp only [List.getElem_range] at h2
    subst h2
    obtain ⟨v, hv⟩ := utf8Deref_some (hlt i h1)
    simp only [utf8Cursor, hv]
    rfl
  · intro i hi
    simp only [List.length_map, List.length_range] at hi
    exact (utf8Pos_succ (hlt i hi)).1
  · intro h; simp at h
  · intro h; simp at h
  · rfl
  · intro h; simp at h

theorem mapPos_inside {s : List Nat} {c d : Caps} (hd : d = c.mapPos (utf8Offset s)) {id : Nat} {sl : Slot}
    (h : ∀ sl, c.get id = some sl → sl.matched = true →
      ∃ b e, sl.b = some b ∧ sl.e = some e ∧ b ≤ e ∧ e ≤ (codePoints s).length) (hg : d.get id = some sl)
    (hm : sl.matched = true) : ∃ i j, sl.b = some (utf8Offset s i) ∧ sl.e = some (utf8Offset s j) ∧ i ≤ j ∧ j ≤ s.length := by
  subst hd
  rw [get_mapPos, Option.map_eq_some_iff] at hg
  obtain ⟨x, hx, rfl⟩ := hg
  obtain ⟨b, e, h1, h2, h3, h4⟩ := h x hx hm
  refine ⟨b, e, ?_, ?_, h3, by simpa [codePoints] using h4⟩
  · simp [Slot.mapPos, h1]
  · simp [Slot.mapPos, h2]

end Ctre

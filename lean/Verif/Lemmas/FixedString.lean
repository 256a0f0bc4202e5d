import Verif.Model.FixedString
import Verif.Lemmas.Utf8

/-
Decoding of encoded pattern literals.
-/
namespace Ctre

theorem litLead_table : ∀ u : Fin 256, litUtf8Lead u.val =
    if u.val < 0x80 then (1, u.val) else if u.val < 0xC0 then (0, 0) else if u.val < 0xE0 then (2, u.val % 32)
    else if u.val < 0xF0 then (3, u.val % 16) else if u.val < 0xF8 then (4, u.val % 8)
    else if u.val < 0xFC then (5, u.val % 4) else (6, u.val % 2) := by decide +kernel

theorem litUtf8Lead_eq {u : Nat} (h : u < 256) : litUtf8Lead u =
    if u < 0x80 then (1, u) else if u < 0xC0 then (0, 0) else if u < 0xE0 then (2, u % 32)
    else if u < 0xF0 then (3, u % 16) else if u < 0xF8 then (4, u % 8)
    else if u < 0xFC then (5, u % 4) else (6, u % 2) := litLead_table ⟨u, h⟩

theorem litTrail_table : ∀ u : Fin 64, litUtf8Trail (0x80 + u.val) = some u.val := by decide +kernel

theorem litUtf8Trail_eq {u : Nat} (h : u < 64) : litUtf8Trail (0x80 + u) = some u := litTrail_table ⟨u, h⟩

theorem litUtf8Loop_at {c : Nat} (h : IsScalar c) (n : Nat) (ok : Bool) (l : List Nat) :
    litUtf8Loop (n + 1) ok (utf8Of c ++ l) =
      { content := c :: (litUtf8Loop n ok l).content, correct := (litUtf8Loop n ok l).correct } := by
  rcases utf8Of_cases h with ⟨hc, e⟩ | ⟨x, y, hx, hy, hc, e⟩ | ⟨x, y, z, hx, hy, hz, hc, e⟩ | ⟨x, y, z, w, hx, hy, hz, hw, hc, e⟩
  · rw [e]
    simp only [List.cons_append, List.nil_append, litUtf8Loop, litUtf8Lead_eq (show c < 256 by omega), hc, if_true, litUtf8Rest]
  · rw [e]
    simp only [List.cons_append, List.nil_append, litUtf8Loop, litUtf8Lead_eq (show 192 + x < 256 by omega),
      show ¬ (192 + x < 128) by omega, show ¬ (192 + x < 192) by omega, show 192 + x < 224 by omega, if_true, if_false,
      litUtf8Rest, litUtf8Trail_eq hy, show (192 + x) % 32 = x by omega, shift_or hy, ← hc]
  · rw [e]
    simp only [List.cons_append, List.nil_append, litUtf8Loop, litUtf8Lead_eq (show 224 + x < 256 by omega),
      show ¬ (224 + x < 128) by omega, show ¬ (224 + x < 192) by omega, show ¬ (224 + x < 224) by omega,
      show 224 + x < 240 by omega, if_true, if_false,
      litUtf8Rest, litUtf8Trail_eq hy, litUtf8Trail_eq hz, show (224 + x) % 16 = x by omega, shift_or hy, shift_or hz, ← hc]
  · rw [e]
    simp only [List.cons_append, List.nil_append, litUtf8Loop, litUtf8Lead_eq (show 240 + x < 256 by omega),
      show ¬ (240 + x < 128) by omega, show ¬ (240 + x < 192) by omega, show ¬ (240 + x < 224) by omega,
      show ¬ (240 + x < 240) by omega, show 240 + x < 248 by omega, if_true, if_false,
      litUtf8Rest, litUtf8Trail_eq hy, litUtf8Trail_eq hz, litUtf8Trail_eq hw, show (240 + x) % 8 = x by omega,
      shift_or hy, shift_or hz, shift_or hw, ← hc]

theorem litUtf8Loop_encode {s : List Nat} (hs : ∀ c ∈ s, IsScalar c) (ok : Bool) :
    ∀ n, s.length ≤ n → litUtf8Loop n ok (utf8Encode s) = { content := s, correct := ok } := by
  induction s with
  | nil => intro n _; cases n <;> rfl
  | cons c s ih =>
    intro n hn
    obtain ⟨n, rfl⟩ : ∃ m, n = m + 1 := ⟨n - 1, by simp at hn; omega⟩
    rw [show utf8Encode (c :: s) = utf8Of c ++ utf8Encode s from rfl, litUtf8Loop_at (hs c List.mem_cons_self),
      ih (fun c hc => hs c (List.mem_cons_of_mem _ hc)) n (by simp at hn; omega)]

theorem utf8Of_length_pos (c : Nat) : 1 ≤ (utf8Of c).length := by
  unfold utf8Of
  repeat' split
  all_goals simp

theorem utf16Of_length_pos (c : Nat) : 1 ≤ (utf16Of c).length := by
  unfold utf16Of
  split <;> simp

theorem flatMap_length_ge {f : Nat → List Nat} (hf : ∀ c, 1 ≤ (f c).length) (s : List Nat) :
    s.length ≤ (s.flatMap f).length := by
  induction s with
  | nil => simp
  | cons c s ih => have := hf c; simp only [List.flatMap_cons, List.length_cons, List.length_append]; omega

/-- The high six bits of a 16-bit code unit. -/
theorem and_high6 {x : Nat} (h : x < 65536) : x &&& 0b1111110000000000 = x / 1024 * 1024 := by
  have e : 0b1111110000000000 = 0b111111 <<< 10 := by decide
  apply Nat.eq_of_testBit_eq
  intro i
  rw [e, Nat.testBit_and, Nat.testBit_shiftLeft, ← Nat.shiftLeft_eq (x / 1024) 10, Nat.testBit_shiftLeft]
  by_cases hi : i ≥ 10
  · simp only [hi, decide_true, Bool.true_and]
    rw [show x / 1024 = x >>> 10 by rw [Nat.shiftRight_eq_div_pow], Nat.testBit_shiftRight,
      show 10 + (i - 10) = i by omega]
    by_cases h16 : i < 16
    · have h63 : ∀ j : Fin 6, Nat.testBit 0b111111 j.val = true := by decide
      have := h63 ⟨i - 10, by omega⟩
      simp only at this
      rw [this, Bool.and_true]
    · have hx : x.testBit i = false := by
        apply Nat.testBit_lt_two_pow
        exact Nat.lt_of_lt_of_le h (by have : 2 ^ 16 ≤ 2 ^ i := Nat.pow_le_pow_right (by omega) (by omega); simpa using this)
      rw [hx, Bool.false_and]
  · simp [hi]

theorem and_low10 (x : Nat) : x &&& 0b0000001111111111 = x % 1024 := Nat.and_two_pow_sub_one_eq_mod x 10

theorem shift_or10 {a b : Nat} (h : b < 1024) : (a <<< 10) ||| b = a * 1024 + b := by
  rw [Nat.shiftLeft_eq, Nat.mul_comm a (2 ^ 10), ← Nat.two_pow_add_eq_or_of_lt (i := 10) h a]

theorem litUtf16Loop_at {c : Nat} (h : IsScalar c) (n : Nat) (l : List Nat) :
    litUtf16Loop (n + 1) (utf16Of c ++ l) =
      { content := c :: (litUtf16Loop n l).content, correct := (litUtf16Loop n l).correct } := by
  unfold utf16Of
  by_cases hc : c < 0x10000
  · rw [if_pos hc]
    have : litUtf16Lead c = (1, c) := by
      unfold litUtf16Lead
      rw [if_neg]
      rw [and_high6 hc]
      rcases h with h | h <;> omega
    simp only [List.cons_append, List.nil_append, litUtf16Loop, this]
  · rw [if_neg hc]
    have hc' : c < 0x110000 := by rcases h with h | h <;> omega
    have h1 : litUtf16Lead (0xD800 + (c - 0x10000) / 1024) = (2, (c - 0x10000) / 1024) := by
      unfold litUtf16Lead
      rw [if_pos (by rw [and_high6 (by omega)]; omega), and_low10]
      congr 1; omega
    have h2 : (0xDC00 + (c - 0x10000) % 1024) &&& 0b1111110000000000 = 0b1101110000000000 := by
      rw [and_high6 (by omega)]; omega
    simp only [List.cons_append, List.nil_append, litUtf16Loop, h1, h2, if_true, and_low10]
    rw [shift_or10 (by omega)]
    congr 2; omega

theorem litUtf16Loop_encode {s : List Nat} (hs : ∀ c ∈ s, IsScalar c) :
    ∀ n, s.length ≤ n → litUtf16Loop n (utf16Encode s) = { content := s, correct := true } := by
  induction s with
  | nil => intro n _; cases n <;> rfl
  | cons c s ih =>
    intro n hn
    obtain ⟨n, rfl⟩ : ∃ m, n = m + 1 := ⟨n - 1, by simp at hn; omega⟩
    rw [show utf16Encode (c :: s) = utf16Of c ++ utf16Encode s from rfl, litUtf16Loop_at (hs c List.mem_cons_self),
      ih (fun c hc => hs c (List.mem_cons_of_mem _ hc)) n (by simp at hn; omega)]

theorem litUtf8Loop_length (n : Nat) (ok : Bool) (l : List Nat) : (litUtf8Loop n ok l).content.length ≤ n := by
  induction n generalizing ok l with
  | zero => simp [litUtf8Loop]
  | succ n ih =>
    cases l with
    | nil => simp [litUtf8Loop]
    | cons u l =>
      unfold litUtf8Loop
      split
      · simp
      · exact Nat.succ_le_succ (ih ..)

theorem litUtf16Loop_length (n : Nat) (l : List Nat) : (litUtf16Loop n l).content.length ≤ n := by
  induction n generalizing l with
  | zero => simp [litUtf16Loop]
  | succ n ih =>
    cases l with
    | nil => simp [litUtf16Loop]
    | cons u l =>
      unfold litUtf16Loop
      split
      · split
        · simp
        · split
          · exact Nat.succ_le_succ (ih ..)
          · simp
      · exact Nat.succ_le_succ (ih ..)

theorem sameLoop_iff (a b : List Nat) (n i : Nat) :
    sameLoop a b n i = true ↔ ∀ j, i ≤ j → j < i + n → a[j]? = b[j]? := by
  induction n generalizing i with
  | zero => simp only [sameLoop, true_iff]; intro j h1 h2; omega
  | succ n ih =>
    unfold sameLoop
    by_cases h : a[i]? = b[i]?
    · rw [if_neg (by simpa using h), ih]
      constructor
      · intro H j h1 h2
        rcases Nat.eq_or_lt_of_le h1 with rfl | h1
        · exact h
        · exact H j h1 (by omega)
      · intro H j h1 h2; exact H j (by omega) (by omega)
    · rw [if_pos (by simpa using h)]
      simp only [Bool.false_eq_true, false_iff]
      intro H; exact h (H i (Nat.le_refl _) (by omega))

theorem litTrail_some_table : ∀ u : Fin 256, (litUtf8Trail u.val).isSome = decide (IsContinuation u.val) := by decide +kernel

theorem litUtf8Trail_isSome {u : Nat} (h : u < 256) : (litUtf8Trail u).isSome = decide (IsContinuation u) :=
  litTrail_some_table ⟨u, h⟩

theorem litUtf8Lead_fst {u : Nat} (h : u < 256) : (litUtf8Lead u).1 = utf8SeqLen u := by
  rw [litUtf8Lead_eq h]; unfold utf8SeqLen
  repeat' split
  all_goals rfl

theorem litUtf8Rest_eq : ∀ (k v : Nat) (ok : Bool) (l : List Nat), (∀ u ∈ l, u < 256) →
    (litUtf8Rest k v ok l).2 = (ok && (l.take k).all fun u => decide (IsContinuation u), l.drop k) := by
  intro k
  induction k with
  | zero => intro v ok l _; simp [litUtf8Rest]
  | succ k ih =>
    intro v ok l hl
    cases l with
    | nil => simp only [litUtf8Rest]; rw [ih _ _ _ (by simp)]; simp
    | cons u l =>
      have h1 := litUtf8Trail_isSome (hl u List.mem_cons_self)
      have h2 : ∀ v ∈ l, v < 256 := fun v hv => hl v (List.mem_cons_of_mem _ hv)
      simp only [litUtf8Rest]
      cases ht : litUtf8Trail u with
      | none =>
        rw [ht] at h1
        simp only [ih _ _ _ h2, List.take_succ_cons, List.all_cons, ← h1, List.drop_succ_cons]
        simp
      | some t =>
        rw [ht] at h1
        simp only [ih _ _ _ h2, List.take_succ_cons, List.all_cons, ← h1, List.drop_succ_cons]
        simp

theorem sequences8_cons {u : Nat} {l : List Nat} : Sequences8 (u :: l) ↔
    utf8SeqLen u ≠ 0 ∧ (∀ v ∈ l.take (utf8SeqLen u - 1), IsContinuation v) ∧ Sequences8 (l.drop (utf8SeqLen u - 1)) := by
  constructor
  · intro h
    generalize hx : u :: l = x at h
    cases h with
    | nil => cases hx
    | @seq u' t l' h1 h2 h3 =>
      simp only [List.cons_append, List.cons.injEq] at hx
      obtain ⟨rfl, rfl⟩ := hx
      have e : utf8SeqLen u - 1 = t.length := by omega
      rw [e, List.take_left, List.drop_left]
      exact ⟨by omega, h2, h3⟩
    | @cut u' t h1 h2 =>
      simp only [List.cons.injEq] at hx
      obtain ⟨rfl, rfl⟩ := hx
      rw [List.take_of_length_le (by omega), List.drop_of_length_le (by omega)]
      exact ⟨by omega, h2, .nil⟩
  · rintro ⟨h1, h2, h3⟩
    by_cases h : utf8SeqLen u - 1 ≤ l.length
    · have := Sequences8.seq (u := u) (t := l.take (utf8SeqLen u - 1)) (by rw [List.length_take]; omega) h2 h3
      rwa [List.cons_append, List.take_append_drop] at this
    · rw [List.take_of_length_le (by omega)] at h2
      exact .cut (by omega) h2

theorem litUtf8Loop_correct : ∀ (n : Nat) (ok : Bool) (l : List Nat), l.length ≤ n → (∀ u ∈ l, u < 256) →
    ((litUtf8Loop n ok l).correct = true ↔ ok = true ∧ Sequences8 l) := by
  intro n
  induction n with
  | zero =>
    intro ok l hn _
    have : l = [] := List.length_eq_zero_iff.1 (by omega)
    subst this
    simp [litUtf8Loop, Sequences8.nil]
  | succ n ih =>
    intro ok l hn hl
    cases l with
    | nil => simp [litUtf8Loop, Sequences8.nil]
    | cons u l =>
      have hu := litUtf8Lead_fst (hl u List.mem_cons_self)
      have h2 : ∀ v ∈ l, v < 256 := fun v hv => hl v (List.mem_cons_of_mem _ hv)
      rw [sequences8_cons, ← hu]
      simp only [litUtf8Loop]
      rcases hx : litUtf8Lead u with ⟨k, v⟩
      cases k with
      | zero => simp
      | succ k =>
        have hr := litUtf8Rest_eq k v ok l h2
        simp only [hr]
        rw [ih _ _ (by simp at hn ⊢; omega) (fun w hw => h2 w (List.mem_of_mem_drop hw))]
        simp only [Bool.and_eq_true, List.all_eq_true, decide_eq_true_eq, Nat.add_sub_cancel, ne_eq, Nat.add_eq_zero_iff,
          Nat.one_ne_zero, and_false, not_false_eq_true, true_and, and_assoc]

theorem litUtf16Lead_eq {u : Nat} (h : u < 65536) :
    litUtf16Lead u = if 0xD800 ≤ u ∧ u < 0xDC00 then (2, u % 1024) else (1, u) := by
  unfold litUtf16Lead
  rw [and_high6 h, and_low10]
  by_cases hu : 0xD800 ≤ u ∧ u < 0xDC00
  · rw [if_pos hu, if_pos (by omega)]
  · rw [if_neg hu, if_neg (by omega)]

theorem litUtf16Loop_correct : ∀ (n : Nat) (l : List Nat), l.length ≤ n → (∀ u ∈ l, u < 65536) →
    ((litUtf16Loop n l).correct = true ↔ Sequences16 l) := by
  intro n
  induction n with
  | zero =>
    intro l hn _
    have : l = [] := List.length_eq_zero_iff.1 (by omega)
    subst this
    simp [litUtf16Loop, Sequences16.nil]
  | succ n ih =>
    intro l hn hl
    cases l with
    | nil => simp [litUtf16Loop, Sequences16.nil]
    | cons u l =>
      have hu := litUtf16Lead_eq (hl u List.mem_cons_self)
      have h2 : ∀ v ∈ l, v < 65536 := fun v hv => hl v (List.mem_cons_of_mem _ hv)
      simp only [List.length_cons] at hn
      simp only [litUtf16Loop]
      by_cases hs : 0xD800 ≤ u ∧ u < 0xDC00
      · rw [hu, if_pos hs]
        cases l with
        | nil => simpa using Sequences16.cut hs
        | cons v l =>
          simp only [List.length_cons] at hn
          have hv := h2 v List.mem_cons_self
          simp only [and_high6 hv]
          by_cases hw : 0xDC00 ≤ v ∧ v < 0xE000
          · rw [if_pos (by omega), ih l (by omega) (fun w hw => h2 w (List.mem_cons_of_mem _ hw))]
            constructor
            · exact .pair hs hw
            · intro h
              cases h with
              | one h _ => exact absurd hs h
              | pair _ _ h => exact h
          · rw [if_neg (by omega)]
            simp only [Bool.false_eq_true, false_iff]
            intro h
            cases h with
            | one h _ => exact absurd hs h
            | pair _ h _ => exact hw h
      · rw [hu, if_neg hs]
        simp only
        rw [ih l (by omega) h2]
        constructor
        · exact .one hs
        · intro h
          cases h with
          | one _ h => exact h
          | pair h _ _ => exact absurd h hs
          | cut h => exact absurd h hs

end Ctre

import Verif.Lemmas.Utf8Forms
import Verif.Props.Api

/-
C71: UTF-8 subjects that may be malformed.  The reading `Decodes` of arbitrary bytes is in Spec/Utf8Forms.lean.
-/
namespace Ctre

/-- C71: every sequence of bytes has one reading. -/
theorem C71_total (b : List Nat) : ∃ r, Decodes b r ∧ ∀ r', Decodes b r' → r' = r := by
  obtain ⟨r, h⟩ := decodes_exists b.length b (Nat.le_refl _)
  exact ⟨r, h, fun r' h' => decodes_unique h' h⟩

/-- C71: dereferencing inside the buffer.  Either a form of some value stands there, and then the iterator reads that
value and moves over that form; or none does, and then it reads U+FFFD and moves by the announced number of code units. -/
theorem C71_step {b : List Nat} (hb : ∀ u ∈ b, u < 256) {p : Nat} (hp : p < b.length) :
    (∃ k c, Begins (b.drop p) k c ∧ utf8Deref b p = some c ∧ utf8Next b p = some (p + k)) ∨
    ((∀ k c, ¬ Begins (b.drop p) k c) ∧ utf8Deref b p = some 0xFFFD ∧ utf8Next b p = some (p + announced b[p])) := by
  obtain ⟨r, h⟩ := decodes_exists _ (b.drop p) (Nat.le_refl _)
  rcases decodes_step hb h with ⟨h, _⟩ | ⟨_, c, k, r', rfl, h1, h2, _, _⟩
  · omega
  · have e := List.drop_eq_getElem_cons hp
    generalize hl : b.drop p = l at h e
    cases h with
    | form hf _ => exact .inl ⟨k, c, hf, h1, h2⟩
    | bad hn _ => cases e; exact .inr ⟨hn, h1, h2⟩

/-- C71: iteration over arbitrary bytes ends after at most as many steps as there are bytes, without reading outside the
buffer, and yields the values of the reading. -/
theorem C71_iteration {b : List Nat} (hb : ∀ u ∈ b, u < 256) {r : List (Nat × Nat)} (h : Decodes b r) :
    r.length ≤ b.length ∧ utf8Collect b (b.length + 1) 0 = some (values r) := by
  have hl := decodes_length h
  exact ⟨hl, collect_decodes hb _ 0 r (by simpa using h) (by omega)⟩

/-- C71: matching arbitrary bytes, with a pattern that never looks back, gives the results of matching the values of the
reading, with indices replaced by offsets. -/
theorem C71_matching (C : Cfg) (n : Nat) {b : List Nat} (hb : ∀ u ∈ b, u < 256) {v : List (Nat × Nat)} (h : Decodes b v)
    {r : Re} (hr : r.Numbered) (hf : r.fits ⟨false, false, false, true⟩ = true) (f : Flags) :
    matchC C n (utf8Cursor C.lib20 b) f r 0 = (cMatch C n (codePoints (values v)) f r).mapPos (startOf v) ∧
    startsWithC C n (utf8Cursor C.lib20 b) f r 0 = (cStartsWith C n (codePoints (values v)) f r).mapPos (startOf v) ∧
    searchC C n (utf8Cursor C.lib20 b) f r 0 = (cSearch C n (codePoints (values v)) f r).mapPos (startOf v) := by
  have H := decodes_walks (L := C.lib20) hb h
  have h0 : 0 ≤ (codePoints (values v)).length := Nat.zero_le _
  have hub := C08_no_out_of_bounds (C := C) (n := n) (f := f) hr h0
  have e : startOf v 0 = 0 := rfl
  have h1 := matchC_sim C n H hf f h0
  have h2 := startsWithC_sim C n H hf f h0
  have h3 := searchC_sim C n H hf f h0
  rw [e] at h1 h2 h3
  exact ⟨h1.resolve_left hub.1, h2.resolve_left hub.2.1, h3.resolve_left hub.2.2⟩

/-- C71: the same for a call with a pattern literal, any of the methods, and a subject of arbitrary bytes. -/
theorem C71_call {P : Parse.PropTable} {C : Cfg} {n : Nat} {ml : Bool} {m : Method} {mods : List Mode} {lit : PatLit} {b : List Nat}
    (hb : ∀ u ∈ b, u < 256) {v : List (Nat × Nat)} (h : Decodes b v)
    (hf : ∀ r, lit.build P = .pattern r → r.fits ⟨false, false, false, true⟩ = true) :
    call P C n ml m mods lit (.u8 b) =
      (call P C n ml m mods lit (.view (codePoints (values v)))).map (Answer.mapPos (startOf v)) := by
  rw [C61_view]
  unfold call
  cases hl : lit.build P with
  | pattern r =>
    exact congrArg some (exec_walks C n (decodes_walks hb h) rfl (Parse.build_numbered hl) (hf r hl)
      (Flags.ofList ((if ml then .multiline else .singleline) :: mods)) m)
  | _ => rfl

/-- C71: the reading of a well-formed text is its code points, each with the length of its encoding. -/
theorem C71_wellformed {s : List Nat} (hs : ∀ c ∈ s, IsScalar c) :
    Decodes (utf8Encode s) (s.map fun c => (c, (utf8Of c).length)) := by
  induction s with
  | nil => exact .nil
  | cons c s ih =>
    have hc := hs c (by simp)
    have e : utf8Encode (c :: s) = utf8Of c ++ utf8Encode s := rfl
    rw [e]
    refine .form ?_ (by rw [List.drop_left]; exact ih fun c hc => hs c (by simp [hc]))
    have hm : c < 0x110000 := by rcases hc with h | h <;> omega
    unfold Begins utf8Of hasForm utf8Form
    by_cases h1 : c < 0x80
    · simp only [if_pos h1]; exact ⟨h1, _, rfl⟩
    by_cases h2 : c < 0x800
    · simp only [if_neg h1, if_pos h2]; exact ⟨h2, _, rfl⟩
    by_cases h3 : c < 0x10000
    · simp only [if_neg h1, if_neg h2, if_pos h3]; exact ⟨h3, _, rfl⟩
    · simp only [if_neg h1, if_neg h2, if_neg h3]; exact ⟨by show c < 0x200000; omega, _, rfl⟩

/-- C71: conversely, a text whose reading consists of scalar values in their shortest forms and no substitutions is
well-formed. -/
theorem C71_wellformed_iff {b : List Nat} {r : List (Nat × Nat)} (h : Decodes b r) :
    (∃ s, (∀ c ∈ s, IsScalar c) ∧ b = utf8Encode s) ↔
      (∀ x ∈ r, IsScalar x.1 ∧ x.2 = (utf8Of x.1).length) ∧ (∀ i, (hi : i < r.length) → Begins (b.drop (startOf r i)) r[i].2 r[i].1) := by
  constructor
  · rintro ⟨s, hs, rfl⟩
    have e := decodes_unique h (C71_wellformed hs)
    subst e
    refine ⟨by simp only [List.mem_map]; rintro _ ⟨c, hc, rfl⟩; exact ⟨hs c hc, rfl⟩, ?_⟩
    intro i hi
    have hi' : i < s.length := by simpa using hi
    have e1 : startOf (s.map fun c => (c, (utf8Of c).length)) i = utf8Offset s i := by
      unfold startOf utf8Offset utf8Encode
      rw [← List.map_take, List.map_map, List.length_flatMap]
      rfl
    have hc := List.getElem?_eq_getElem hi'
    have e2 : (utf8Encode s).drop (utf8Offset s i) = utf8Encode (s.drop i) := by
      conv => lhs; rw [← List.take_append_drop i s]
      unfold utf8Encode utf8Offset
      rw [List.flatMap_append]
      unfold utf8Encode
      rw [List.take_append_drop, List.drop_left]
    rw [e1, e2, List.drop_eq_getElem_cons hi']
    simp only [List.getElem_map]
    have := C71_wellformed (s := s[i] :: s.drop (i + 1)) (by
      intro c hc
      rcases List.mem_cons.1 hc with rfl | hc
      · exact hs _ (List.getElem_mem hi')
      · exact hs _ (List.mem_of_mem_drop hc))
    have hsc := hs _ (List.getElem_mem hi')
    generalize hx : utf8Encode (s[i] :: s.drop (i + 1)) = y at this ⊢
    generalize hz : List.map (fun c => (c, (utf8Of c).length)) (s[i] :: s.drop (i + 1)) = z at this
    cases this with
    | nil => cases hz
    | form hb _ =>
      simp only [List.map_cons, List.cons.injEq, Prod.mk.injEq] at hz
      obtain ⟨⟨e1, e2⟩, _⟩ := hz
      rw [e2, e1]
      exact hb
    | @bad u t r' hn _ =>
      exfalso
      have hm : s[i] < 0x110000 := by rcases hsc with h | h <;> omega
      refine hn (utf8Of s[i]).length s[i] ?_
      rw [← hx]
      have e : utf8Encode (s[i] :: s.drop (i + 1)) = utf8Of s[i] ++ utf8Encode (s.drop (i + 1)) := rfl
      rw [e]
      unfold Begins utf8Of hasForm utf8Form
      by_cases h1 : s[i] < 0x80
      · simp only [if_pos h1]; exact ⟨h1, _, rfl⟩
      by_cases h2 : s[i] < 0x800
      · simp only [if_neg h1, if_pos h2]; exact ⟨h2, _, rfl⟩
      by_cases h3 : s[i] < 0x10000
      · simp only [if_neg h1, if_neg h2, if_pos h3]; exact ⟨h3, _, rfl⟩
      · simp only [if_neg h1, if_neg h2, if_neg h3]; exact ⟨by show s[i] < 0x200000; omega, _, rfl⟩
  · rintro ⟨h1, h2⟩
    refine ⟨values r, by simp only [values, List.mem_map]; rintro _ ⟨x, hx, rfl⟩; exact (h1 x hx).1, ?_⟩
    induction h with
    | nil => rfl
    | @form l k c r hb _ ih =>
      have hk := h1 (c, k) (by simp)
      dsimp only at hk
      have e : utf8Form k c = utf8Of c := by
        have hm : c < 0x110000 := by rcases hk.1 with h | h <;> omega
        rw [hk.2]
        unfold utf8Of utf8Form
        by_cases h1 : c < 0x80
        · simp only [if_pos h1]; rfl
        by_cases h2 : c < 0x800
        · simp only [if_neg h1, if_pos h2]; rfl
        by_cases h3 : c < 0x10000
        · simp only [if_neg h1, if_neg h2, if_pos h3]; rfl
        · simp only [if_neg h1, if_neg h2, if_neg h3]; rfl
      obtain ⟨t, ht⟩ := hb.2
      have hl : k = (utf8Form k c).length := by rw [e]; exact hk.2
      have hd : l.drop k = t := by
        rw [← ht]
        conv => lhs; arg 1; rw [hl]
        exact List.drop_left
      have := ih (fun x hx => h1 x (by simp [hx])) (fun i hi => by
        have := h2 (i + 1) (by simpa using hi)
        simp only [startOf, List.take_succ_cons, List.map_cons, List.sum_cons, List.getElem_cons_succ] at this
        rw [List.drop_drop]
        exact this)
      rw [hd] at this
      show l = utf8Of c ++ utf8Encode (values r)
      rw [← this, ← ht, e]
    | bad hn _ =>
      have := h2 0 (by simp)
      simp only [startOf, List.take_zero, List.map_nil, List.sum_nil, List.drop_zero, List.getElem_cons_zero] at this
      exact absurd this (hn _ _)

/-- C71: the checks are not those of the standard.  An overlong form is read as its value, so that `/` is found in the
bytes C0 AF; a surrogate and a value above U+10FFFF are read as such. -/
theorem C71_fails_overlong : Decodes [0xC0, 0xAF] [(0x2F, 2)] ∧ (∀ s, (∀ c ∈ s, IsScalar c) → utf8Encode s ≠ [0xC0, 0xAF]) ∧
    (searchC {} 20 (utf8Cursor true [0xC0, 0xAF]) {} (.cc (.chr 0x2F)) 0).success = true := by
  refine ⟨.form ⟨by show _ < 0x800; decide, _, rfl⟩ .nil, ?_, by decide +kernel⟩
  intro s hs h
  have h1 : Decodes [0xC0, 0xAF] [(0x2F, 2)] := .form ⟨by show _ < 0x800; decide, _, rfl⟩ .nil
  have h2 := ((C71_wellformed_iff h1).1 ⟨s, hs, h.symm⟩).1 (0x2F, 2) (by simp)
  revert h2
  decide

theorem C71_fails_surrogate : Decodes [0xED, 0xA0, 0x80, 0xF4, 0x90, 0x80, 0x80] [(0xD800, 3), (0x110000, 4)] ∧
    ¬ IsScalar 0xD800 ∧ ¬ IsScalar 0x110000 := by
  refine ⟨.form ⟨by show _ < 0x10000; decide, _, rfl⟩ (.form ⟨by show _ < 0x200000; decide, _, rfl⟩ .nil), ?_, ?_⟩ <;> decide

/-- C71: an ill-formed sequence takes the announced number of code units, also those that belong to what follows: the `A`
of the bytes C3 41 is not found. -/
theorem C71_fails_swallow : utf8Collect [0xC3, 0x41] 3 0 = some [0xFFFD] ∧
    (searchC {} 20 (utf8Cursor true [0xC3, 0x41]) {} (.cc (.chr 0x41)) 0).success = false := by decide +kernel

/-- C71: and the reported end of a match may lie outside the buffer. -/
theorem C71_fails_end : Decodes [97, 0xC3] [(97, 1), (0xFFFD, 2)] ∧
    searchC {} 20 (utf8Cursor true [97, 0xC3]) {} (.seq [.cc (.chr 97), .any]) 0 = .done { whole := ⟨some 0, some 3, true⟩ } := by
  refine ⟨.form ⟨by show _ < 0x80; decide, _, rfl⟩ (.bad ?_ .nil), by decide +kernel⟩
  rintro k c ⟨h1, h2⟩
  obtain ⟨u, r, e, h⟩ := no_form h1 h2
  cases e
  rcases h with h | ⟨_, _, _, v, t, e, _⟩ | h | h
  · omega
  · cases e
  · omega
  · omega

-- bytes with a stray continuation, a truncated sequence and well-formed text
example : utf8Collect [0x80, 0xE2, 0x82, 0xAC, 0x61, 0xFF, 0xE2, 0x82] 9 0 =
    some [0xFFFD, 0x20AC, 0x61, 0xFFFD, 0xFFFD] := by decide +kernel
example : searchC {} 40 (utf8Cursor true [0x80, 0xE2, 0x82, 0xAC, 0x61, 0xFF]) {} (.seq [.cc (.chr 0x20AC), .cc (.chr 0x61)]) 0 =
    .done { whole := ⟨some 1, some 5, true⟩ } := by decide +kernel
example : (Re.seq [.cc (.chr 0x20AC), .cc (.chr 0x61)]).fits ⟨false, false, false, true⟩ = true := by decide +kernel

end Ctre

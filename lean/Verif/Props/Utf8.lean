import Verif.Lemmas.Utf8
import Verif.Props.Bounds

/-
C25, C26: UTF-8 subjects.  The encoding `utf8Encode` and the offsets `utf8Offset` are in Spec/Utf8.lean.
-/
namespace Ctre

/-- C25: iterating over a well-formed UTF-8 text yields its code points, in order. -/
theorem C25_iteration {s : List Nat} (hs : ∀ c ∈ s, IsScalar c) :
    utf8Collect (utf8Encode s) (s.length + 1) 0 = some s := by
  have key : ∀ k i, i + k = s.length → utf8Collect (utf8Encode s) (k + 1) (utf8Offset s i) = some (s.drop i) := by
    intro k
    induction k with
    | zero =>
      intro i hi
      unfold utf8Collect
      rw [show i = s.length by omega, utf8Offset_length, if_pos (Nat.le_refl _), List.drop_length]
    | succ k ih =>
      intro i hi
      have hil : i < s.length := by omega
      have hc := List.getElem?_eq_getElem hil
      have hsc := hs _ (List.mem_of_getElem? hc)
      unfold utf8Collect
      have hlt := utf8Offset_lt (s := s) hil (Nat.le_refl _)
      rw [utf8Offset_length] at hlt
      rw [if_neg (by omega)]
      have h1 : utf8Deref (utf8Encode s) (utf8Offset s i) = some s[i] := by
        conv => lhs; rw [(utf8Encode_split hc).1]
        exact utf8Deref_at hsc (utf8Encode (s.take i)) (utf8Encode (s.drop (i + 1)))
      have h2 : utf8Next (utf8Encode s) (utf8Offset s i) = some (utf8Offset s (i + 1)) := by
        rw [(utf8Encode_split hc).2]
        conv => lhs; rw [(utf8Encode_split hc).1]
        exact utf8Next_at hsc (utf8Encode (s.take i)) (utf8Encode (s.drop (i + 1)))
      rw [h1, h2]
      simp only [ih (i + 1) (by omega), Option.map_some]
      rw [← List.drop_eq_getElem_cons hil]
  have := key s.length 0 (by omega)
  rwa [utf8Offset_zero, List.drop_zero] at this

/-- C25: matching a well-formed UTF-8 subject gives the results of matching its code points, with code point indices
replaced by code unit offsets. The pattern has no back reference (does not compile) and no lookbehind. -/
theorem C25_matching (C : Cfg) (n : Nat) {s : List Nat} (hs : ∀ c ∈ s, IsScalar c) {r : Re} (hr : r.Numbered)
    (hf : r.fits ⟨true, false, false, true⟩ = true) (f : Flags) :
    matchC C n (utf8Cursor C.lib20 (utf8Encode s)) f r 0 = (cMatch C n (codePoints s) f r).mapPos (utf8Offset s) ∧
    startsWithC C n (utf8Cursor C.lib20 (utf8Encode s)) f r 0 = (cStartsWith C n (codePoints s) f r).mapPos (utf8Offset s) ∧
    searchC C n (utf8Cursor C.lib20 (utf8Encode s)) f r 0 = (cSearch C n (codePoints s) f r).mapPos (utf8Offset s) := by
  have H := utf8_walks (L := C.lib20) hs ⟨true, false, false, true⟩ rfl (by simp)
  have h0 : 0 ≤ (codePoints s).length := Nat.zero_le _
  have hub := C08_no_out_of_bounds (C := C) (n := n) (f := f) hr h0
  have e : utf8Offset s 0 = 0 := utf8Offset_zero s
  have h1 := matchC_sim C n H hf f h0
  have h2 := startsWithC_sim C n H hf f h0
  have h3 := searchC_sim C n H hf f h0
  rw [e] at h1 h2 h3
  exact ⟨h1.resolve_left hub.1, h2.resolve_left hub.2.1, h3.resolve_left hub.2.2⟩

/-- C25: with the standard library of C++20, or if the code points are below 256, this includes patterns with
lookbehinds. -/
theorem C25_matching_behind (C : Cfg) (n : Nat) {s : List Nat} (hs : ∀ c ∈ s, IsScalar c)
    (hl : C.lib20 = true ∨ ∀ c ∈ s, c < 256) {r : Re} (hr : r.Numbered)
    (hf : r.fits ⟨true, false, true, true⟩ = true) (f : Flags) :
    matchC C n (utf8Cursor C.lib20 (utf8Encode s)) f r 0 = (cMatch C n (codePoints s) f r).mapPos (utf8Offset s) ∧
    searchC C n (utf8Cursor C.lib20 (utf8Encode s)) f r 0 = (cSearch C n (codePoints s) f r).mapPos (utf8Offset s) := by
  have H := utf8_walks hs ⟨true, false, true, true⟩ rfl (fun _ => hl)
  have h0 : 0 ≤ (codePoints s).length := Nat.zero_le _
  have hub := C08_no_out_of_bounds (C := C) (n := n) (f := f) hr h0
  have e : utf8Offset s 0 = 0 := utf8Offset_zero s
  have h1 := matchC_sim C n H hf f h0
  have h3 := searchC_sim C n H hf f h0
  rw [e] at h1 h3
  exact ⟨h1.resolve_left hub.1, h3.resolve_left hub.2.2⟩

/-- C25: with an older standard library a lookbehind does not see the code point before the position but only its lowest
byte. `(?<=\x{20ac})a` does not match after the euro sign although the sequence of code points matches. -/
theorem C25_fails_for_lookbehind :
    (cSearch {} 20 (codePoints [0x20AC, 97]) {} (.seq [.behind true [.cc (.chr 0x20AC)], .cc (.chr 97)])).success = true ∧
    (searchC {} 20 (utf8Cursor false (utf8Encode [0x20AC, 97])) {}
      (.seq [.behind true [.cc (.chr 0x20AC)], .cc (.chr 97)]) 0).success = false := by decide +kernel

/-- The hypotheses of `C25_matching_behind` and its answer for the same pattern and subject with the library of C++20; `a` is
found behind the three code units of the euro sign. -/
example : (Re.seq [.behind true [.cc (.chr 0x20AC)], .cc (.chr 97)]).fits ⟨true, false, true, true⟩ = true ∧
    searchC {} 20 (utf8Cursor true (utf8Encode [0x20AC, 97])) {}
      (.seq [.behind true [.cc (.chr 0x20AC)], .cc (.chr 97)]) 0 = .done { whole := ⟨some 3, some 4, true⟩ } := by
  decide +kernel

/-- C26: on a well-formed text stepping back undoes stepping forward, and stepping forward undoes stepping back. -/
theorem C26_reversible {s : List Nat} (hs : ∀ c ∈ s, IsScalar c) {i : Nat} (hi : i < s.length) :
    ∃ q, utf8Next (utf8Encode s) (utf8Offset s i) = some q ∧ q = utf8Offset s (i + 1) ∧
      utf8Prev (utf8Encode s) q = some (utf8Offset s i) := by
  have H := utf8_walks (L := true) hs ⟨true, false, false, true⟩ rfl (by simp)
  have hi' : i < (codePoints s).length := by simpa [codePoints] using hi
  exact ⟨_, H.next i hi', rfl, H.prev rfl i hi'⟩

/-- C26: in a successful search in a well-formed text every matched capture begins and ends at code point boundaries
inside the buffer, begin not after end. -/
theorem C26_spans (C : Cfg) (n : Nat) {s : List Nat} (hs : ∀ c ∈ s, IsScalar c) {r : Re} (hr : r.Numbered)
    (hf : r.fits ⟨true, false, false, true⟩ = true) {f : Flags} {d : Caps}
    (h : searchC C n (utf8Cursor C.lib20 (utf8Encode s)) f r 0 = .done d) (hm : d.whole.matched = true) {id : Nat} {sl : Slot}
    (hg : d.get id = some sl) (hsl : sl.matched = true) :
    ∃ i j, sl.b = some (utf8Offset s i) ∧ sl.e = some (utf8Offset s j) ∧ i ≤ j ∧ j ≤ s.length := by
  rw [(C25_matching C n hs hr hf f).2.2] at h
  cases hc : cSearch C n (codePoints s) f r with
  | done c =>
    rw [hc] at h
    simp only [Exec.mapPos, Exec.done.injEq] at h
    refine mapPos_inside h.symm (fun x hx hx' => ?_) hg hsl
    exact C07_captures_inside_search hr (Nat.zero_le _) hc (by rw [← h] at hm; exact hm) hx hx'
  | _ => rw [hc] at h; simp [Exec.mapPos] at h

/-- C26: on arbitrary code units, matching with a pattern that never looks back reads only inside the buffer. -/
theorem C26_forward_safe (C : Cfg) (n : Nat) (b : List Nat) {r : Re} (hr : r.Numbered)
    (hf : r.fits ⟨false, false, false, true⟩ = true) (f : Flags) :
    matchC C n (utf8Cursor C.lib20 b) f r 0 ≠ .ub ∧ startsWithC C n (utf8Cursor C.lib20 b) f r 0 ≠ .ub ∧
    searchC C n (utf8Cursor C.lib20 b) f r 0 ≠ .ub := by
  obtain ⟨s, H⟩ := utf8_walks_forward (L := C.lib20) b
  have h0 : 0 ≤ s.length := Nat.zero_le _
  have hub := C08_no_out_of_bounds (C := C) (n := n) (f := f) hr h0
  have h1 := (matchC_sim C n H hf f h0).resolve_left hub.1
  have h2 := (startsWithC_sim C n H hf f h0).resolve_left hub.2.1
  have h3 := (searchC_sim C n H hf f h0).resolve_left hub.2.2
  have e : utf8Pos b 0 = 0 := rfl
  rw [e] at h1 h2 h3
  rw [h1, h2, h3]
  have key : ∀ x : Exec, x ≠ .ub → x.mapPos (utf8Pos b) ≠ .ub := by intro x; cases x <;> simp [Exec.mapPos]
  exact ⟨key _ hub.1, key _ hub.2.1, key _ hub.2.2⟩

/-- C26: on a truncated final sequence the reported end lies outside the buffer: `.` on the single code unit 0xC3. -/
theorem C26_fails_for_truncated :
    startsWithC {} 10 (utf8Cursor true [0xC3]) {} .any 0 = .done { whole := ⟨some 0, some 2, true⟩ } := by decide +kernel

/-- C26: stepping back over a leading trailing code unit reads before the buffer: `\b` on the single code unit 0x80. -/
theorem C26_fails_for_boundary :
    searchC {} 10 (utf8Cursor true [0x80]) {} (.boundary wordChars) 0 = .ub := by decide +kernel

/-- C26: the same buffer is matched safely by a pattern that does not look back. -/
example : searchC {} 20 (utf8Cursor true [0x80, 0xBF, 97]) {} (.seq [.any, .cc (.chr 97)]) 0 =
    .done { whole := ⟨some 1, some 3, true⟩ } := by decide +kernel

-- `(\x{20ac}+)\b.` on the text U+20AC U+20AC U+1F600, a well-formed text of 10 code units
example : ∀ c ∈ [0x20AC, 0x20AC, 0x1F600], IsScalar c := by decide

example : (Re.seq [.cap 1 none [.rep .greedy 1 0 [.cc (.chr 0x20AC)]], .notBoundary wordChars, .any]).fits
    ⟨true, false, false, true⟩ = true := by decide +kernel

example : utf8Encode [0x20AC, 0x20AC, 0x1F600] = [0xE2, 0x82, 0xAC, 0xE2, 0x82, 0xAC, 0xF0, 0x9F, 0x98, 0x80] := by
  decide +kernel

example : searchC { greedyOpt := false } 40 (utf8Cursor true (utf8Encode [0x20AC, 0x20AC, 0x1F600])) {}
    (.seq [.cap 1 none [.rep .greedy 1 0 [.cc (.chr 0x20AC)]], .notBoundary wordChars, .any]) 0 =
    .done { whole := ⟨some 0, some 10, true⟩, groups := [{ id := 1, slot := ⟨some 0, some 6, true⟩ }] } := by
  decide +kernel

end Ctre

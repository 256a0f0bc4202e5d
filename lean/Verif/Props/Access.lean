import Verif.Lemmas.Access
import Verif.Props.Utf8
/-
C55, C56: the text of captures, and numbers in captures.
-/
namespace Ctre

/-- `match`, `starts_with` or `search` from a position has returned `c`. -/
def Returned (C : Cfg) (n : Nat) (s : List Ch) (f : Flags) (r : Re) (p : Nat) (c : Caps) : Prop :=
  matchAt C n s f r p = .done c ∨ startsWithAt C n s f r p = .done c ∨ searchAt C n s f r p = .done c

/-- A capture that has taken part is an ordered span inside the subject, one that has not is untouched. -/
theorem slot_cases {C : Cfg} {n : Nat} {s : List Ch} {f : Flags} {r : Re} {p : Nat} {c : Caps} (hr : r.Numbered)
    (hp : p ≤ s.length) (h : Returned C n s f r p c) (hm : c.whole.matched = true) {id : Nat} {sl : Slot}
    (hg : c.get id = some sl) :
    (∃ b e, b ≤ e ∧ e ≤ s.length ∧ sl = ⟨some b, some e, true⟩) ∨ sl = {} := by
  have key : ∀ {st : Stack} {q : Nat}, SafePost s [] q (initCaps r) st c → c.whole.b = some q → endsPos st →
      (∃ b e, b ≤ e ∧ e ≤ s.length ∧ sl = ⟨some b, some e, true⟩) ∨ sl = {} := by
    intro st q h hb he
    by_cases hi : id = 0
    · obtain ⟨b, e, h1, h2, h3, h4⟩ := inside_of_post h hb he hg (by subst hi; simp [Caps.get] at hg; subst hg; exact hm)
      refine .inl ⟨b, e, h3, h4, ?_⟩
      subst hi
      simp only [Caps.get, if_true, Option.some.injEq] at hg
      subst hg
      cases hw : c.whole
      simp_all
    · unfold Caps.get at hg
      rw [if_neg hi] at hg
      rcases h.slots id with h1 | ⟨b, e, h1, h2, h3⟩
      · rw [hg] at h1
        exact .inr (selectId_unset (captures_unset r) id sl h1.symm)
      · rw [hg] at h1
        simp only [Option.some.injEq] at h1
        exact .inl ⟨b, e, h2, h3, h1⟩
  rcases h with h | h | h
  · have h2 := (attemptFull_safe C hr hp).2 c (toExec_done h hm)
    exact key h2.1 h2.2 (by simp [endsPos])
  · have h2 := (attempt_safe C hr hp).2 c (toExec_done h hm)
    exact key h2.1 h2.2 (by simp [endsPos])
  · obtain ⟨j, hj, h1, _⟩ := searchLoop_ok h hm
    have hj' : p + j ≤ s.length := by split at hj <;> omega
    have h2 := (attempt_safe C hr hj').2 c h1
    exact key h2.1 h2.2 (by simp [endsPos])

theorem toView_span (msvc : Bool) {s : List Ch} {b e : Nat} (h1 : b ≤ e) (h2 : e ≤ s.length)
    (hs : s.length < 18446744073709551616) (h : msvc = true ∨ b < s.length) :
    Slot.toView msvc s ⟨some b, some e, true⟩ = some (slice s (b, e)) := by
  unfold Slot.toView Slot.data Slot.size
  simp only
  rw [if_pos h, distance_some h1 (by omega)]
  simp only [slice]
  rw [if_pos (by omega)]

/-- C55: the text of a capture that has taken part in a match is the part of the subject between its ends: `size()` is its
length, `to_string()` and `to_optional_string()` copy it, and `data()`, `to_view()` and `to_optional_view()` refer to it, provided
that it does not begin behind the last character (or `std::to_address` is used). -/
theorem C55_taken_part_partial {C : Cfg} {n : Nat} {s : List Ch} {f : Flags} {r : Re} {p : Nat} {c : Caps} (hr : r.Numbered)
    (hp : p ≤ s.length) (hs : s.length < 18446744073709551616) (h : Returned C n s f r p c)
    (hm : c.whole.matched = true) {id : Nat} {sl : Slot} (hg : c.get id = some sl) (ht : sl.matched = true) (msvc : Bool) :
    ∃ b e, b ≤ e ∧ e ≤ s.length ∧ sl.b = some b ∧ sl.e = some e ∧ sl.size = some (e - b) ∧
      sl.toString s = some (slice s (b, e)) ∧ sl.toOptionalString s = some (some (slice s (b, e))) ∧
      (msvc = true ∨ b < s.length → sl.data msvc s = some b ∧ sl.toView msvc s = some (slice s (b, e)) ∧
        sl.toOptionalView msvc s = some (some (slice s (b, e)))) := by
  rcases slot_cases hr hp h hm hg with ⟨b, e, h1, h2, rfl⟩ | rfl
  · have hc : Slot.toString s ⟨some b, some e, true⟩ = some (slice s (b, e)) := copyFrom_eq h2 _ _ h1 (by omega)
    refine ⟨b, e, h1, h2, rfl, rfl, distance_some h1 (by omega), hc, ?_, ?_⟩
    · simp [Slot.toOptionalString, hc]
    · intro hb
      have hv := toView_span msvc h1 h2 hs hb
      refine ⟨by simp only [Slot.data]; rw [if_pos hb], hv, ?_⟩
      simp [Slot.toOptionalView, hv]
  · simp at ht

/-- C55: a capture that has not taken part in a match is empty, its optionals have no value. -/
theorem C55_not_taken_part {C : Cfg} {n : Nat} {s : List Ch} {f : Flags} {r : Re} {p : Nat} {c : Caps} (hr : r.Numbered)
    (hp : p ≤ s.length) (h : Returned C n s f r p c)
    (hm : c.whole.matched = true) {id : Nat} {sl : Slot} (hg : c.get id = some sl) (ht : sl.matched = false) (msvc : Bool)
    (lo hi : Int) (base : Nat) :
    sl.size = some 0 ∧ sl.toString s = some [] ∧ sl.toOptionalString s = some none ∧ sl.toOptionalView msvc s = some none ∧
      sl.toOptionalNumber msvc lo hi base s = some none := by
  rcases slot_cases hr hp h hm hg with ⟨b, e, h1, h2, rfl⟩ | rfl
  · simp at ht
  · simp [Slot.size, distance, Slot.toString, Slot.toOptionalString, Slot.toOptionalView, Slot.toOptionalNumber]

/-- C55: after a failed call no capture has taken part, and all optionals are without a value. -/
theorem C55_failed {C : Cfg} {n : Nat} {s : List Ch} {f : Flags} {r : Re} {p : Nat} {c : Caps} (hr : r.Numbered)
    (hp : p ≤ s.length) (h : Returned C n s f r p c) (hm : c.whole.matched = false) {id : Nat} {sl : Slot}
    (hg : c.get id = some sl) (msvc : Bool) (lo hi : Int) (base : Nat) :
    sl.matched = false ∧ sl.toOptionalString s = some none ∧ sl.toOptionalView msvc s = some none ∧
      sl.toOptionalNumber msvc lo hi base s = some none ∧
      (id ≠ 0 ∨ searchAt C n s f r p ≠ .done c → sl.size = some 0 ∧ sl.toString s = some []) := by
  have key : sl.matched = false ∧ (id ≠ 0 ∨ searchAt C n s f r p ≠ .done c → sl = {}) := by
    have init : c = initCaps r → sl = {} := by
      rintro rfl
      unfold Caps.get at hg
      split at hg
      · simpa [initCaps] using hg.symm
      · exact selectId_unset (captures_unset r) id sl hg
    rcases h with h | h | h
    · have : sl = {} := init (by
        unfold matchAt at h
        cases ho : attemptFull C n s f r p with
        | ok c' =>
          rw [ho] at h
          simp only [Out.toExec, Exec.done.injEq] at h
          rw [← h, attemptFull_matched hr hp ho] at hm
          cases hm
        | fail => rw [ho] at h; simpa [Out.toExec] using h.symm
        | _ => rw [ho] at h; simp [Out.toExec] at h)
      rw [this]; simp
    · have : sl = {} := init (by
        unfold startsWithAt at h
        cases ho : attempt C n s f r p with
        | ok c' =>
          rw [ho] at h
          simp only [Out.toExec, Exec.done.injEq] at h
          rw [← h, attempt_matched hr hp ho] at hm
          cases hm
        | fail => rw [ho] at h; simpa [Out.toExec] using h.symm
        | _ => rw [ho] at h; simp [Out.toExec] at h)
      rw [this]; simp
    · have h1 := (searchLoop_fail' hr (by split <;> omega) h hm).1
      rw [h1] at hg
      unfold Caps.get at hg
      split at hg
      · rename_i hi
        simp only [Caps.setEnd, initCaps, Option.some.injEq] at hg
        rw [← hg]
        exact ⟨rfl, fun h' => h'.elim (fun h' => (h' hi).elim) (fun h' => (h' h).elim)⟩
      · have : sl = {} := selectId_unset (captures_unset r) id sl hg
        rw [this]; simp
  refine ⟨key.1, by simp [Slot.toOptionalString, key.1], by simp [Slot.toOptionalView, key.1],
    by simp [Slot.toOptionalNumber, key.1], fun h' => ?_⟩
  rw [key.2 h']
  exact ⟨rfl, rfl⟩

/-- C55, the text itself: if `match` succeeds, `to_string()` of the result is the subject. -/
theorem C55_match_text {C : Cfg} {n : Nat} {s : List Ch} {f : Flags} {r : Re} {c : Caps} (hr : r.Numbered)
    (h : cMatch C n s f r = .done c) (hm : c.whole.matched = true) : c.self.toString s = some s := by
  have h1 := C03_match_spans_subject hr h hm
  simp only [Caps.get, if_true, Option.some.injEq] at h1
  rw [Caps.self, h1]
  exact (copyFrom_eq (Nat.le_refl _) _ _ (Nat.zero_le _) (by omega)).trans (by simp [slice])

/-- C55 fails in full: `to_view()` of an empty match at the end of the subject dereferences the end iterator (`""` on the
empty subject, and `b*` searched for at the end of "a"). -/
theorem C55_fails_empty_at_end :
    cMatch {} 10 [] {} .empty = .done { whole := ⟨some 0, some 0, true⟩ } ∧
    Slot.toView false [] ⟨some 0, some 0, true⟩ = none ∧
    searchAt {} 10 [97] {} (.rep .greedy 0 0 [.cc (.chr 98)]) 1 = .done { whole := ⟨some 1, some 1, true⟩ } ∧
    Slot.toView false [97] ⟨some 1, some 1, true⟩ = none ∧ Slot.toView true [97] ⟨some 1, some 1, true⟩ = some [] := by
  decide +kernel

/-- C55 fails in full: after a failed `search` the result has an end without a begin, `size()` and `to_string()` are undefined.
After a failed `match` they are 0 and empty. -/
theorem C55_fails_failed_search :
    cSearch {} 10 [97] {} (.cc (.chr 98)) = .done { whole := ⟨none, some 1, false⟩ } ∧
    Slot.size ⟨none, some 1, false⟩ = none ∧ Slot.toString [97] ⟨none, some 1, false⟩ = none ∧
    cMatch {} 10 [97] {} (.cc (.chr 98)) = .done {} ∧ Slot.size {} = some 0 := by decide +kernel

/-- C55 for `utf8_range` subjects: `size()` of a capture is the number of code points. -/
theorem C55_size_utf8 {s : List Nat} (hs : ∀ c ∈ s, IsScalar c) {i j : Nat} (hi : i ≤ j) (hj : j ≤ s.length) :
    Slot.size8 (utf8Encode s) ⟨some (utf8Offset s i), some (utf8Offset s j), true⟩ = some (j - i) := by
  have H := utf8_walks (L := true) hs ⟨true, false, false, true⟩ rfl (by simp)
  have step : ∀ k, k < s.length → utf8Next (utf8Encode s) (utf8Offset s k) = some (utf8Offset s (k + 1)) :=
    fun k hk => H.next k (by simpa [codePoints] using hk)
  have lt : ∀ k, k < s.length → utf8Offset s k < utf8Offset s (k + 1) := by
    intro k hk
    have := step k hk
    unfold utf8Next at this
    cases hu : (utf8Encode s)[utf8Offset s k]? with
    | none => simp [hu] at this
    | some v => simp [hu] at this; omega
  have mono : ∀ d k, k + d ≤ s.length → utf8Offset s k + d ≤ utf8Offset s (k + d) := by
    intro d
    induction d with
    | zero => intro k _; simp
    | succ d ih =>
      intro k h
      have h1 := ih k (by omega)
      have h2 := lt (k + d) (by omega)
      show utf8Offset s k + (d + 1) ≤ utf8Offset s (k + d + 1)
      omega
  have key : ∀ d k m, k + d = j → d ≤ m → utf8Distance (utf8Encode s) (utf8Offset s j) m (utf8Offset s k) = some d := by
    intro d
    induction d with
    | zero => intro k m hk _; subst hk; unfold utf8Distance; simp
    | succ d ih =>
      intro k m hk hm
      obtain ⟨m', rfl⟩ : ∃ m', m = m' + 1 := ⟨m - 1, by omega⟩
      have h1 := mono (d + 1) k (by omega)
      rw [hk] at h1
      unfold utf8Distance
      rw [if_neg (by omega), step k (by omega)]
      simp only
      rw [ih (k + 1) m' (by omega) (by omega)]
      rfl
  refine key (j - i) i _ (by omega) ?_
  have h1 : utf8Offset s 0 + j ≤ utf8Offset s j := by
    have := mono j 0 (by omega)
    rwa [Nat.zero_add] at this
  have h2 : utf8Offset s j ≤ (utf8Encode s).length := by
    have h3 : utf8Encode s = utf8Encode (s.take j) ++ utf8Encode (s.drop j) := by
      unfold utf8Encode
      rw [← List.flatMap_append, List.take_append_drop]
    unfold utf8Offset
    rw [h3, List.length_append]
    omega
  omega

/-- C56: `to_number<R>(base)` of a capture that begins with a number is the number if `R` can hold it, otherwise 0. -/
theorem C56_to_number {C : Cfg} {n : Nat} {s : List Ch} {f : Flags} {r : Re} {p : Nat} {c : Caps} (hr : r.Numbered)
    (hp : p ≤ s.length) (hs : s.length < 18446744073709551616) (h : Returned C n s f r p c)
    (hm : c.whole.matched = true) {id b e : Nat} {sl : Slot} (hg : c.get id = some sl) (hb : sl.b = some b) (he : sl.e = some e)
    {lo hi : Int} {base : Nat} (hbase : base ≤ 36) {neg : Bool} {ds : List Nat}
    (hn : Numeral (decide (lo < 0)) base (slice s (b, e)) neg ds) (msvc : Bool) :
    sl.toNumber msvc lo hi base s = some (if lo ≤ numeralValue base neg ds ∧ numeralValue base neg ds ≤ hi then
      numeralValue base neg ds else 0) ∧
    sl.toOptionalNumber msvc lo hi base s = (sl.toNumber msvc lo hi base s).map some := by
  rcases slot_cases hr hp h hm hg with ⟨b', e', h1, h2, rfl⟩ | rfl
  · simp only [Option.some.injEq] at hb he
    subst hb he
    have hlt : b' < s.length := by
      obtain ⟨-, h3, -, dt, rest, h4, h5, -⟩ := hn
      by_contra hge
      have : slice s (b', e') = [] := by
        simp only [slice]
        rw [List.drop_eq_nil_of_le (by omega), List.take_nil]
      rw [this] at h4
      have : dt = [] := by
        have h4' := congrArg List.length h4
        simp only [List.length_nil, List.length_append] at h4'
        exact List.length_eq_zero_iff.1 (by omega)
      subst this
      cases h5
      exact h3 rfl
    refine ⟨?_, by simp [Slot.toOptionalNumber]⟩
    unfold Slot.toNumber
    rw [toView_span msvc h1 h2 hs (.inr hlt), Option.map_some, fromChars_numeral hbase hn]
    split <;> rfl
  · cases hb

/-- C56: `to_number` of a capture that does not begin with a number is 0. -/
theorem C56_no_number {C : Cfg} {n : Nat} {s : List Ch} {f : Flags} {r : Re} {p : Nat} {c : Caps} (hr : r.Numbered)
    (hp : p ≤ s.length) (hs : s.length < 18446744073709551616) (h : Returned C n s f r p c)
    (hm : c.whole.matched = true) {id b e : Nat} {sl : Slot} (hg : c.get id = some sl) (hb : sl.b = some b) (he : sl.e = some e)
    {lo hi : Int} {base : Nat} (hbase : base ≤ 36)
    (hn : ∀ neg ds, ¬ Numeral (decide (lo < 0)) base (slice s (b, e)) neg ds) {msvc : Bool} (hd : msvc = true ∨ b < s.length) :
    sl.toNumber msvc lo hi base s = some 0 := by
  rcases slot_cases hr hp h hm hg with ⟨b', e', h1, h2, rfl⟩ | rfl
  · simp only [Option.some.injEq] at hb he
    subst hb he
    unfold Slot.toNumber
    rw [toView_span msvc h1 h2 hs hd, Option.map_some, fromChars_none hbase hn]
    rfl
  · cases hb

/-- C56: an integer type with the values from `lo` to `hi` gets the number back from its decimal digits: a subject of digits
`ds` matched as a whole gives their value. -/
theorem C56_whole_subject {C : Cfg} {n : Nat} {f : Flags} {r : Re} {c : Caps} (hr : r.Numbered) {ds : List Nat}
    (hds : ds ≠ []) (hsm : ∀ d ∈ ds, d < 10) (hl : ds.length < 18446744073709551616)
    (h : cMatch C n (ds.map fun d : Nat => 48 + (d : Int)) f r = .done c) (hm : c.whole.matched = true) {lo hi : Int} (msvc : Bool) :
    c.self.toNumber msvc lo hi 10 (ds.map fun d : Nat => 48 + (d : Int)) =
      some (if lo ≤ (Nat.ofDigits 10 ds.reverse : Nat) ∧ ((Nat.ofDigits 10 ds.reverse : Nat) : Int) ≤ hi then
        ((Nat.ofDigits 10 ds.reverse : Nat) : Int) else 0) := by
  have h1 := C03_match_spans_subject hr h hm
  have hw : c.whole = ⟨some 0, some (ds.map fun d : Nat => 48 + (d : Int)).length, true⟩ := by simpa [Caps.get] using h1
  have hn : Numeral (decide (lo < 0)) 10 (slice (ds.map fun d : Nat => 48 + (d : Int)) (0, (ds.map fun d : Nat => 48 + (d : Int)).length)) false ds := by
    refine ⟨by simp, hds, hsm, (ds.map fun d : Nat => 48 + (d : Int)), [], ?_, ?_, by simp⟩
    · simp only [slice, List.drop_zero, Nat.sub_zero, List.take_length, List.append_nil, Bool.false_eq_true, if_false, List.nil_append]
    · have : ∀ l : List Nat, (∀ d ∈ l, d < 10) → List.Forall₂ DigitChar l (l.map fun d : Nat => 48 + (d : Int)) := by
        intro l
        induction l with
        | nil => intro _; exact .nil
        | cons d l ih => intro hl; exact .cons (.inl ⟨hl d (by simp), rfl⟩) (ih fun x hx => hl x (by simp [hx]))
      exact this ds hsm
  have := (C56_to_number (C := C) (n := n) (f := f) (r := r) (p := 0) hr (Nat.zero_le _) (by simpa using hl) (.inl h) hm (id := 0) h1
    (b := 0) rfl rfl (lo := lo) (hi := hi) (base := 10) (by omega) hn msvc).1
  rw [Caps.self, hw]
  simpa [numeralValue] using this

/-- C56 fails in full: neither a number that is too large nor a text that is no number can be told from the number 0, not even
with `to_optional_number()`. -/
theorem C56_fails_errors :
    cMatch {} 20 [51, 48, 48] {} (.rep .greedy 1 0 [.cc (.range 48 57)]) = .done { whole := ⟨some 0, some 3, true⟩ } ∧
    Slot.toOptionalNumber false (-128) 127 10 [51, 48, 48] ⟨some 0, some 3, true⟩ = some (some 0) ∧
    cMatch {} 20 [97] {} .any = .done { whole := ⟨some 0, some 1, true⟩ } ∧
    Slot.toOptionalNumber false (-128) 127 10 [97] ⟨some 0, some 1, true⟩ = some (some 0) ∧
    Slot.toOptionalNumber false (-128) 127 10 [48] ⟨some 0, some 1, true⟩ = some (some 0) := by decide +kernel

/-- `(a)|(-?[0-9]+)` on "-12" as `int8_t`: the hypotheses of C55 and C56 hold, the number is -12, the first capture has not taken part. -/
def sampleSigned : Re := .sel [.cap 1 none [.cc (.chr 97)],
  .cap 2 none [.rep .greedy 0 1 [.cc (.chr 45)], .rep .greedy 1 0 [.cc (.range 48 57)]]]

example : sampleSigned.Numbered := ⟨by decide, by decide⟩
example : cMatch {} 40 [45, 49, 50] {} sampleSigned =
    .done { whole := ⟨some 0, some 3, true⟩, groups := [{ id := 1 }, { id := 2, slot := ⟨some 0, some 3, true⟩ }] } := by
  decide +kernel
example : Slot.toNumber false (-128) 127 10 [45, 49, 50] ⟨some 0, some 3, true⟩ = some (-12) := by decide +kernel
example : Slot.size8 (utf8Encode [0x20AC, 97]) ⟨some 0, some 4, true⟩ = some 2 := by decide +kernel

end Ctre

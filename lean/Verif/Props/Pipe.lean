import Verif.Props.Decides

/-
C96: a pipeline from a range of subjects keeps the subjects that are described by the text of the pattern.
-/
namespace Ctre
open Parse Surface

variable {P : PropTable} {C : Cfg} {n : Nat} {ml : Bool} {m : Method} {mods : List Mode} {lit : PatLit}
  {t : List Nat} {r : Re} {b : Body}

/-- A subject with the characters it holds and their positions in it. -/
structure Given where
  subject : Subject
  chars : List Nat
  place : Nat → Nat

/-- It is well-formed and can be used with the pattern. -/
structure Given.Fine (b : Body) (g : Given) : Prop where
  holds : g.subject.Holds g.chars g.place
  scalars : ∀ c ∈ g.chars, IsScalar c
  forward : (∃ u, g.subject = .u8 u) → b.forward = true

/-- What the pipeline has to keep and to yield for it: for a subject with a match, according to the text, a result that reports the
preferred one; for the other subjects nothing. -/
def Given.Yields (C : Cfg) (f : Flags) (b : Body) (g : Given) : Method → Option Caps → Prop
  | .match_, none => textWaysFull C (codePoints g.chars) f b 0 = []
  | .match_, some y => textWaysFull C (codePoints g.chars) f b 0 ≠ [] ∧ ReportsAt g.place y 0 (textWaysFull C (codePoints g.chars) f b 0)
  | .startsWith, none => textWays C (codePoints g.chars) f b 0 = []
  | .startsWith, some y => textWays C (codePoints g.chars) f b 0 ≠ [] ∧ ReportsAt g.place y 0 (textWays C (codePoints g.chars) f b 0)
  | .search, none => ∀ i, i ≤ g.chars.length → textWays C (codePoints g.chars) f b i = []
  | .search, some y => ∃ q, q ≤ g.chars.length ∧ textWays C (codePoints g.chars) f b q ≠ [] ∧
      ReportsAt g.place y q (textWays C (codePoints g.chars) f b q) ∧ ∀ i, i < q → textWays C (codePoints g.chars) f b i = []
  | _, _ => False

theorem found_yields (hb : Steadfast P.find t b (callFlags ml mods)) (hl : lit.Spells t) (ht : ∀ c ∈ t, IsScalar c)
    (hr : lit.build P = .pattern r) (hm : m = .match_ ∨ m = .startsWith ∨ m = .search)
    (hbeg : m = .search → b.placed (callFlags ml mods).ml = true ∨ b.begins (callFlags ml mods).ml = true) {g : Given} (hg : g.Fine b) :
    ∃ N, ∀ n, N ≤ n →
      g.Yields C (callFlags ml mods) b m (m.exec C n (callFlags ml mods) r (g.subject.cursor C.lib20)).found := by
  have hcall : ∀ n m', call P C n ml m' mods lit g.subject = some (m'.exec C n (callFlags ml mods) r (g.subject.cursor C.lib20)) := by
    intro n m'
    simp only [call, hr]; rfl
  have hfound : ∀ {φ y p L}, ReportsAt φ y p L → (y.whole.matched = true ↔ L ≠ []) := by
    rintro φ y p L ⟨c, rfl, hc⟩
    cases L with
    | nil => simpa [Caps.mapPos, Slot.mapPos, ReportsFirst] using hc
    | cons τ rest => simpa [Caps.mapPos, Slot.mapPos] using hc.1
  rcases hm with rfl | rfl | rfl
  · obtain ⟨N, h⟩ := C83_calls (C := C) hb hl ht hg.holds hg.scalars hg.forward
    refine ⟨N, fun n hn => ?_⟩
    obtain ⟨⟨y, h1, h2⟩, _⟩ := h n hn
    rw [hcall] at h1
    simp only [Option.some.injEq] at h1
    rw [h1]
    simp only [Answer.found]
    split <;> rename_i hy
    · exact ⟨(hfound h2).1 hy, h2⟩
    · exact Classical.not_not.1 fun e => hy ((hfound h2).2 e)
  · obtain ⟨N, h⟩ := C83_calls (C := C) hb hl ht hg.holds hg.scalars hg.forward
    refine ⟨N, fun n hn => ?_⟩
    obtain ⟨_, ⟨y, h1, h2⟩⟩ := h n hn
    rw [hcall] at h1
    simp only [Option.some.injEq] at h1
    rw [h1]
    simp only [Answer.found]
    split <;> rename_i hy
    · exact ⟨(hfound h2).1 hy, h2⟩
    · exact Classical.not_not.1 fun e => hy ((hfound h2).2 e)
  · obtain ⟨N, h⟩ := C83_search_call (C := C) hb (hbeg rfl) hl ht hg.holds hg.scalars hg.forward
    refine ⟨N, fun n hn => ?_⟩
    obtain ⟨y, h1, h2⟩ := h n hn
    rw [hcall] at h1
    simp only [Option.some.injEq] at h1
    rw [h1]
    simp only [Answer.found]
    rcases h2 with ⟨h3, q, h4⟩ | ⟨h3, h4⟩
    · rw [if_pos h3]; exact ⟨q, h4⟩
    · rw [h3]; exact h4

/-- The results of a pipeline over the subjects: those of the subjects that are kept, in order. -/
inductive Kept (C : Cfg) (f : Flags) (b : Body) (m : Method) : List Given → List Caps → Prop
  | nil : Kept C f b m [] []
  | skip (g : Given) (l : List Given) (ys : List Caps) : g.Yields C f b m none → Kept C f b m l ys → Kept C f b m (g :: l) ys
  | keep (g : Given) (l : List Given) (y : Caps) (ys : List Caps) : g.Yields C f b m (some y) → Kept C f b m l ys → Kept C f b m (g :: l) (y :: ys)

/-- C96: a loop over `subjects | ctre::match<...>` (or `starts_with`, or `search`) visits, for each subject that has a match according to the
text of the pattern, the result that reports the preferred match, in the order of the subjects, and nothing else; then it ends. -/
theorem C96_pipe (hb : Steadfast P.find t b (callFlags ml mods)) (hl : lit.Spells t) (ht : ∀ c ∈ t, IsScalar c)
    (hr : lit.build P = .pattern r) (hm : m = .match_ ∨ m = .startsWith ∨ m = .search)
    (hbeg : m = .search → b.placed (callFlags ml mods).ml = true ∨ b.begins (callFlags ml mods).ml = true)
    (gs : List Given) (hg : ∀ g ∈ gs, g.Fine b) : ∃ N, ∀ n, N ≤ n → ∃ ys, Kept C (callFlags ml mods) b m gs ys ∧
      ∀ k, gs.length < k → MIter.collect (fun x => (m.exec C n (callFlags ml mods) r (x.cursor C.lib20)).found) k
        (pipeSubjects C n (callFlags ml mods) r m (gs.map (·.subject))) = some ys := by
  have key : ∃ N, ∀ n, N ≤ n → Kept C (callFlags ml mods) b m gs
      ((gs.map (·.subject)).filterMap fun x => (m.exec C n (callFlags ml mods) r (x.cursor C.lib20)).found) := by
    induction gs with
    | nil => exact ⟨0, fun _ _ => .nil⟩
    | cons g l ih =>
      obtain ⟨N, h1⟩ := ih fun g hg' => hg g (List.mem_cons_of_mem _ hg')
      obtain ⟨N', h2⟩ := found_yields (C := C) hb hl ht hr hm hbeg (hg g (List.mem_cons_self ..))
      refine ⟨max N N', fun n hn => ?_⟩
      have h1 := h1 n (by omega)
      have h2 := h2 n (by omega)
      rw [List.map_cons, List.filterMap_cons]
      cases hy : (m.exec C n (callFlags ml mods) r (g.subject.cursor C.lib20)).found with
      | none => rw [hy] at h2; exact .skip g _ _ h2 h1
      | some y => rw [hy] at h2; exact .keep g _ y _ h2 h1
  obtain ⟨N, h⟩ := key
  exact ⟨N, fun n hn => ⟨_, h n hn, fun k hk => C61_pipe _ (by simpa using hk)⟩⟩

/-- According to the meaning of the text, the subject has a match of the kind that the function looks for. -/
def Given.Wanted (C : Cfg) (f : Flags) (b : Body) (g : Given) : Method → Prop
  | .match_ => b.Can C (codePoints g.chars) f 0 g.chars.length
  | .startsWith => ∃ e, b.Can C (codePoints g.chars) f 0 e
  | .search => ∃ p e, p ≤ g.chars.length ∧ b.Can C (codePoints g.chars) f p e
  | _ => False

theorem Candid.fullNil {f : Flags} (hb : Candid P.find t b f) {s : List Nat} :
    textWaysFull C (codePoints s) f b 0 = [] ↔ ¬ b.Can C (codePoints s) f 0 s.length := by
  rw [List.eq_nil_iff_forall_not_mem]
  simp only [textWaysFull, List.mem_filter, decide_eq_true_eq, hb.ways (Nat.zero_le _), codePoints_length, Body.Can, not_exists]

theorem Candid.wanted {f : Flags} (hb : Candid P.find t b f) {g : Given} {o : Option Caps} (h : g.Yields C f b m o) :
    o.isSome = true ↔ g.Wanted C f b m := by
  have hlen := codePoints_length g.chars
  match m, o, h with
  | .match_, none, h => simpa [Given.Wanted] using hb.fullNil.1 h
  | .match_, some y, h =>
    simp only [Option.isSome_some, Given.Wanted, true_iff]
    exact Classical.not_not.1 fun e => h.1 (hb.fullNil.2 e)
  | .startsWith, none, h => simpa [Given.Wanted] using (hb.nil (Nat.zero_le _)).1 h
  | .startsWith, some y, h =>
    simp only [Option.isSome_some, Given.Wanted, true_iff]
    exact Classical.not_not.1 fun e => h.1 ((hb.nil (Nat.zero_le _)).2 fun x hx => e ⟨x, hx⟩)
  | .search, none, h =>
    simp only [Option.isSome_none, Given.Wanted, Bool.false_eq_true, false_iff]
    exact fun ⟨p, e, hp, he⟩ => (hb.nil (by omega)).1 (h p hp) e he
  | .search, some y, ⟨q, h1, h2, _⟩ =>
    simp only [Option.isSome_some, Given.Wanted, true_iff]
    exact Classical.not_not.1 fun e => h2 ((hb.nil (by omega)).2 fun x hx => e ⟨q, x, h1, hx⟩)

open Classical in
/-- C96: the subjects that are kept are those that have a match according to the meaning of the text. -/
theorem C96_kept {f : Flags} (hb : Candid P.find t b f) {gs : List Given} {ys : List Caps} (h : Kept C f b m gs ys) :
    List.Forall₂ (fun g y => g.Yields C f b m (some y)) (gs.filter fun g => g.Wanted C f b m) ys := by
  induction h with
  | nil => exact .nil
  | skip g l ys h _ ih =>
    have := hb.wanted h
    simp only [Option.isSome_none, Bool.false_eq_true, false_iff] at this
    rw [List.filter_cons_of_neg (by simpa using this)]
    exact ih
  | keep g l y ys h _ ih =>
    have := hb.wanted h
    simp only [Option.isSome_some, true_iff] at this
    rw [List.filter_cons_of_pos (by simpa using this)]
    exact .cons h ih

/-! ### Cases -/

-- strings, zero-terminated strings, and (with patterns that only look forward) UTF-8 can be given
example : Given.Fine sampleTwice ⟨.view (codePoints [97, 98, 97]), [97, 98, 97], id⟩ :=
  ⟨.view _, by decide, by simp⟩
example : Given.Fine sampleTwice ⟨.cstr (codePoints [98] ++ 0 :: [5]), [98], id⟩ :=
  ⟨.cstr _ _ (by decide), by decide, by simp⟩
example : Given.Fine (.alt (.one (.one (.ch (.plain 98)) (.star .greedy)))) ⟨.u8 (utf8Encode [98]), [98], utf8Offset [98]⟩ :=
  ⟨.utf8 _, by decide, fun _ => by decide +kernel⟩

open Classical in
/-- `strings | ctre::match<"(a*)b\\1">` yields as many results as there are strings of the form aⁿbaⁿ, for every list of strings. -/
theorem C96_twice (ss : List (List Nat)) (hs : ∀ s ∈ ss, ∀ c ∈ s, IsScalar c) : ∃ r, (PatLit.utf32 sampleTwiceText).build {} = .pattern r ∧
    ∃ N, ∀ n, N ≤ n → ∃ ys : List Caps,
      (∀ k, ss.length < k → MIter.collect (fun x => (Method.match_.exec C n (callFlags false []) r (x.cursor C.lib20)).found) k
        (pipeSubjects C n (callFlags false []) r .match_ (ss.map fun s => .view (codePoints s))) = some ys) ∧
      ys.length = (ss.filter fun s => ∃ k, s = List.replicate k 97 ++ 98 :: List.replicate k 97).length := by
  refine ⟨_, rfl, ?_⟩
  obtain ⟨N, h⟩ := C96_pipe (C := C) (m := .match_) sampleTwice_candid.steadfast (.utf32 _) (by decide) rfl (.inl rfl) (by simp)
    (ss.map fun s => ⟨.view (codePoints s), s, id⟩) (by
      intro g hg
      obtain ⟨s, h1, rfl⟩ := List.mem_map.1 hg
      exact ⟨.view s, hs s h1, by simp⟩)
  refine ⟨N, fun n hn => ?_⟩
  obtain ⟨ys, h1, h2⟩ := h n hn
  refine ⟨ys, fun k hk => ?_, ?_⟩
  · have := h2 k (by simpa using hk)
    rw [List.map_map] at this
    exact this
  · rw [← (C96_kept sampleTwice_candid h1).length_eq, List.filter_map, List.length_map]
    congr 1
    refine List.filter_congr fun s h => ?_
    simp only [Function.comp, Given.Wanted, sampleTwice_can (hs s h)]

end Ctre

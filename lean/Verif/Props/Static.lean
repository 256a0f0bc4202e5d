import Verif.Lemmas.StaticTame
import Verif.Lemmas.StaticText
import Verif.Props.Compiles
import Verif.Props.Language

/-
C62: what the compiler has to instantiate for a call.
-/
namespace Ctre
open Parse Surface

theorem known_eq (r : Re) : r.known = (shape r.captures).known := by
  simp only [Re.known, Shape.known, shape, List.map_map, List.filterMap_map]
  rfl

/-- C62: if everything that `starts_with` and `search` instantiate compiles, no run meets an overload that does not. -/
theorem C62_search_covered {C : Cfg} {r : Re} (h : Compiled C r.known (prefixStart r)) (n : Nat) (s : List Ch) (f : Flags)
    (p : Nat) : startsWithAt C n s f r p ≠ .ill ∧ searchAt C n s f r p ≠ .ill := by
  have ha : ∀ p, attempt C n s f r p ≠ .ill := fun p =>
    (eval_covered (sh := shape r.captures) _ _ _ _ _ _ _ (by rw [← known_eq]; exact h) rfl).1
  refine ⟨?_, ?_⟩
  · have := ha p
    unfold startsWithAt
    cases ho : attempt C n s f r p <;> simp_all [Out.toExec]
  · have : ∀ k p, searchLoop C n s f r k p ≠ .ill := by
      intro k
      induction k with
      | zero => intro p; have := ha p; unfold searchLoop; cases ho : attempt C n s f r p <;> simp_all [Out.toExec]
      | succ k ih => intro p; have := ha p; unfold searchLoop; cases ho : attempt C n s f r p <;> simp_all [Out.toExec]
    exact this _ _

/-- C62: the same for `match`. -/
theorem C62_match_covered {C : Cfg} {r : Re} (h : Compiled C r.known (fullStart r)) (n : Nat) (s : List Ch) (f : Flags)
    (p : Nat) : matchAt C n s f r p ≠ .ill := by
  have := (eval_covered (sh := shape r.captures) n s false p f { groups := r.captures } _ (by rw [← known_eq]; exact h) rfl).1
  have : attemptFull C n s f r p ≠ .ill := this
  unfold matchAt
  cases ho : attemptFull C n s f r p <;> simp_all [Out.toExec]

/-- C62: `match` compiles if and only if `search` and `starts_with` do. -/
theorem C62_match_iff_search (C : Cfg) (r : Re) : Compiled C r.known (fullStart r) ↔ Compiled C r.known (prefixStart r) := by
  unfold fullStart prefixStart
  rw [compiled_start, compiled_start]
  constructor
  · exact re_same r _ _ _ ⟨fun l => by simp [first, firstRe], fun _ => compiled_endMark⟩
  · exact re_same r _ _ _ ⟨fun l => by simp [first, firstRe], fun _ => compiled_sEnd⟩

/-- C62: what a pattern that compiles has to satisfy. -/
theorem C62_necessary {C : Cfg} {r : Re} (h : Compiled C r.known (prefixStart r)) :
    r.lawful r.known.hasId r.known.hasName false = true ∧ (C.greedyOpt = true → r.analysed true = true) := by
  obtain ⟨h1, h2, -⟩ := compiled_re r false _ (compiled_start.1 h)
  exact ⟨h1, fun hg => h2 hg rfl⟩

/-- C62: the condition is sufficient if there are no negated classes inside of classes. -/
theorem C62_iff_plain {C : Cfg} {r : Re} (hp : r.flatClasses = true) : Compiled C r.known (prefixStart r) ↔
    r.lawful r.known.hasId r.known.hasName false = true ∧ (C.greedyOpt = true → r.analysed true = true) := by
  refine ⟨C62_necessary, fun ⟨h1, h2⟩ => compiled_start.2 (re_compiled r false _ h1 ?_ (fun _ => compiled_endMark))⟩
  exact fun hg _ => ⟨by simp [hp, flatSt], h2 hg⟩

/-- C62: with `CTRE_DISABLE_GREEDY_OPT` the condition on groups and lookbehinds is exact for all patterns. -/
theorem C62_iff_without_optimisation {C : Cfg} (hg : C.greedyOpt = false) (r : Re) :
    Compiled C r.known (prefixStart r) ↔ r.lawful r.known.hasId r.known.hasName false = true := by
  refine ⟨fun h => (C62_necessary h).1, fun h => compiled_start.2 (re_compiled r false _ h ?_ (fun _ => compiled_endMark))⟩
  exact fun hg' => by simp [hg] at hg'

/-- C62: the condition of C44 is sufficient. -/
theorem C62_of_compiles {C : Cfg} {r : Re} (h : Compiles C r) :
    Compiled C r.known (fullStart r) ∧ Compiled C r.known (prefixStart r) := by
  have : Compiled C r.known (prefixStart r) := by
    refine compiled_start.2 (re_tame r false _ h.tame ?_ compiled_endMark)
    intro hg _
    rcases h.scans with h | h
    · simp [h] at hg
    · exact h
  exact ⟨(C62_match_iff_search C r).2 this, this⟩

/-- A list without repetitions is not longer than a list that has all of its members. -/
theorem nodup_length_le {α : Type} {L : List α} (hd : L.Nodup) : ∀ {M : List α}, L ⊆ M → L.length ≤ M.length := by
  induction L with
  | nil => intros; simp
  | cons x L ih =>
    intro M h
    obtain ⟨A, B, rfl⟩ := List.append_of_mem (h (List.mem_cons_self))
    rw [List.nodup_cons] at hd
    have := ih hd.2 (M := A ++ B) (by
      intro y hy
      have h1 := h (List.mem_cons_of_mem _ hy)
      simp only [List.mem_append, List.mem_cons] at h1 ⊢
      rcases h1 with h1 | rfl | h1
      · exact .inl h1
      · exact absurd hy hd.1
      · exact .inr h1)
    simp only [List.length_append, List.length_cons] at this ⊢
    omega

/-- C62: a call needs a number of instantiations that is linear in the size of the pattern. -/
theorem C62_few_instantiations {C : Cfg} {r : Re} {L : List (Bool × Stack)} (hd : L.Nodup)
    (h : ∀ y ∈ L, Instantiated C r.known (fullStart r) y ∨ Instantiated C r.known (prefixStart r) y) :
    L.length ≤ 8 * r.nodes + 7 := by
  have h1 : L ⊆ stSites false (fullStart r).2 ++ stSites false (prefixStart r).2 := by
    intro y hy
    rw [List.mem_append]
    exact (h y hy).elim (fun h => .inl (instantiated_mem h)) (fun h => .inr (instantiated_mem h))
  have h2 := nodup_length_le hd h1
  have h3 := r.sites_length false [.re .sEnd, .endMark, .accept]
  have h4 := r.sites_length false [.endMark, .accept]
  simp only [fullStart, prefixStart, stSites, Re.sites, List.length_append, List.length_cons, List.length_nil] at h2
  omega

/-- C62: ... and in the length of its text. -/
theorem C62_linear_in_text {P : PropTable} {t : List Nat} {r : Re} (hb : build P t = .pattern r) (hu : ¬ Unusual t) {C : Cfg}
    {L : List (Bool × Stack)} (hd : L.Nodup)
    (h : ∀ y ∈ L, Instantiated C r.known (fullStart r) y ∨ Instantiated C r.known (prefixStart r) y) :
    L.length ≤ 16 * t.length + 15 := by
  have h1 := C62_few_instantiations hd h
  obtain ⟨b, hw, rfl⟩ := (C45_accepted_iff P hu).1 ⟨r, hb⟩
  rw [build_print hw] at hb
  cases hb
  have := bodyTree_nodes b
  omega

/-! ### Cases -/

/-- `a|(?>(b))` does not compile, although matching "a" never gets to the atomic group. -/
theorem C62_fails_unreached :
    build {} [97, 124, 40, 63, 62, 40, 98, 41, 41] = .pattern (.sel [.cc (.chr 97), .atomic [.cap 1 none [.cc (.chr 98)]]]) ∧
    ¬ Compiled {} (Re.sel [.cc (.chr 97), .atomic [.cap 1 none [.cc (.chr 98)]]]).known
      (prefixStart (.sel [.cc (.chr 97), .atomic [.cap 1 none [.cc (.chr 98)]]])) ∧
    (cMatch {} 20 [97] {} (.sel [.cc (.chr 97), .atomic [.cap 1 none [.cc (.chr 98)]]])).success = true :=
  ⟨by rfl, fun h => absurd (C62_necessary h).1 (by decide +kernel), by decide +kernel⟩

/-- `x{3,2}(?>(b))` compiles: nothing behind an impossible repetition is instantiated. -/
theorem C62_dead : ∃ r, build {} [120, 123, 51, 44, 50, 125, 40, 63, 62, 40, 98, 41, 41] = .pattern r ∧
    Compiled {} r.known (prefixStart r) ∧ ¬ Compiles {} r :=
  ⟨_, by rfl, (C62_iff_plain (by decide +kernel)).2 ⟨by decide +kernel, fun _ => by decide +kernel⟩,
    fun h => absurd h.tame (by decide +kernel)⟩

example : Compiled {} sampleCompiles.known (fullStart sampleCompiles) :=
  (C62_of_compiles ⟨by decide +kernel, .inr (by decide +kernel)⟩).1

example : sampleCompiles.flatClasses = true := by decide +kernel

-- a list of instantiations as in `C62_few_instantiations`
example : Instantiated {} (Re.cc (.chr 97)).known (prefixStart (.cc (.chr 97))) (false, [.endMark, .accept]) :=
  .next (.next .first (z := (false, [.re (.cc (.chr 97)), .endMark, .accept])) rfl (List.mem_singleton.2 rfl)) rfl
    (List.mem_singleton.2 rfl)

-- `(?<x>a|b)+c` has seven nodes
example : (Re.seq [.rep .greedy 1 0 [.cap 1 (some [120]) [.sel [.cc (.chr 97), .cc (.chr 98)]]], .cc (.chr 99)]).nodes = 7 := by
  decide +kernel

end Ctre

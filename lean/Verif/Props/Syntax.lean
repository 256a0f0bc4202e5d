import Verif.Lemmas.SurfaceCaps
import Verif.Lemmas.ParseBody
import Verif.Props.Soundness
import Verif.Props.Bounds
import Verif.Props.Terminates

/-
C30, C31: what the parser makes of a written pattern.
-/
namespace Ctre
open Parse Surface

/-- C30: the groups of a pattern are numbered 1, 2, ... in the order of their opening parentheses, and a result object
has a slot, in this order and with the names given in the pattern, for each group that is not inside of an atomic or
lookbehind group. -/
theorem C30_numbering (P : PropTable) {b : Body} (h : b.WF P.find 0) :
    b.opened.map Prod.fst = List.range' 1 b.groups ∧
    ∃ r, build P b.print = .pattern r ∧ (initCaps r).groups.map (fun g => (g.id, g.name)) = b.visible ∧
      b.visible.Sublist b.opened := by
  refine ⟨opened_body b h, bodyTree b, build_print h, ?_, visible_body b⟩
  simp only [initCaps, captures_body b h, List.map_map]
  exact (List.map_congr_left (g := id) (fun g _ => rfl)).trans (List.map_id _)

theorem shape_visible {find : List Nat → Option (List Nat) → Option Nat} {b : Body} (h : b.WF find 0) :
    shape (initCaps (bodyTree b)).groups = b.visible := by
  simp only [shape, initCaps, captures_body b h, List.map_map]
  exact (List.map_congr_left (g := id) (fun g _ => rfl)).trans (List.map_id _)

theorem shape_toExec {r : Re} {o : Out} {x : Caps} (h : o.toExec r = .done x)
    (ho : ∀ c, o = .ok c → shape c.groups = shape (initCaps r).groups) : shape x.groups = shape (initCaps r).groups := by
  cases o with
  | ok c => simp only [Out.toExec, Exec.done.injEq] at h; subst h; exact ho _ rfl
  | fail => simp only [Out.toExec, Exec.done.injEq] at h; subst h; rfl
  | _ => simp [Out.toExec] at h

theorem shape_searchLoop {C : Cfg} {n : Nat} {s : List Ch} {f : Flags} {r : Re} (hr : r.Numbered) {x : Caps} :
    ∀ k i, i + k ≤ s.length → searchLoop C n s f r k i = .done x → shape x.groups = shape (initCaps r).groups
  | 0, i, hi, h => by
    unfold searchLoop at h
    split at h
    · simp only [Exec.done.injEq] at h; subst h; rfl
    · exact shape_toExec h fun c hc => ((attempt_safe C hr (by omega)).2 c hc).1.shape
  | k + 1, i, hi, h => by
    unfold searchLoop at h
    split at h
    · exact shape_searchLoop hr k (i + 1) (by omega) h
    · exact shape_toExec h fun c hc => ((attempt_safe C hr (by omega)).2 c hc).1.shape

/-- C30: the results of all calls, successful or not, have these slots. -/
theorem C30_results (P : PropTable) {b : Body} (h : b.WF P.find 0) : ∃ r, build P b.print = .pattern r ∧
    ∀ (C : Cfg) (n : Nat) (s : List Ch) (f : Flags) (x : Caps),
      (cMatch C n s f r = .done x ∨ cStartsWith C n s f r = .done x ∨ cSearch C n s f r = .done x) →
      x.groups.map (fun g => (g.id, g.name)) = b.visible := by
  refine ⟨_, build_print h, fun C n s f x hx => ?_⟩
  have hr := body_numbered h
  have hv := shape_visible h
  rw [← hv]
  show shape x.groups = _
  rcases hx with hx | hx | hx
  · exact shape_toExec hx fun c hc => ((attemptFull_safe C hr (Nat.zero_le _)).2 c hc).1.shape
  · exact shape_toExec hx fun c hc => ((attempt_safe C hr (Nat.zero_le _)).2 c hc).1.shape
  · refine shape_searchLoop hr _ _ ?_ hx
    split <;> omega

/-- C30: a reference by name goes to the first group with this name, a reference `\g{-k}` to the k-th last group opened
before it; the trees of C31 are built with these numbers. Every written pattern has distinct group numbers, so that C03,
C07 and C08 apply to it. -/
theorem C30_distinct (P : PropTable) {b : Body} (h : b.WF P.find 0) : ∃ r, build P b.print = .pattern r ∧ r.Numbered ∧
    ∀ name, groupNumber r.captures name = numberOf b.visible name := by
  refine ⟨_, build_print h, body_numbered h, fun name => ?_⟩
  rw [captures_body b h, groupNumber_visible]

/-- C31: every pattern that can be written down is accepted, and the pattern that is built has the meaning of the
syntax tree that was written down. -/
theorem C31_meaning (P : PropTable) {b : Body} (h : b.WF P.find 0) (hf : b.Faithful) (hn : b.size < 2 ^ 64) :
    ∃ r, build P b.print = .pattern r ∧ ∀ (E : Env) (s : List Ch) (σ τ : MState), σ.pos ≤ s.length →
      (r.Match E s σ τ ↔ b.Match E s σ τ) :=
  ⟨_, build_print h, fun _ _ _ _ hp => body_sem b hf (by simp only [szMod]; omega) hp⟩

/-- C31: every pattern that can be written down is accepted, whatever numbers and escapes it contains. -/
theorem C31_accepted (P : PropTable) {b : Body} (h : b.WF P.find 0) : ∃ r, build P b.print = .pattern r :=
  ⟨_, build_print h⟩

/-- The meaning of names and properties for a written pattern. -/
def Surface.Body.env (C : Cfg) (b : Body) : Env := { uni := C.uni, number := numberOf b.visible }

theorem envOf_body {find : List Nat → Option (List Nat) → Option Nat} {C : Cfg} {b : Body} (h : b.WF find 0) :
    envOf C (bodyTree b) = b.env C := by
  have : groupNumber (bodyTree b).captures = numberOf b.visible := by
    funext n; rw [captures_body b h, groupNumber_visible]
  simp only [envOf, Body.env, this]

/-- C31 and C01 from the text of the pattern to the result, for `match`: success means that the subject is described by
the written pattern, and the captures are those of such a description. -/
theorem C31_match_sound (P : PropTable) {b : Body} (h : b.WF P.find 0) (hf : b.Faithful) (hn : b.size < 2 ^ 64)
    (hs : b.selfFree (numberOf b.visible) []) (hneg : b.noNegative = true) :
    ∃ r, build P b.print = .pattern r ∧ ∀ (C : Cfg) (n : Nat) (s : List Ch) (f : Flags) (x : Caps),
      cMatch C n s f r = .done x → x.whole.matched = true →
      ∃ τ, b.Match (b.env C) s (MState.start 0 f) τ ∧ τ.pos = s.length ∧ Reports x 0 τ := by
  refine ⟨_, build_print h, fun C n s f x hx hm => ?_⟩
  obtain ⟨τ, h1, h2, h3⟩ := C01_match_sound (body_wellNumbered h hf hs) (.inl (noNeg_body b hf hneg)) (Nat.zero_le _) hx hm
  rw [envOf_body h] at h1
  exact ⟨τ, (body_sem b hf (by simp only [szMod]; omega) (Nat.zero_le _)).1 h1, h2, h3⟩

/-- The same for `starts_with`. -/
theorem C31_starts_with_sound (P : PropTable) {b : Body} (h : b.WF P.find 0) (hf : b.Faithful) (hn : b.size < 2 ^ 64)
    (hs : b.selfFree (numberOf b.visible) []) (hneg : b.noNegative = true) :
    ∃ r, build P b.print = .pattern r ∧ ∀ (C : Cfg) (n : Nat) (s : List Ch) (f : Flags) (x : Caps),
      cStartsWith C n s f r = .done x → x.whole.matched = true →
      ∃ τ, b.Match (b.env C) s (MState.start 0 f) τ ∧ Reports x 0 τ := by
  refine ⟨_, build_print h, fun C n s f x hx hm => ?_⟩
  obtain ⟨τ, h1, h3⟩ := C01_starts_with_sound (body_wellNumbered h hf hs) (.inl (noNeg_body b hf hneg)) (Nat.zero_le _) hx hm
  rw [envOf_body h] at h1
  exact ⟨τ, (body_sem b hf (by simp only [szMod]; omega) (Nat.zero_le _)).1 h1, h3⟩

/-- The same for `search`. -/
theorem C31_search_sound (P : PropTable) {b : Body} (h : b.WF P.find 0) (hf : b.Faithful) (hn : b.size < 2 ^ 64)
    (hs : b.selfFree (numberOf b.visible) []) (hneg : b.noNegative = true) :
    ∃ r, build P b.print = .pattern r ∧ ∀ (C : Cfg) (n : Nat) (s : List Ch) (f : Flags) (x : Caps),
      cSearch C n s f r = .done x → x.whole.matched = true →
      ∃ i τ, i ≤ s.length ∧ b.Match (b.env C) s (MState.start i f) τ ∧ Reports x i τ := by
  refine ⟨_, build_print h, fun C n s f x hx hm => ?_⟩
  obtain ⟨i, τ, _, h1, h2, h3⟩ := C01_search_sound (body_wellNumbered h hf hs) (.inl (noNeg_body b hf hneg)) (Nat.zero_le _) hx hm
  rw [envOf_body h] at h2
  exact ⟨i, τ, h1, (body_sem b hf (by simp only [szMod]; omega) (show (MState.start i f).pos ≤ _ from h1)).1 h2, h3⟩

/-- C31 and C02: for a pattern of the fragment of C02, `match` decides whether the subject is described by the written
pattern. -/
theorem C31_match_iff (P : PropTable) {b : Body} (h : b.WF P.find 0) (hf : b.Faithful) (hn : b.size < 2 ^ 64)
    (hs : b.selfFree (numberOf b.visible) []) (hneg : b.noNegative = true) :
    ∃ r, build P b.print = .pattern r ∧ (∀ (C : Cfg) (n : Nat) (s : List Ch) (f : Flags) (x : Caps), Complete C r →
      cMatch C n s f r = .done x →
      (x.whole.matched = true ↔ ∃ τ, b.Match (b.env C) s (MState.start 0 f) τ ∧ τ.pos = s.length)) := by
  refine ⟨_, build_print h, fun C n s f x hc hx => ⟨fun hm => ?_, fun ⟨τ, h1, h2⟩ => ?_⟩⟩
  · obtain ⟨r, hr, hsnd⟩ := C31_match_sound P h hf hn hs hneg
    rw [build_print h] at hr
    cases hr
    obtain ⟨τ, h1, h2, _⟩ := hsnd C n s f x hx hm
    exact ⟨τ, h1, h2⟩
  · refine C02_match_complete (body_wellNumbered h hf hs) hc (Nat.zero_le _) hx ?_ h2
    rw [envOf_body h]
    exact (body_sem b hf (by simp only [szMod]; omega) (Nat.zero_le _)).2 h1

/-! ### Cases -/

/-- `(a(?<n>b)|c)(?=\x64)\g{n}[^x-z]{2,3}?` -/
def writtenSample : Body := .alt (.one (
  .cons (.cap 1 (.alt (.bar (.cons (.ch (.plain 97)) .none (.one (.named 2 [110] (.alt (.one (.one (.ch (.plain 98)) .none)))) .none))
    (.one (.one (.ch (.plain 99)) .none))))) .none
  (.cons (.ahead true (.alt (.one (.one (.ch (.x2 54 52)) .none)))) .none
  (.cons (.refName [110]) .none
  (.one (.set true [.range (.plain 120) (.plain 122)]) (.between [50] [51] .lazy))))))

-- the text
example : writtenSample.print = "(a(?<n>b)|c)(?=\\x64)\\g{n}[^x-z]{2,3}?".toList.map Char.toNat := by decide +kernel
-- the conditions of the theorems
example : writtenSample.WF (PropTable.find {}) 0 := by
  simp [writtenSample, Body.WF, Alt.WF, Cat.WF, Atom.WF, Char1.WF, special, isHex, isDec, Quant.WF, isNumber, SetWF, SetItem.WF,
    specialInSet, Atom.groups, isNameStart, Atom.leadsName, Body.leadsName, Alt.leadsName, Cat.leadsName]
  exact ⟨110, [], by simp⟩
example : writtenSample.Faithful := by
  simp [writtenSample, Body.Faithful, Alt.Faithful, Cat.Faithful, Atom.Faithful, Char1.Faithful, Quant.Faithful,
    SetItem.Faithful, decimal, possessiveItem, Atom.possessive]
example : writtenSample.size < 2 ^ 64 := by
  simp [writtenSample, Body.size, Alt.size, Cat.size, Atom.size, Quant.size, decimal]
example : writtenSample.selfFree (numberOf writtenSample.visible) [] := by
  simp [writtenSample, Body.selfFree, Alt.selfFree, Cat.selfFree, Atom.selfFree]
example : writtenSample.noNegative = true := by decide
example : writtenSample.visible = [(1, none), (2, some [110])] := by decide
-- `(a)(?>(b))(c)`: the second group has no slot
example : (Body.alt (.one (.cons (.cap 1 (.alt (.one (.one (.ch (.plain 97)) .none)))) .none
    (.cons (.atomic (.alt (.one (.one (.cap 2 (.alt (.one (.one (.ch (.plain 98)) .none)))) .none)))) .none
    (.one (.cap 3 (.alt (.one (.one (.ch (.plain 99)) .none)))) .none))))).visible = [(1, none), (3, none)] := by decide
-- the tree that is built
example : build {} writtenSample.print = .pattern (.seq [
    .cap 1 none [.sel [.seq [.cc (.chr 97), .cap 2 (some [110]) [.cc (.chr 98)]], .cc (.chr 99)]],
    .ahead true [.cc (.chr 100)], .brefName [110], .rep .lazy 2 3 [.cc (.negSet [.range 120 122])]]) := rfl
-- a pattern of the fragment of C02: `(?:ab|c)+d`
def writtenPlain : Body := .alt (.one (.cons (.group (.alt (.bar (.cons (.ch (.plain 97)) .none (.one (.ch (.plain 98)) .none))
    (.one (.one (.ch (.plain 99)) .none))))) (.plus .greedy) (.one (.ch (.plain 100)) .none)))
example : build {} writtenPlain.print = .pattern (.seq [.rep .greedy 1 0 [.sel [.str [97, 98], .cc (.chr 99)]], .cc (.chr 100)]) := rfl
example : Complete { greedyOpt := false } (.seq [.rep .greedy 1 0 [.sel [.str [97, 98], .cc (.chr 99)]], .cc (.chr 100)]) :=
  C02_fragment rfl (by decide) (by decide)

end Ctre

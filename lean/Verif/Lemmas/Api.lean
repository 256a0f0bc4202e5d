import Verif.Spec.Api
import Verif.Spec.Language
import Verif.Lemmas.FixedString
import Verif.Lemmas.Chars
import Verif.Lemmas.Shift
import Verif.Lemmas.Utf8
import Verif.Lemmas.ZeroTerminated
import Verif.Props.Bounds
import Verif.Props.Iteration

/-
Ranges and iterators over an iterator that walks the positions of a sequence.
-/
namespace Ctre

theorem RIter.assign_mapPos (φ : Nat → Nat) (p : Nat) (e : Exec) :
    RIter.assign (φ p) (e.mapPos φ) = (RIter.assign p e).map (RIter.mapPos φ) := by
  cases e with
  | done c =>
    obtain ⟨⟨b, e, m⟩, g⟩ := c
    cases m <;> cases e <;> rfl
  | _ => rfl

theorem SIter.assign_mapPos (φ : Nat → Nat) (p : Nat) (l : Bool) (e : Exec) :
    SIter.assign (φ p) l (e.mapPos φ) = (SIter.assign p l e).map (SIter.mapPos φ) := by
  cases e with
  | done c =>
    obtain ⟨⟨b, e, m⟩, g⟩ := c
    cases m <;> cases e <;> cases b <;> rfl
  | _ => rfl

theorem RIter.nthC_mapPos {K : Cursor} {exec execC : Nat → Exec} {len : Nat} {φ : Nat → Nat} {dflt : Caps} (h0 : φ 0 = 0)
    (hx : ∀ i, i ≤ len → execC (φ i) = (exec i).mapPos φ) (hat : ∀ i, i ≤ len → K.atEnd (φ i) = some (decide (i = len)))
    (hd : dflt.mapPos φ = dflt) (hc : ∀ j it, RIter.nth exec len dflt j = some it → it.current ≤ len) :
    ∀ j, RIter.nthC K execC dflt j = (RIter.nth exec len dflt j).map (RIter.mapPos φ)
  | 0 => by
    have := RIter.assign_mapPos φ 0 (exec 0)
    rw [← hx 0 (Nat.zero_le _), h0] at this
    exact this
  | j + 1 => by
    simp only [RIter.nthC, RIter.nth]
    rw [RIter.nthC_mapPos h0 hx hat hd hc j]
    cases h : RIter.nth exec len dflt j with
    | none => rfl
    | some it =>
      have hle := hc j it h
      simp only [Option.map_some, RIter.nextC, RIter.next]
      show (match K.atEnd (φ it.current) with | none => none | some true => _ | some false => _) = _
      rw [hat _ hle]
      by_cases h' : it.current = len
      · simp [h', RIter.mapPos, hd]
      · simp only [h', decide_false, if_false]
        show RIter.assign (φ it.current) (execC (φ it.current)) = _
        rw [hx _ hle]
        exact RIter.assign_mapPos φ it.current _

theorem SIter.nthC_mapPos {K : Cursor} {exec execC : Nat → Exec} {len : Nat} {φ : Nat → Nat} {dflt : Caps} (h0 : φ 0 = 0)
    (hx : ∀ i, i ≤ len → execC (φ i) = (exec i).mapPos φ) (hat : ∀ i, i ≤ len → K.atEnd (φ i) = some (decide (i = len)))
    (hd : dflt.mapPos φ = dflt) (hc : ∀ j it, SIter.nth exec len dflt j = some it → it.current ≤ len) :
    ∀ j, SIter.nthC K execC dflt j = (SIter.nth exec len dflt j).map (SIter.mapPos φ)
  | 0 => by
    have := SIter.assign_mapPos φ 0 false (exec 0)
    rw [← hx 0 (Nat.zero_le _), h0] at this
    exact this
  | j + 1 => by
    simp only [SIter.nthC, SIter.nth]
    rw [SIter.nthC_mapPos h0 hx hat hd hc j]
    cases h : SIter.nth exec len dflt j with
    | none => rfl
    | some it =>
      have hle := hc j it h
      simp only [Option.map_some, SIter.nextC, SIter.next]
      show (match K.atEnd (φ it.current) with
        | none => none
        | some e => if e = true ∧ it.lastMatch = true then _ else _) = _
      rw [hat _ hle]
      by_cases h' : it.current = len ∧ it.lastMatch = true
      · simp [h', SIter.mapPos, hd]
      · rw [if_neg h']
        simp only [decide_eq_true_eq]
        rw [if_neg h']
        show SIter.assign (φ it.current) it.lastMatch (execC (φ it.current)) = _
        rw [hx _ hle]
        exact SIter.assign_mapPos φ it.current _ _

theorem search_end_le {C : Cfg} {n : Nat} {f : Flags} {r : Re} (hr : r.Numbered) (s : List Ch) : ∀ p c q, p ≤ s.length →
    searchAt C n s f r p = .done c → c.whole.e = some q → q ≤ s.length := by
  intro p c q hp h hq
  cases hm : c.whole.matched with
  | true =>
    obtain ⟨b, e, h1, _, _, h2⟩ := search_spanOK hr p c hp h hm
    rw [h1] at hq
    simp only [Option.some.injEq] at hq
    omega
  | false =>
    unfold searchAt at h
    have h1 := (searchLoop_fail' hr (by split <;> omega) h hm).1
    subst h1
    simp only [Caps.setEnd, Option.some.injEq] at hq
    split at hq <;> omega

theorem exec_walks (C : Cfg) (n : Nat) {o : Needs} {K : Cursor} {s : List Ch} {φ : Nat → Nat} (H : Walks o K s false φ)
    (h0 : φ 0 = 0) {r : Re} (hr : r.Numbered) (hf : r.fits o = true) (f : Flags) (m : Method) :
    m.exec C n f r K = (m.plain C n f r s).mapPos φ := by
  have hs : ∀ i, i ≤ s.length → searchC C n K f r (φ i) = (searchAt C n s f r i).mapPos φ := fun i hi =>
    (searchC_sim C n H hf f hi).resolve_left (C08_no_out_of_bounds hr hi).2.2
  have ht : ∀ i, i ≤ s.length → startsWithC C n K f r (φ i) = (startsWithAt C n s f r i).mapPos φ := fun i hi =>
    (startsWithC_sim C n H hf f hi).resolve_left (C08_no_out_of_bounds hr hi).2.1
  have hm : matchC C n K f r (φ 0) = (matchAt C n s f r 0).mapPos φ :=
    (matchC_sim C n H hf f (Nat.zero_le _)).resolve_left (C08_no_out_of_bounds hr (Nat.zero_le _)).1
  have hd : (initCaps r).mapPos φ = initCaps r := initCaps_mapPos r φ
  have hat := H.atEnd
  have hsc : ∀ j it, RIter.nth (searchAt C n s f r) s.length (initCaps r) j = some it → it.current ≤ s.length :=
    fun j it h => (RIter.nth_inv (search_spanOK hr) rfl h).le
  have htc : ∀ j it, RIter.nth (startsWithAt C n s f r) s.length (initCaps r) j = some it → it.current ≤ s.length :=
    fun j it h => (RIter.nth_inv (startsWith_spanOK hr) rfl h).le
  cases m with
  | match_ => rw [h0] at hm; exact congrArg Answer.one hm
  | search => have := hs 0 (Nat.zero_le _); rw [h0] at this; exact congrArg Answer.one this
  | startsWith => have := ht 0 (Nat.zero_le _); rw [h0] at this; exact congrArg Answer.one this
  | searchAll | iterator => exact congrArg Answer.many (funext (RIter.nthC_mapPos h0 hs hat hd hsc))
  | tokenize => exact congrArg Answer.many (funext (RIter.nthC_mapPos h0 ht hat hd htc))
  | split => exact congrArg Answer.pieces (funext (SIter.nthC_mapPos h0 hs hat hd (SIter.nth_le (search_end_le hr s))))

theorem caps_mapPos_id (c : Caps) : c.mapPos id = c := by
  have := mapPos_id (.done c)
  simpa only [Exec.mapPos, Exec.done.injEq] using this

theorem answer_mapPos_id (a : Answer) : a.mapPos id = a := by
  cases a with
  | one e => simp only [Answer.mapPos, mapPos_id]
  | many it =>
    simp only [Answer.mapPos]
    congr 1
    funext k
    have : RIter.mapPos id = id := by funext x; simp only [RIter.mapPos, caps_mapPos_id]; rfl
    rw [this, Option.map_id]; rfl
  | pieces it =>
    simp only [Answer.mapPos]
    congr 1
    funext k
    have : SIter.mapPos id = id := by funext x; simp only [SIter.mapPos, caps_mapPos_id]; rfl
    rw [this, Option.map_id]; rfl

theorem exec_mapPos_done {e : Exec} {φ : Nat → Nat} {y : Caps} (h : e.mapPos φ = .done y) :
    ∃ x, e = .done x ∧ y = x.mapPos φ := by
  cases e with
  | done x =>
    simp only [Exec.mapPos, Exec.done.injEq] at h
    exact ⟨x, rfl, h.symm⟩
  | _ => simp [Exec.mapPos] at h

theorem codePoints_isCh {s : List Nat} (hs : ∀ c ∈ s, IsScalar c) : ∀ v ∈ codePoints s, IsCh v := by
  intro v hv
  obtain ⟨c, hc, rfl⟩ := List.mem_map.1 hv
  have := hs c hc
  unfold IsScalar at this
  have h : (-2147483648 : Int) ≤ (c : Int) ∧ (c : Int) < 4294967296 := by omega
  exact h

theorem Re.regular_fits (o : Needs) (r : Re) : r.regular = true → r.fits o = true := by
  induction r using Re.rec (motive_2 := fun l => regularList l = true → fitsList o l = true) with
  | sel l ih =>
    intro h
    simp only [Re.regular, Bool.and_eq_true] at h
    exact ih h.2
  | seq l ih => exact ih
  | rep _ _ _ l ih => exact ih
  | cap _ _ l ih => exact ih
  | atomic l ih => exact ih
  | nil => rfl
  | cons r l ih ih' =>
    rename_i h
    simp only [regularList, Bool.and_eq_true] at h
    simp only [fitsList, Bool.and_eq_true]
    exact ⟨ih h.1, ih' h.2⟩
  | _ => simp [Re.regular, Re.fits]

theorem litUtf8Loop_cut {u : Nat} (hu : IsContinuation u) (rest : List Nat) (ok : Bool) : ∀ {s : List Nat}, (∀ c ∈ s, IsScalar c) →
    ∀ n, s.length < n → litUtf8Loop n ok (utf8Encode s ++ u :: rest) = { content := s, correct := false }
  | [], _, n, hn => by
    obtain ⟨n, rfl⟩ : ∃ m, n = m + 1 := ⟨n - 1, by simp at hn; omega⟩
    unfold IsContinuation at hu
    have : litUtf8Lead u = (0, 0) := by
      rw [litUtf8Lead_eq (by omega), if_neg (by omega), if_pos (by omega)]
    simp only [utf8Encode, List.flatMap_nil, List.nil_append, litUtf8Loop, this]
  | c :: s, hs, n, hn => by
    obtain ⟨n, rfl⟩ : ∃ m, n = m + 1 := ⟨n - 1, by simp at hn; omega⟩
    have : utf8Encode (c :: s) ++ u :: rest = utf8Of c ++ (utf8Encode s ++ u :: rest) := by
      simp [utf8Encode]
    rw [this, litUtf8Loop_at (hs c (by simp)), litUtf8Loop_cut hu rest ok (fun d hd => hs d (by simp [hd])) n (by simpa using hn)]

theorem fixedUtf8_cut {s : List Nat} (hs : ∀ c ∈ s, IsScalar c) {u : Nat} (hu : IsContinuation u) (rest : List Nat) :
    fixedUtf8 (utf8Encode s ++ u :: rest) = { content := s, correct := false } := by
  refine litUtf8Loop_cut hu rest true hs _ ?_
  have := flatMap_length_ge utf8Of_length_pos s
  simp only [utf8Encode, List.length_append, List.length_cons]
  omega

end Ctre

import Verif.Spec.Utf8Forms
import Verif.Lemmas.Utf8

/-
What the UTF-8 iterator reads from arbitrary code units.
-/
namespace Ctre

/-- `operator*` as a function of the rest of the buffer. -/
def utf8Head (l : List Nat) : Option Nat :=
  match l with
  | [] => none
  | u0 :: r =>
    if u0 &&& 0b10000000 = 0 then some u0
    else
      let length := utf8Trail u0
      if length = 0 then some 0xFFFD
      else if length ≥ l.length then some 0xFFFD
      else
        match r with
        | [] => none
        | u1 :: r =>
          if u1 &&& 0b11000000 ≠ 0b10000000 then some 0xFFFD
          else
            let mask := 0b00111111 >>> length
            let result := ((u0 &&& mask) <<< 6) ||| (u1 &&& 0b00111111)
            if length = 1 then some result
            else
              match r with
              | [] => none
              | u2 :: r =>
                if u2 &&& 0b11000000 ≠ 0b10000000 then some 0xFFFD
                else
                  let result := (result <<< 6) ||| (u2 &&& 0b00111111)
                  if length = 2 then some result
                  else
                    match r with
                    | [] => none
                    | u3 :: _ =>
                      if u3 &&& 0b11000000 ≠ 0b10000000 then some 0xFFFD
                      else some ((result <<< 6) ||| (u3 &&& 0b00111111))

theorem utf8Deref_drop {b : List Nat} {p : Nat} (hp : p < b.length) : utf8Deref b p = utf8Head (b.drop p) := by
  have e : ∀ i, b[p + i]? = (b.drop p)[i]? := fun i => by rw [List.getElem?_drop]
  have e0 : b[p]? = (b.drop p)[0]? := e 0
  have hl : (b.drop p).length = b.length - p := List.length_drop
  have hlen : ∀ k, (p + k ≥ b.length) = (k ≥ (b.drop p).length) := fun k => by rw [hl]; apply propext; omega
  unfold utf8Deref utf8Head
  rw [e0, e 1, e 2, e 3]
  simp only [hlen]
  generalize b.drop p = l
  match l with
  | [] => rfl
  | [u0] => rfl
  | [u0, u1] => rfl
  | [u0, u1, u2] => rfl
  | u0 :: u1 :: u2 :: u3 :: r => rfl

theorem cont_split {u : Nat} (h : 0x80 ≤ u ∧ u < 0xC0) : u &&& 0b00111111 = u - 0x80 := by
  have := low6 ⟨u - 0x80, by omega⟩
  simp only at this
  rwa [show 0x80 + (u - 0x80) = u by omega] at this

/-- No form with the given beginning. -/
theorem no_form {l : List Nat} {k c : Nat} (h1 : hasForm k c) (h2 : utf8Form k c <+: l) :
    ∃ u r, l = u :: r ∧ (u < 0x80 ∧ k = 1 ∧ c = u ∨
      0xC0 ≤ u ∧ u < 0xE0 ∧ k = 2 ∧ (∃ v r', r = v :: r' ∧ 0x80 ≤ v ∧ v < 0xC0 ∧ c = (u - 0xC0) * 64 + (v - 0x80)) ∨
      0xE0 ≤ u ∧ u < 0xF0 ∧ k = 3 ∧ (∃ v w r', r = v :: w :: r' ∧ 0x80 ≤ v ∧ v < 0xC0 ∧ 0x80 ≤ w ∧ w < 0xC0 ∧
        c = ((u - 0xE0) * 64 + (v - 0x80)) * 64 + (w - 0x80)) ∨
      0xF0 ≤ u ∧ u < 0xF8 ∧ k = 4 ∧ (∃ v w x r', r = v :: w :: x :: r' ∧ 0x80 ≤ v ∧ v < 0xC0 ∧ 0x80 ≤ w ∧ w < 0xC0 ∧
        0x80 ≤ x ∧ x < 0xC0 ∧ c = (((u - 0xF0) * 64 + (v - 0x80)) * 64 + (w - 0x80)) * 64 + (x - 0x80))) := by
  obtain ⟨t, rfl⟩ := h2
  match k, h1 with
  | 1, h1 => exact ⟨_, _, rfl, .inl ⟨h1, rfl, rfl⟩⟩
  | 2, h1 =>
    have : c < 0x800 := h1
    exact ⟨_, _, rfl, .inr (.inl ⟨by omega, by omega, rfl, _, _, rfl, by omega, by omega, by omega⟩)⟩
  | 3, h1 =>
    have : c < 0x10000 := h1
    exact ⟨_, _, rfl, .inr (.inr (.inl ⟨by omega, by omega, rfl, _, _, _, rfl, by omega, by omega, by omega, by omega, by omega⟩))⟩
  | 4, h1 =>
    have : c < 0x200000 := h1
    exact ⟨_, _, rfl, .inr (.inr (.inr ⟨by omega, by omega, rfl, _, _, _, _, rfl, by omega, by omega, by omega, by omega, by omega,
      by omega, by omega⟩))⟩

/-- The value read: the value of the form that stands there, or the replacement character. -/
theorem utf8Head_spec {l : List Nat} (hb : ∀ u ∈ l, u < 256) {u : Nat} (hu : l.head? = some u) :
    (∃ c, hasForm (announced u) c ∧ utf8Form (announced u) c <+: l ∧ utf8Head l = some c) ∨
    ((∀ k c, hasForm k c → ¬ utf8Form k c <+: l) ∧ utf8Head l = some 0xFFFD) := by
  cases l with
  | nil => cases hu
  | cons u0 r =>
    simp only [List.head?_cons, Option.some.injEq] at hu
    subst hu
    have h0 : u0 < 256 := hb u0 (by simp)
    have hr : ∀ v ∈ r, v < 256 := fun v hv => hb v (by simp [hv])
    simp only [utf8Head, highBit_iff h0, utf8Trail_eq h0, announced]
    by_cases c1 : u0 < 0x80
    · left
      refine ⟨u0, ?_⟩
      simp only [c1, show u0 < 192 by omega, if_true, hasForm, utf8Form, and_true, true_and]
      exact ⟨r, rfl⟩
    rw [if_neg c1]
    by_cases c2 : u0 < 0xC0
    · right
      simp only [c2, if_true, and_true]
      rintro k c h1 h2
      obtain ⟨u, r', e, h⟩ := no_form h1 h2
      cases e
      omega
    by_cases c3 : u0 < 0xE0
    · simp only [c2, c3, if_true, if_false, Nat.one_ne_zero]
      match r, hr with
      | [], _ =>
        right
        refine ⟨?_, by simp⟩
        rintro k c h1 h2
        obtain ⟨u, r', e, h⟩ := no_form h1 h2
        cases e
        rcases h with h | ⟨_, _, _, v, _, e, _⟩ | h | h
        · omega
        · cases e
        · omega
        · omega
      | u1 :: r, hr =>
        have h1 : u1 < 256 := hr u1 (by simp)
        simp only [ne_eq, cont_iff h1, List.length_cons, show ¬ (1 ≥ r.length + 1 + 1) by omega, if_false]
        by_cases d1 : 0x80 ≤ u1 ∧ u1 < 0xC0
        · left
          rw [if_neg (by simp [d1])]
          have l1 := low5 ⟨u0 - 0xC0, by omega⟩
          simp only at l1
          rw [show 0xC0 + (u0 - 0xC0) = u0 by omega] at l1
          refine ⟨(u0 - 0xC0) * 64 + (u1 - 0x80), ?_, ?_, ?_⟩
          · show _ < 0x800; omega
          · refine ⟨r, ?_⟩
            simp only [utf8Form, List.cons_append, List.nil_append, List.cons.injEq, and_true]
            exact ⟨by omega, by omega⟩
          · rw [l1, cont_split d1, shift_or (by omega)]
        · right
          rw [if_pos d1]
          refine ⟨?_, rfl⟩
          rintro k c h1 h2
          obtain ⟨u, r', e, h⟩ := no_form h1 h2
          cases e
          rcases h with h | ⟨_, _, _, v, _, e, _⟩ | h | h
          · omega
          · cases e; omega
          · omega
          · omega
    by_cases c4 : u0 < 0xF0
    · simp only [c2, c3, c4, if_true, if_false, show ¬ (2 = 0) by omega]
      have fail : (¬ ∃ v w r', r = v :: w :: r' ∧ (0x80 ≤ v ∧ v < 0xC0) ∧ (0x80 ≤ w ∧ w < 0xC0)) →
          ∀ k c, hasForm k c → ¬ utf8Form k c <+: u0 :: r := by
        intro hn k c h1 h2
        obtain ⟨u, r', e, h⟩ := no_form h1 h2
        cases e
        rcases h with h | h | ⟨_, _, _, v, w, _, e, h3, h4, h5, h6, _⟩ | h
        · omega
        · omega
        · exact hn ⟨v, w, _, e, ⟨h3, h4⟩, h5, h6⟩
        · omega
      match r, hr, fail with
      | [], _, fail => exact .inr ⟨fail (by rintro ⟨_, _, _, e, _⟩; cases e), by simp⟩
      | [u1], _, fail => exact .inr ⟨fail (by rintro ⟨_, _, _, e, _⟩; cases e), by simp⟩
      | u1 :: u2 :: r, hr, fail =>
        have h1 : u1 < 256 := hr u1 (by simp)
        have h2 : u2 < 256 := hr u2 (by simp)
        simp only [ne_eq, cont_iff h1, cont_iff h2, List.length_cons, show ¬ (2 ≥ r.length + 1 + 1 + 1) by omega, if_false,
          show ¬ (2 = 1) by omega]
        by_cases d1 : 0x80 ≤ u1 ∧ u1 < 0xC0
        · rw [if_neg (by simp [d1])]
          by_cases d2 : 0x80 ≤ u2 ∧ u2 < 0xC0
          · left
            rw [if_neg (by simp [d2])]
            have l1 := low4 ⟨u0 - 0xE0, by omega⟩
            simp only at l1
            rw [show 0xE0 + (u0 - 0xE0) = u0 by omega] at l1
            refine ⟨((u0 - 0xE0) * 64 + (u1 - 0x80)) * 64 + (u2 - 0x80), ?_, ?_, ?_⟩
            · show _ < 0x10000; omega
            · refine ⟨r, ?_⟩
              simp only [utf8Form, List.cons_append, List.nil_append, List.cons.injEq, and_true]
              exact ⟨by omega, by omega, by omega⟩
            · rw [l1, cont_split d1, cont_split d2, shift_or (by omega), shift_or (by omega)]
          · right
            rw [if_pos d2]
            exact ⟨fail (by rintro ⟨_, _, _, e, _, h⟩; cases e; exact d2 h), rfl⟩
        · right
          rw [if_pos d1]
          exact ⟨fail (by rintro ⟨_, _, _, e, h, _⟩; cases e; exact d1 h), rfl⟩
    by_cases c5 : u0 < 0xF8
    · simp only [c2, c3, c4, c5, if_true, if_false, show ¬ (3 = 0) by omega]
      have fail : (¬ ∃ v w x r', r = v :: w :: x :: r' ∧ (0x80 ≤ v ∧ v < 0xC0) ∧ (0x80 ≤ w ∧ w < 0xC0) ∧ (0x80 ≤ x ∧ x < 0xC0)) →
          ∀ k c, hasForm k c → ¬ utf8Form k c <+: u0 :: r := by
        intro hn k c h1 h2
        obtain ⟨u, r', e, h⟩ := no_form h1 h2
        cases e
        rcases h with h | h | h | ⟨_, _, _, v, w, x, _, e, h3, h4, h5, h6, h7, h8, _⟩
        · omega
        · omega
        · omega
        · exact hn ⟨v, w, x, _, e, ⟨h3, h4⟩, ⟨h5, h6⟩, h7, h8⟩
      match r, hr, fail with
      | [], _, fail => exact .inr ⟨fail (by rintro ⟨_, _, _, _, e, _⟩; cases e), by simp⟩
      | [u1], _, fail => exact .inr ⟨fail (by rintro ⟨_, _, _, _, e, _⟩; cases e), by simp⟩
      | [u1, u2], _, fail => exact .inr ⟨fail (by rintro ⟨_, _, _, _, e, _⟩; cases e), by simp⟩
      | u1 :: u2 :: u3 :: r, hr, fail =>
        have h1 : u1 < 256 := hr u1 (by simp)
        have h2 : u2 < 256 := hr u2 (by simp)
        have h3 : u3 < 256 := hr u3 (by simp)
        simp only [ne_eq, cont_iff h1, cont_iff h2, cont_iff h3, List.length_cons, show ¬ (3 ≥ r.length + 1 + 1 + 1 + 1) by omega,
          if_false, show ¬ (3 = 1) by omega, show ¬ (3 = 2) by omega]
        by_cases d1 : 0x80 ≤ u1 ∧ u1 < 0xC0
        · rw [if_neg (by simp [d1])]
          by_cases d2 : 0x80 ≤ u2 ∧ u2 < 0xC0
          · rw [if_neg (by simp [d2])]
            by_cases d3 : 0x80 ≤ u3 ∧ u3 < 0xC0
            · left
              rw [if_neg (by simp [d3])]
              have l1 := low3 ⟨u0 - 0xF0, by omega⟩
              simp only at l1
              rw [show 0xF0 + (u0 - 0xF0) = u0 by omega] at l1
              refine ⟨(((u0 - 0xF0) * 64 + (u1 - 0x80)) * 64 + (u2 - 0x80)) * 64 + (u3 - 0x80), ?_, ?_, ?_⟩
              · show _ < 0x200000; omega
              · refine ⟨r, ?_⟩
                simp only [utf8Form, List.cons_append, List.nil_append, List.cons.injEq, and_true]
                exact ⟨by omega, by omega, by omega, by omega⟩
              · rw [l1, cont_split d1, cont_split d2, cont_split d3, shift_or (by omega), shift_or (by omega), shift_or (by omega)]
            · right
              rw [if_pos d3]
              exact ⟨fail (by rintro ⟨_, _, _, _, e, _, _, h⟩; cases e; exact d3 h), rfl⟩
          · right
            rw [if_pos d2]
            exact ⟨fail (by rintro ⟨_, _, _, _, e, _, h, _⟩; cases e; exact d2 h), rfl⟩
        · right
          rw [if_pos d1]
          exact ⟨fail (by rintro ⟨_, _, _, _, e, h, _⟩; cases e; exact d1 h), rfl⟩
    · right
      simp only [c2, c3, c4, c5, if_true, if_false, and_true]
      rintro k c h1 h2
      obtain ⟨u, r', e, h⟩ := no_form h1 h2
      cases e
      omega

theorem begins_unique {l : List Nat} {k c k' c' : Nat} (h : Begins l k c) (h' : Begins l k' c') : k = k' ∧ c = c' := by
  obtain ⟨u, r, e, h1⟩ := no_form h.1 h.2
  obtain ⟨u', r', e', h2⟩ := no_form h'.1 h'.2
  rw [e] at e'
  cases e'
  rcases h1 with ⟨_, _, _⟩ | ⟨_, _, _, v, t, e1, _⟩ | ⟨_, _, _, v, w, t, e1, _⟩ | ⟨_, _, _, v, w, x, t, e1, _⟩ <;>
  rcases h2 with ⟨_, _, _⟩ | ⟨_, _, _, v', t', e2, _⟩ | ⟨_, _, _, v', w', t', e2, _⟩ | ⟨_, _, _, v', w', x', t', e2, _⟩ <;>
  first
    | omega
    | (rw [e1] at e2; cases e2; omega)

theorem begins_announced {l : List Nat} {k c : Nat} (h : Begins l k c) : ∃ u t, l = u :: t ∧ k = announced u := by
  obtain ⟨u, r, e, h1⟩ := no_form h.1 h.2
  refine ⟨u, r, e, ?_⟩
  unfold announced
  rcases h1 with ⟨_, _, _⟩ | ⟨_, _, _, v, t, e1, _⟩ | ⟨_, _, _, v, w, t, e1, _⟩ | ⟨_, _, _, v, w, x, t, e1, _⟩ <;>
  repeat' split
  all_goals omega

theorem announced_pos (u : Nat) : 0 < announced u := by
  unfold announced
  repeat' split
  all_goals omega

theorem announced_eq {u : Nat} (h : u < 256) : utf8Trail u + 1 = announced u := by
  rw [utf8Trail_eq h]
  unfold announced
  repeat' split
  all_goals omega

/-- Every sequence of bytes is read in one way. -/
theorem decodes_exists : ∀ (n : Nat) (l : List Nat), l.length ≤ n → ∃ r, Decodes l r
  | 0, l, h => by
    have : l = [] := List.eq_nil_of_length_eq_zero (by omega)
    subst this
    exact ⟨_, .nil⟩
  | n + 1, l, h => by
    cases l with
    | nil => exact ⟨_, .nil⟩
    | cons u t =>
      have hp := announced_pos u
      obtain ⟨r, hr⟩ := decodes_exists n ((u :: t).drop (announced u)) (by
        simp only [List.length_drop, List.length_cons] at h ⊢; omega)
      by_cases hh : ∃ k c, Begins (u :: t) k c
      · obtain ⟨k, c, hb⟩ := hh
        obtain ⟨u', t', e, hk⟩ := begins_announced hb
        cases e
        exact ⟨_, .form hb (hk ▸ hr)⟩
      · exact ⟨_, .bad (fun k c hb => hh ⟨k, c, hb⟩) hr⟩

theorem decodes_unique {l : List Nat} {r r' : List (Nat × Nat)} (h : Decodes l r) (h' : Decodes l r') : r = r' := by
  induction h generalizing r' with
  | nil =>
    cases h' with
    | nil => rfl
    | form hb _ => obtain ⟨_, _, e, _⟩ := begins_announced hb; cases e
  | form hb _ ih =>
    cases h' with
    | nil => obtain ⟨_, _, e, _⟩ := begins_announced hb; cases e
    | form hb' hd =>
      obtain ⟨rfl, rfl⟩ := begins_unique hb hb'
      rw [ih hd]
    | bad hn _ => exact absurd hb (hn _ _)
  | bad hn _ ih =>
    cases h' with
    | form hb' _ => exact absurd hb' (hn _ _)
    | bad _ hd => rw [ih hd]

/-- One step of the iterator against one step of the reading. -/
theorem decodes_step {b : List Nat} (hb : ∀ u ∈ b, u < 256) {p : Nat} {r : List (Nat × Nat)} (h : Decodes (b.drop p) r) :
    (b.length ≤ p ∧ r = []) ∨
    (p < b.length ∧ ∃ c k r', r = (c, k) :: r' ∧ utf8Deref b p = some c ∧ utf8Next b p = some (p + k) ∧ 0 < k ∧
      Decodes (b.drop (p + k)) r') := by
  rcases Nat.lt_or_ge p b.length with hp | hp
  · right
    refine ⟨hp, ?_⟩
    have e := List.drop_eq_getElem_cons hp
    have hu : b[p] < 256 := hb _ (List.getElem_mem hp)
    have hn : utf8Next b p = some (p + announced b[p]) := by
      unfold utf8Next
      rw [List.getElem?_eq_getElem hp, Option.map_some, announced_eq hu]
    have hs := utf8Head_spec (l := b.drop p) (fun u hu => hb u (List.mem_of_mem_drop hu)) (u := b[p]) (by rw [e]; rfl)
    rw [← utf8Deref_drop hp] at hs
    generalize hl : b.drop p = l at h hs e
    cases h with
    | nil => cases e
    | @form _ k c r' hf hd =>
      obtain ⟨u', t', e', hk⟩ := begins_announced hf
      rw [e] at e'
      cases e'
      refine ⟨c, k, r', rfl, ?_, by rw [hn, hk], hk ▸ announced_pos _, ?_⟩
      · rcases hs with ⟨c', h1, h2, h3⟩ | ⟨h1, _⟩
        · rw [h3, (begins_unique ⟨h1, h2⟩ hf).2]
        · exact absurd hf.2 (h1 _ _ hf.1)
      · rw [← List.drop_drop, hl]; exact hd
    | @bad u t r' hno hd =>
      cases e
      refine ⟨_, _, r', rfl, ?_, hn, announced_pos _, ?_⟩
      · rcases hs with ⟨c', h1, h2, h3⟩ | ⟨_, h⟩
        · exact absurd ⟨h1, h2⟩ (hno _ _)
        · exact h
      · rw [← List.drop_drop, hl]; exact hd
  · left
    rw [List.drop_eq_nil_of_le hp] at h
    cases h with
    | nil => exact ⟨hp, rfl⟩
    | form hb _ => obtain ⟨_, _, e, _⟩ := begins_announced hb; cases e

theorem collect_decodes {b : List Nat} (hb : ∀ u ∈ b, u < 256) : ∀ (n p : Nat) (r : List (Nat × Nat)),
    Decodes (b.drop p) r → r.length < n → utf8Collect b n p = some (values r)
  | 0, _, _, _, h => by omega
  | n + 1, p, r, hd, h => by
    unfold utf8Collect
    rcases decodes_step hb hd with ⟨hp, rfl⟩ | ⟨hp, c, k, r', rfl, h1, h2, h3, h4⟩
    · rw [if_pos hp]; rfl
    · rw [if_neg (by omega), h1, h2]
      simp only [collect_decodes hb n (p + k) r' h4 (by simpa using h), Option.map_some]
      rfl

theorem decodes_length {l : List Nat} {r : List (Nat × Nat)} (h : Decodes l r) : r.length ≤ l.length := by
  induction h with
  | nil => simp
  | @form l k c r hb _ ih =>
    obtain ⟨u, t, e, hk⟩ := begins_announced hb
    have := announced_pos u
    subst e
    simp only [List.length_drop, List.length_cons] at ih ⊢
    omega
  | @bad u t r _ _ ih =>
    have := announced_pos u
    simp only [List.length_drop, List.length_cons] at ih ⊢
    omega

/-- The iterator stands at the offsets of the reading. -/
theorem decodes_pos {b : List Nat} (hb : ∀ u ∈ b, u < 256) {r : List (Nat × Nat)} (h : Decodes b r) (i : Nat) :
    utf8Pos b i = startOf r i ∧ Decodes (b.drop (utf8Pos b i)) (r.drop i) := by
  induction i with
  | zero => exact ⟨rfl, by simpa [utf8Pos] using h⟩
  | succ i ih =>
    obtain ⟨h1, h2⟩ := ih
    rcases decodes_step hb h2 with ⟨hp, hr⟩ | ⟨hp, c, k, r', hr, _, h3, _, h4⟩
    · have hl : r.length ≤ i := by simpa using hr
      have hn : utf8Next b (utf8Pos b i) = none := by
        unfold utf8Next
        rw [List.getElem?_eq_none hp]; rfl
      have e : utf8Pos b (i + 1) = utf8Pos b i := by simp [utf8Pos, hn]
      rw [e]
      refine ⟨?_, ?_⟩
      · rw [h1]
        unfold startOf
        rw [List.take_of_length_le hl, List.take_of_length_le (by omega)]
      · rw [List.drop_eq_nil_of_le (show r.length ≤ i + 1 by omega), ← hr]
        exact h2
    · have e : utf8Pos b (i + 1) = utf8Pos b i + k := by simp [utf8Pos, h3]
      have hi : i < r.length := by
        rcases Nat.lt_or_ge i r.length with h | h
        · exact h
        · rw [List.drop_eq_nil_of_le h] at hr; cases hr
      have hc := List.drop_eq_getElem_cons hi
      rw [hr] at hc
      injection hc with hc1 hc2
      rw [e]
      refine ⟨?_, by rw [← hc2]; exact h4⟩
      unfold startOf at h1 ⊢
      rw [List.take_succ_eq_append_getElem hi, List.map_append, List.sum_append, ← h1, ← hc1]
      simp

/-- The iterator walks over the values of the reading. -/
theorem decodes_walks {L : Bool} {b : List Nat} (hb : ∀ u ∈ b, u < 256) {r : List (Nat × Nat)} (h : Decodes b r) :
    Walks ⟨false, false, false, true⟩ (utf8Cursor L b) (codePoints (values r)) false (startOf r) := by
  have hlen : (codePoints (values r)).length = r.length := by simp [codePoints, values]
  have hpos := decodes_pos hb h
  have hmono : ∀ i j, i < j → j ≤ r.length → startOf r i < startOf r j := by
    intro i j hij hj
    induction j with
    | zero => omega
    | succ j ih =>
      have hs : startOf r j < startOf r (j + 1) := by
        obtain ⟨h1, h2⟩ := hpos j
        rcases decodes_step hb h2 with ⟨_, hr⟩ | ⟨_, c, k, r', hr, _, h3, hk, _⟩
        · have : r.length ≤ j := by simpa using hr
          omega
        · have e : utf8Pos b (j + 1) = utf8Pos b j + k := by simp [utf8Pos, h3]
          rw [← h1, ← (hpos (j + 1)).1]
          omega
      by_cases hij' : i = j
      · subst hij'; exact hs
      · have := ih (by omega) (by omega); omega
  have hend : ∀ i, i ≤ r.length → (b.length ≤ startOf r i ↔ i = r.length) := by
    intro i hi
    obtain ⟨h1, h2⟩ := hpos i
    rw [← h1]
    rcases decodes_step hb h2 with ⟨hp, hr⟩ | ⟨hp, c, k, r', hr, _⟩
    · have : r.length ≤ i := by simpa using hr
      exact ⟨fun _ => by omega, fun _ => hp⟩
    · refine ⟨fun h => by omega, fun h => ?_⟩
      rw [h, List.drop_length] at hr
      cases hr
  constructor
  · intro i j hi hj e
    rw [hlen] at hi hj
    rcases Nat.lt_trichotomy i j with hl | hl | hl
    · have := hmono i j hl hj; omega
    · exact hl
    · have := hmono j i hl hi; omega
  · rw [hlen]; exact decodes_length h
  · intro _ i hi
    rw [hlen] at hi
    simp only [utf8Cursor]
    congr 1
    refine decide_eq_decide.2 ⟨fun h => ?_, fun h => by rw [h]; rfl⟩
    rcases Nat.eq_zero_or_pos i with h0 | h0
    · exact h0
    · have := hmono 0 i h0 hi; omega
  · intro i hi
    rw [hlen] at hi ⊢
    simp only [utf8Cursor]
    congr 1
    exact decide_eq_decide.2 (hend i hi)
  · intro i v hv
    simp only [codePoints, values, List.getElem?_map, Option.map_eq_some_iff] at hv
    obtain ⟨_, ⟨⟨c, k⟩, hx, rfl⟩, rfl⟩ := hv
    obtain ⟨h1, h2⟩ := hpos i
    obtain ⟨hi, hx⟩ := List.getElem?_eq_some_iff.1 hx
    have hc := List.drop_eq_getElem_cons hi
    rw [hx] at hc
    rw [hc] at h2
    rcases decodes_step hb h2 with ⟨_, hr⟩ | ⟨_, c', k', r', hr, h3, _⟩
    · cases hr
    · cases hr
      rw [← h1]
      simp only [utf8Cursor, h3, Option.map_some]
      rfl
  · intro i hi
    rw [hlen] at hi
    obtain ⟨h1, h2⟩ := hpos i
    rcases decodes_step hb h2 with ⟨_, hr⟩ | ⟨_, c, k, r', hr, _, h3, _, _⟩
    · have : r.length ≤ i := by simpa using hr
      omega
    · have e : utf8Pos b (i + 1) = utf8Pos b i + k := by simp [utf8Pos, h3]
      rw [← (hpos (i + 1)).1, ← h1, e]
      exact h3
  · intro h; simp at h
  · intro h; simp at h
  · rfl
  · intro h; simp at h

end Ctre

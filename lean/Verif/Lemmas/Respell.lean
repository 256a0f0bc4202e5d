import Verif.Spec.Respell
import Verif.Lemmas.SurfaceFirm

/-
Different spellings have the same ways: `alike_ways`.
-/
namespace Ctre.Parse
open Surface
variable {E : Env}

/-! ### Modes -/

theorem item_modes {a : Atom} {q : Quant} {s : List Ch} (ha : ∀ {σ τ : MState}, τ ∈ a.ways true E s σ → τ.multiline = σ.multiline ∧ τ.caseless = σ.caseless)
    {σ τ : MState} (h : τ ∈ (Cat.one a q).ways true E s σ) : τ.multiline = σ.multiline ∧ τ.caseless = σ.caseless := by
  by_cases hq : q = .none
  · subst hq; simp only [Cat.ways] at h; exact ha h
  · rw [one_ways hq] at h
    obtain ⟨i, _, h'⟩ := mem_quantWays h
    generalize q.low + i = k at h'
    clear ha h
    induction h' with
    | zero => exact ⟨rfl, rfl⟩
    | succ h1 _ ih =>
      obtain ⟨z, hz, rfl⟩ := mem_iteration h1
      exact ih

mutual
theorem atom_modes {s : List Ch} : ∀ {a : Atom} {σ τ : MState}, a.hasMode = false → τ ∈ a.ways true E s σ →
    τ.multiline = σ.multiline ∧ τ.caseless = σ.caseless
  | .ch _, _, _, _, h | .cls _, _, _, _, h | .set _ _, _, _, _, h | .dot, _, _, _, h => by
    simp only [Atom.ways] at h
    obtain ⟨_, _, _, rfl⟩ := stepIf_mem h
    exact ⟨rfl, rfl⟩
  | .unknown _ _, _, _, _, h => by simp [Atom.ways] at h
  | .bol, _, _, _, h | .eol, _, _, _, h | .subjectBegin, _, _, _, h | .subjectEnd, _, _, _, h | .subjectEndLine, _, _, _, h
  | .wordBoundary, _, _, _, h | .notWordBoundary, _, _, _, h | .behind _ _, _, _, _, h => by
    simp only [Atom.ways] at h
    obtain ⟨_, rfl⟩ := stayIf_iff.1 h
    exact ⟨rfl, rfl⟩
  | .ref _, _, _, _, h | .refNumber _, _, _, _, h | .refRelative _ _, _, _, _, h => by
    simp only [Atom.ways] at h
    obtain ⟨_, _, _, _, _, _, rfl⟩ := mem_waysAgain h
    exact ⟨rfl, rfl⟩
  | .refName n, _, _, _, h => by
    simp only [Atom.ways] at h
    split at h
    · simp at h
    · obtain ⟨_, _, _, _, _, _, rfl⟩ := mem_waysAgain h
      exact ⟨rfl, rfl⟩
  | .cap _ b, _, _, hm, h | .named _ _ b, _, _, hm, h => by
    simp only [Atom.ways, List.mem_map] at h
    simp only [Atom.hasMode] at hm
    obtain ⟨ρ, h, rfl⟩ := h
    have := body_modes hm h
    exact this
  | .group b, _, _, hm, h => by
    simp only [Atom.ways] at h; simp only [Atom.hasMode] at hm; exact body_modes hm h
  | .ahead pos b, _, _, _, h => by
    simp only [Atom.ways] at h
    split at h <;> split at h <;> simp at h <;> subst h <;> exact ⟨rfl, rfl⟩
  | .atomic b, _, _, _, h => by
    simp only [Atom.ways] at h
    obtain ⟨z, hz, rfl⟩ := mem_iteration (List.mem_of_mem_take h)
    exact ⟨rfl, rfl⟩
  | .mode m, _, _, hm, _ => by simp [Atom.hasMode] at hm

theorem cat_modes {s : List Ch} : ∀ {c : Cat} {σ τ : MState}, c.hasMode = false → τ ∈ c.ways true E s σ →
    τ.multiline = σ.multiline ∧ τ.caseless = σ.caseless
  | .one a q, _, _, hm, h => by simp only [Cat.hasMode] at hm; exact item_modes (fun h => atom_modes hm h) h
  | .cons a q l, σ, _, hm, h => by
    simp only [Cat.hasMode, Bool.or_eq_false_iff] at hm
    rw [cons_ways] at h
    obtain ⟨ρ, h1, h2⟩ := List.mem_flatMap.1 h
    have h3 := item_modes (a := a) (fun h => atom_modes hm.1 h) h1
    have h4 := cat_modes hm.2 h2
    exact ⟨h4.1.trans h3.1, h4.2.trans h3.2⟩

theorem alt_modes {s : List Ch} : ∀ {l : Alt} {σ τ : MState}, l.hasMode = false → τ ∈ l.ways true E s σ →
    τ.multiline = σ.multiline ∧ τ.caseless = σ.caseless
  | .empty, _, _, _, h => by simp only [Alt.ways, List.mem_singleton] at h; subst h; exact ⟨rfl, rfl⟩
  | .one c, _, _, hm, h => by simp only [Alt.ways] at h; simp only [Alt.hasMode] at hm; exact cat_modes hm h
  | .bar c l, _, _, hm, h => by
    simp only [Alt.ways, List.mem_append] at h
    simp only [Alt.hasMode, Bool.or_eq_false_iff] at hm
    rcases h with h | h
    · exact cat_modes hm.1 h
    · exact alt_modes hm.2 h

theorem body_modes {s : List Ch} : ∀ {b : Body} {σ τ : MState}, b.hasMode = false → τ ∈ b.ways true E s σ →
    τ.multiline = σ.multiline ∧ τ.caseless = σ.caseless
  | .alt l, _, _, hm, h => by simp only [Body.ways] at h; simp only [Body.hasMode] at hm; exact alt_modes hm h
  | .lead l, _, _, hm, h => by
    simp only [Body.ways, List.mem_cons] at h
    simp only [Body.hasMode] at hm
    rcases h with rfl | h
    · exact ⟨rfl, rfl⟩
    · exact alt_modes hm h
end

/-- An iteration of a plain atom is the atom. -/
theorem plain_iteration {a : Atom} (ha : a.plain = true) {s : List Ch} {σ : MState} (hσ : σ.pos ≤ s.length) :
    iteration true (fun σ => a.ways true E s σ) σ = a.ways true E s σ := by
  simp only [Atom.plain, Bool.and_eq_true, Bool.not_eq_true'] at ha
  have h1 := atom_le (once := true) (E := E) ha.1.2 hσ
  rcases hT : a.ways true E s σ with _ | ⟨z, _ | ⟨w, T⟩⟩
  · simp [iteration, hT]
  · have hz : z ∈ a.ways true E s σ := by rw [hT]; simp
    have h2 := atom_lt ha.1.1 hσ hz
    have h3 := atom_modes ha.2 hz
    have h4 : z.pos ≠ σ.pos := by omega
    simp only [iteration, hT, if_true, List.filter_cons, List.filter_nil]
    simp [h4, ← h3.1, ← h3.2]
  · rw [hT] at h1; simp at h1

/-! ### Parts -/

/-- The ways of a part. -/
def Piece.ways (E : Env) (s : List Ch) : Piece → MState → List MState
  | .atom a, σ => a.ways true E s σ
  | .cat c, σ => c.ways true E s σ
  | .alt l, σ => l.ways true E s σ
  | .body b, σ => b.ways true E s σ

theorem piece_fwd {s : List Ch} : ∀ {x : Piece} {σ τ : MState}, τ ∈ Piece.ways E s x σ → MFwd s σ τ
  | .atom _, _, _, h => atom_fwd h
  | .cat _, _, _, h => cat_fwd h
  | .alt _, _, _, h => alt_fwd h
  | .body _, _, _, h => body_fwd h

theorem append_ways {s : List Ch} : ∀ {c d : Cat} {σ : MState},
    (c.append d).ways true E s σ = (c.ways true E s σ).flatMap fun ρ => d.ways true E s ρ
  | .one a q, d, σ => cons_ways
  | .cons a q l, d, σ => by
    rw [Cat.append, cons_ways, cons_ways, List.flatMap_assoc]
    exact flatMap_same fun ρ _ => append_ways

theorem bars_ways {s : List Ch} {σ : MState} : ∀ {cs : List Cat} {l : Alt},
    (bars cs l).ways true E s σ = (cs.flatMap fun c => c.ways true E s σ) ++ l.ways true E s σ
  | [], l => by simp [bars]
  | c :: cs, l => by simp [bars, Alt.ways, bars_ways (cs := cs)]

theorem grouped_ways {l : Alt} {s : List Ch} {σ : MState} : (grouped l).ways true E s σ = l.ways true E s σ := by
  simp only [grouped, Cat.ways, Atom.ways, Body.ways]

theorem extra_slack (q : Quant) (room : Nat) : q.extra room = q.slack.getD room := by
  cases q <;> rfl

theorem stepIf_congr {p p' : Ch → Bool} (h : ∀ v, p v = p' v) (s : List Ch) (σ : MState) : stepIf p s σ = stepIf p' s σ := by
  rw [show p = p' from funext h]

theorem exists_mem_append3 {l i m : List SetItem} {P : SetItem → Prop} :
    (∃ x ∈ l ++ i ++ m, P x) ↔ (∃ x ∈ l, P x) ∨ (∃ x ∈ i, P x) ∨ (∃ x ∈ m, P x) := by
  simp only [List.mem_append]
  constructor
  · rintro ⟨x, (h | h) | h, hp⟩
    · exact .inl ⟨x, h, hp⟩
    · exact .inr (.inl ⟨x, h, hp⟩)
    · exact .inr (.inr ⟨x, h, hp⟩)
  · rintro (⟨x, h, hp⟩ | ⟨x, h, hp⟩ | ⟨x, h, hp⟩)
    · exact ⟨x, .inl (.inl h), hp⟩
    · exact ⟨x, .inl (.inr h), hp⟩
    · exact ⟨x, .inr h, hp⟩

theorem sameItems_has {i i' : List SetItem} (h : SameItems i i') (U : Uni) (ci : Bool) (v : Ch) :
    (∃ x ∈ i, x.has U ci v) ↔ ∃ x ∈ i', x.has U ci v := by
  cases h with
  | char h => simp only [List.mem_singleton, exists_eq_left, SetItem.has, h]
  | range h h' => simp only [List.mem_singleton, exists_eq_left, SetItem.has, h, h']
  | digit h h' =>
    simp only [List.mem_singleton, exists_eq_left, SetItem.has, h, h', Cls.has, letterClass, digitChars]
    simp
  | word h1 h2 h3 h4 h5 h6 h7 =>
    simp only [List.mem_cons, List.not_mem_nil, or_false, exists_eq_or_imp, exists_eq_left, SetItem.has, h1, h2, h3, h4, h5, h6, h7, Cls.has,
      letterClass, wordChars]
    simp [CC.matchChar, CC.matchAny]
  | space h1 h2 h3 h4 h5 h6 =>
    simp only [List.mem_cons, List.not_mem_nil, or_false, exists_eq_or_imp, exists_eq_left, SetItem.has, h1, h2, h3, h4, h5, h6, Cls.has,
      letterClass, spaceChars]
    simp [CC.matchChar]
  | posixDigit | posixWord | posixSpace | posixNotDigit | posixNotWord | posixNotSpace =>
    simp only [List.mem_singleton, exists_eq_left, SetItem.has, Cls.has, letterClass, Posix.cls]
    simp
  | posixLower h h' | posixUpper h h' =>
    simp only [List.mem_singleton, exists_eq_left, SetItem.has, h, h', Posix.cls]
    simp
  | posixAlpha h1 h2 h3 h4 =>
    simp only [List.mem_cons, List.not_mem_nil, or_false, exists_eq_or_imp, exists_eq_left, SetItem.has, h1, h2, h3, h4, Posix.cls, alphaChars]
    simp [CC.matchChar, CC.matchAny]
  | posixAlnum =>
    simp only [List.mem_cons, List.not_mem_nil, or_false, exists_eq_or_imp, exists_eq_left, SetItem.has, Cls.has, letterClass, Posix.cls, alphaChars,
      alphanumChars, digitChars]
    simp [CC.matchChar, CC.matchAny, or_assoc]

theorem quantWays_congr {it it' : MState → List MState} {s : List Ch} (h : ∀ x : MState, x.pos ≤ s.length → it x = it' x)
    (hI : ∀ x y : MState, x.pos ≤ s.length → y ∈ it x → y.pos ≤ s.length) (q : Quant) (room : Nat) {σ : MState} (hσ : σ.pos ≤ s.length) :
    q.ways it room σ = q.ways it' room σ := by
  have h1 := times_congr (I := fun σ : MState => σ.pos ≤ s.length) h hI q.low σ hσ
  have hk : ∀ y ∈ times it q.low σ, y.pos ≤ s.length := fun y hy => times_keep (I := fun σ : MState => σ.pos ≤ s.length) hI hσ hy
  have hm : (times it q.low σ).flatMap (most it (q.extra room)) = (times it' q.low σ).flatMap (most it' (q.extra room)) := by
    rw [← h1]
    exact flatMap_same fun y hy => most_congr (I := fun σ : MState => σ.pos ≤ s.length) h hI _ y (hk y hy)
  have hf : (times it q.low σ).flatMap (fewest it (q.extra room)) = (times it' q.low σ).flatMap (fewest it' (q.extra room)) := by
    rw [← h1]
    exact flatMap_same fun y hy => fewest_congr (I := fun σ : MState => σ.pos ≤ s.length) h hI _ y (hk y hy)
  unfold Quant.ways
  split
  · exact hf
  · exact hm
  · rw [hm]

/-! ### Quantifiers -/

section quant
variable {it : MState → List MState} {s : List Ch}

theorem fixed_ways (h1 : ∀ x : MState, (it x).length ≤ 1) {q : Quant} (hq : q.slack = some 0) (room : Nat) (σ : MState) :
    q.ways it room σ = times it q.low σ := by
  have he : q.extra room = 0 := by rw [extra_slack, hq]; rfl
  have ht := length_times_le (I := fun _ => True) (fun x _ => h1 x) (fun _ _ _ _ => trivial) q.low σ trivial
  have hm : most it 0 = fun x => [x] := by funext x; rfl
  have hf : fewest it 0 = fun x => [x] := by funext x; rfl
  unfold Quant.ways
  rw [he, hm, hf]
  split
  · simp
  · simp
  · simpa using take_one_of ht

theorem split_ways (h1 : ∀ x : MState, (it x).length ≤ 1) {q q' : Quant} {n : Nat} (hl : q.low = n + q'.low) (hs : q.slack = q'.slack)
    (hk : q.kind = q'.kind) (room : Nat) (σ : MState) : q.ways it room σ = (times it n σ).flatMap (q'.ways it room) := by
  have ht := length_times_le (I := fun _ => True) (fun x _ => h1 x) (fun _ _ _ _ => trivial) n σ trivial
  have he : q.extra room = q'.extra room := by rw [extra_slack, extra_slack, hs]
  have hq : ∀ σ, q'.ways it room σ = match q'.kind with
      | .lazy => (times it q'.low σ).flatMap (fewest it (q'.extra room))
      | .greedy => (times it q'.low σ).flatMap (most it (q'.extra room))
      | .poss => ((times it q'.low σ).flatMap (most it (q'.extra room))).take 1 := fun _ => rfl
  have hq' : q'.ways it room = fun σ => match q'.kind with
      | .lazy => (times it q'.low σ).flatMap (fewest it (q'.extra room))
      | .greedy => (times it q'.low σ).flatMap (most it (q'.extra room))
      | .poss => ((times it q'.low σ).flatMap (most it (q'.extra room))).take 1 := funext hq
  rw [hq', Quant.ways, hk, he, hl, times_add]
  cases q'.kind with
  | lazy => simp only [List.flatMap_assoc]
  | greedy => simp only [List.flatMap_assoc]
  | poss =>
    simp only [List.flatMap_assoc]
    rcases hT : times it n σ with _ | ⟨z, _ | ⟨w, T⟩⟩
    · simp
    · simp
    · rw [hT] at ht; simp at ht

theorem join_ways (h1 : ∀ x : MState, (it x).length ≤ 1)
    (hI : ∀ x y : MState, x.pos ≤ s.length → y ∈ it x → y.pos ≤ s.length ∧ s.length - y.pos < s.length - x.pos)
    {p q q' : Quant} (hl : p.low = q.low + q'.low) (hs : p.slack = slackSum q.slack q'.slack) (hk : p.kind = q.kind) (hk' : p.kind = q'.kind)
    (hp : p.kind ≠ .poss) {σ : MState} (hσ : σ.pos ≤ s.length) :
    FirstSame ((q.ways it s.length σ).flatMap (q'.ways it s.length)) (p.ways it s.length σ) := by
  have hI' : ∀ x y : MState, x.pos ≤ s.length → y ∈ it x → y.pos ≤ s.length := fun x y hx hy => (hI x y hx hy).1
  have hsum : ∀ y : MState, y.pos ≤ s.length →
      most it (p.extra s.length) y = most it (q.extra s.length + q'.extra s.length) y ∧
      fewest it (p.extra s.length) y = fewest it (q.extra s.length + q'.extra s.length) y := by
    intro y hy
    rw [extra_slack, extra_slack, extra_slack, hs]
    have hr := fun n m (h1 : s.length - y.pos ≤ n) (h2 : s.length - y.pos ≤ m) =>
      And.intro (most_room (I := fun x : MState => x.pos ≤ s.length) (μ := fun x : MState => s.length - x.pos) hI n m y hy h1 h2)
        (fewest_room (I := fun x : MState => x.pos ≤ s.length) (μ := fun x : MState => s.length - x.pos) hI n m y hy h1 h2)
    cases q.slack <;> cases q'.slack <;> simp only [slackSum, Option.getD_some, Option.getD_none]
    · exact hr _ _ (by omega) (by omega)
    · exact hr _ _ (by omega) (by omega)
    · exact hr _ _ (by omega) (by omega)
    · exact ⟨trivial, trivial⟩
  have hflat : ∀ (F G : MState → List MState), (∀ y : MState, y.pos ≤ s.length → FirstSame (F y) (G y)) →
      FirstSame ((times it (q.low + q'.low) σ).flatMap F) ((times it (q.low + q'.low) σ).flatMap G) := by
    intro F G h
    exact (FirstSame.refl _).flatMap fun y hy => h y (times_keep (I := fun σ : MState => σ.pos ≤ s.length) hI' hσ hy)
  have h1' : ∀ x : MState, x.pos ≤ s.length → (it x).length ≤ 1 := fun x _ => h1 x
  cases hkk : p.kind with
  | poss => exact (hp hkk).elim
  | greedy =>
    have e1 : q.ways it s.length σ = (times it q.low σ).flatMap (most it (q.extra s.length)) := by rw [Quant.ways, ← hk, hkk]
    have e2 : q'.ways it s.length = fun σ => (times it q'.low σ).flatMap (most it (q'.extra s.length)) := by
      funext σ; rw [Quant.ways, ← hk', hkk]
    have e3 : p.ways it s.length σ = (times it p.low σ).flatMap (most it (p.extra s.length)) := by rw [Quant.ways, hkk]
    rw [e1, e2, e3, hl]
    have : ((times it q.low σ).flatMap (most it (q.extra s.length))).flatMap (fun y => (times it q'.low y).flatMap (most it (q'.extra s.length))) =
        (times it (q.low + q'.low) σ).flatMap fun y => (most it (q.extra s.length) y).flatMap (most it (q'.extra s.length)) := by
      rw [times_add]
      simp only [List.flatMap_assoc]
      refine flatMap_same fun y hy => ?_
      rw [← List.flatMap_assoc, most_times (I := fun σ : MState => σ.pos ≤ s.length) h1' hI' _ _ y
        (times_keep (I := fun σ : MState => σ.pos ≤ s.length) hI' hσ hy), List.flatMap_assoc]
    rw [this]
    refine hflat _ _ fun y hy => ?_
    rw [(hsum y hy).1]
    exact most_most _ _ y
  | lazy =>
    have e1 : q.ways it s.length σ = (times it q.low σ).flatMap (fewest it (q.extra s.length)) := by rw [Quant.ways, ← hk, hkk]
    have e2 : q'.ways it s.length = fun σ => (times it q'.low σ).flatMap (fewest it (q'.extra s.length)) := by
      funext σ; rw [Quant.ways, ← hk', hkk]
    have e3 : p.ways it s.length σ = (times it p.low σ).flatMap (fewest it (p.extra s.length)) := by rw [Quant.ways, hkk]
    rw [e1, e2, e3, hl]
    have : ((times it q.low σ).flatMap (fewest it (q.extra s.length))).flatMap (fun y => (times it q'.low y).flatMap (fewest it (q'.extra s.length))) =
        (times it (q.low + q'.low) σ).flatMap fun y => (fewest it (q.extra s.length) y).flatMap (fewest it (q'.extra s.length)) := by
      rw [times_add]
      simp only [List.flatMap_assoc]
      refine flatMap_same fun y hy => ?_
      rw [← List.flatMap_assoc, fewest_times (I := fun σ : MState => σ.pos ≤ s.length) h1' hI' _ _ y
        (times_keep (I := fun σ : MState => σ.pos ≤ s.length) hI' hσ hy), List.flatMap_assoc]
    rw [this]
    refine hflat _ _ fun y hy => ?_
    rw [(hsum y hy).2]
    exact fewest_fewest (I := fun σ : MState => σ.pos ≤ s.length) h1' hI' _ _ y hy
end quant

/-! ### Lookaround at single characters -/

theorem behind_step {p : Ch → Bool} {s : List Ch} {σ : MState} {b : Body} (pos : Bool)
    (hb : ∀ q, b.ways true E s { σ with pos := q } = stepIf p s { σ with pos := q }) :
    (Atom.behind pos b).ways true E s σ = stayIf (Decidable.decide (0 < σ.pos ∧ ∃ v, s[σ.pos - 1]? = some v ∧ p v = true) == pos) σ := by
  simp only [Atom.ways]
  congr 2
  rw [Bool.eq_iff_iff]
  simp only [List.any_eq_true, List.mem_range, decide_eq_true_eq, beq_iff_eq, hb]
  constructor
  · rintro ⟨q, hq, ρ, hρ, h⟩
    obtain ⟨v, h1, h2, rfl⟩ := stepIf_mem hρ
    simp only at h h1
    refine ⟨by omega, v, ?_, h2⟩
    rw [← h1]; congr 1; omega
  · rintro ⟨h0, v, h1, h2⟩
    refine ⟨σ.pos - 1, by omega, { σ with pos := σ.pos - 1 + 1 }, stepIf_iff.2 ⟨v, h1, h2, rfl⟩, ?_⟩
    show σ.pos - 1 + 1 = σ.pos
    omega

theorem ahead_step {p : Ch → Bool} {s : List Ch} {σ : MState} {b : Body} (pos : Bool) (hb : b.ways true E s σ = stepIf p s σ) :
    (Atom.ahead pos b).ways true E s σ = stayIf (Decidable.decide (∃ v, s[σ.pos]? = some v ∧ p v = true) == pos) σ := by
  simp only [Atom.ways, hb]
  by_cases h : ∃ v, s[σ.pos]? = some v ∧ p v = true
  · obtain ⟨v, h1, h2⟩ := h
    have : stepIf p s σ = [{ σ with pos := σ.pos + 1 }] := by simp [stepIf, h1, h2]
    rw [this]
    have : ∃ v, s[σ.pos]? = some v ∧ p v = true := ⟨v, h1, h2⟩
    cases pos <;> simp [stayIf, this]
  · have : stepIf p s σ = [] := by
      rw [List.eq_nil_iff_forall_not_mem]
      intro τ hτ
      obtain ⟨v, h1, h2, _⟩ := stepIf_mem hτ
      exact h ⟨v, h1, h2⟩
    rw [this]
    cases pos <;> simp [stayIf, h]

/-! ### All the laws -/

theorem word1_step {s : List Ch} {σ : MState} : (Body.alt (.one word1)).ways true E s σ =
    stepIf (fun v => wordChars.matchChar E.uni σ.caseless v) s σ := by
  simp only [word1, Body.ways, Alt.ways, Cat.ways, Atom.ways]
  exact stepIf_congr (fun v => by simp [Cls.has, letterClass]) s σ

theorem anyChar_step {s : List Ch} {σ : MState} : (Body.alt (.one anyChar)).ways true E s σ = stepIf (fun _ => true) s σ := by
  simp only [anyChar, Body.ways, Alt.ways, Cat.ways, Atom.ways]
  refine stepIf_congr (fun v => ?_) s σ
  simp only [List.mem_cons, List.not_mem_nil, or_false, exists_eq_or_imp, exists_eq_left, SetItem.has, Cls.has, letterClass]
  by_cases h : spaceChars.matchChar E.uni σ.caseless v = true <;> simp [h]

theorem optional_repeats {a : Atom} {k : RepKind} {s : List Ch} {σ : MState} : (Cat.one a (.opt k)).ways true E s σ =
    repeats (iteration true fun σ => a.ways true E s σ) k 0 1 s.length σ := by
  rw [one_ways (by simp)]
  cases k <;> simp [repeats, Quant.ways, Quant.kind, Quant.low, Quant.extra]

theorem possessive_ways {a : Atom} {s : List Ch} {σ : MState} (hσ : σ.pos ≤ s.length) :
    (Cat.one a (.plus .poss)).ways true E s σ =
      (iteration true (fun σ => (Cat.one a (.plus .greedy)).ways true E s σ) σ).take 1 := by
  have h : ∀ τ ∈ (Cat.one a (.plus .greedy)).ways true E s σ, τ.pos ≠ σ.pos ∧
      ({ τ with multiline := σ.multiline, caseless := σ.caseless } : MState) = τ := by
    intro τ hτ
    rw [one_ways (by simp)] at hτ
    obtain ⟨i, _, h⟩ := mem_quantWays hτ
    have hm : ∀ {k : Nat} {x y : MState}, Iterate (fun x y => y ∈ iteration true (fun σ => a.ways true E s σ) x) k x y →
        y.multiline = x.multiline ∧ y.caseless = x.caseless := by
      intro k x y h
      induction h with
      | zero => exact ⟨rfl, rfl⟩
      | succ h1 _ ih => obtain ⟨z, hz, rfl⟩ := mem_iteration h1; exact ih
    have hstep : ∀ u v : MState, v ∈ iteration true (fun σ => a.ways true E s σ) u → MFwd s u v := by
      intro u v huv
      obtain ⟨z, hz, rfl⟩ := mem_iteration huv
      exact (atom_fwd hz).of rfl rfl
    refine ⟨?_, by rw [← (hm h).1, ← (hm h).2]⟩
    rw [show (Quant.plus .greedy).low + i = i + 1 from Nat.add_comm 1 i] at h
    cases h with
    | succ h1 h2 =>
      have h3 := iteration_fwd (fun _ _ h => atom_fwd h) hσ h1
      have h4 := miterate_fwd hstep h2 h3.1
      omega
  have e : (Cat.one a (.plus .poss)).ways true E s σ = ((Cat.one a (.plus .greedy)).ways true E s σ).take 1 := by
    rw [one_ways (by simp), one_ways (by simp)]
    simp only [Quant.ways, Quant.kind, Quant.low, Quant.extra]
  rw [e]
  have hf : ((Cat.one a (.plus .greedy)).ways true E s σ).filter (fun ρ => Decidable.decide (ρ.pos ≠ σ.pos)) =
      (Cat.one a (.plus .greedy)).ways true E s σ := List.filter_eq_self.2 fun τ hτ => by simpa using (h τ hτ).1
  simp only [iteration, if_true]
  rw [hf]
  cases hL : (Cat.one a (.plus .greedy)).ways true E s σ with
  | nil => rfl
  | cons τ L =>
    have := (h τ (by rw [hL]; simp)).2
    simp [this]

theorem alike_ways {x y : Piece} (h : Alike x y) {s : List Ch} : ∀ {σ : MState}, σ.pos ≤ s.length →
    FirstSame (Piece.ways E s x σ) (Piece.ways E s y σ) := by
  induction h with
  | refl => intro σ _; exact .refl _
  | symm _ ih => intro σ hσ; exact (ih hσ).symm
  | trans _ _ ih ih' => intro σ hσ; exact (ih hσ).trans (ih' hσ)
  | cap _ ih | named _ ih =>
    intro σ hσ
    simp only [Piece.ways, Atom.ways] at ih ⊢
    exact (ih hσ).map _
  | group _ ih =>
    intro σ hσ
    simp only [Piece.ways, Atom.ways] at ih ⊢
    exact ih hσ
  | ahead _ ih =>
    rename_i b b' _
    intro σ hσ
    simp only [Piece.ways, Atom.ways] at ih ⊢
    have := (ih hσ).head
    cases h1 : b.ways true E s σ <;> cases h2 : b'.ways true E s σ <;> simp_all [FirstSame.refl]
  | behind _ ih =>
    rename_i b b' _
    intro σ hσ
    simp only [Piece.ways, Atom.ways] at ih ⊢
    refine .of_eq ?_
    congr 2
    rw [Bool.eq_iff_iff]
    simp only [List.any_eq_true, List.mem_range]
    constructor
    · rintro ⟨p, hp, ρ, h, e⟩
      exact ⟨p, hp, ρ, ((ih (σ := { σ with pos := p }) (by show p ≤ s.length; omega)).mem).1 h, e⟩
    · rintro ⟨p, hp, ρ, h, e⟩
      exact ⟨p, hp, ρ, ((ih (σ := { σ with pos := p }) (by show p ≤ s.length; omega)).mem).2 h, e⟩
  | atomic _ ih =>
    intro σ hσ
    simp only [Piece.ways, Atom.ways] at ih ⊢
    rw [iteration_congr (ih hσ)]
    exact .refl _
  | item _ ih =>
    rename_i a a' q _
    intro σ hσ
    simp only [Piece.ways] at ih ⊢
    by_cases hq : q = .none
    · subst hq; simp only [Cat.ways]; exact ih hσ
    · rw [one_ways hq, one_ways hq]
      exact .of_eq (quantWays_congr (fun x hx => iteration_congr (ih hx)) (atom_iteration_keep (once := true)) q _ hσ)
  | append _ _ ih ih' =>
    intro σ hσ
    simp only [Piece.ways] at ih ih' ⊢
    rw [append_ways, append_ways]
    exact (ih hσ).flatMap fun ρ hρ => ih' (cat_fwd hρ hσ).2
  | one _ ih => intro σ hσ; simp only [Piece.ways, Alt.ways] at ih ⊢; exact ih hσ
  | bar _ _ ih ih' => intro σ hσ; simp only [Piece.ways, Alt.ways] at ih ih' ⊢; exact (ih hσ).append (ih' hσ)
  | alt _ ih => intro σ hσ; simp only [Piece.ways, Body.ways] at ih ⊢; exact ih hσ
  | lead _ ih => intro σ hσ; simp only [Piece.ways, Body.ways] at ih ⊢; exact (FirstSame.refl [σ]).append (ih hσ)
  | char h => intro σ hσ; simp only [Piece.ways, Atom.ways, h]; exact .refl _
  | setChar =>
    intro σ hσ
    simp only [Piece.ways, Atom.ways]
    exact .of_eq (stepIf_congr (fun v => by simp [SetItem.has]) s σ)
  | setCls =>
    intro σ hσ
    simp only [Piece.ways, Atom.ways]
    exact .of_eq (stepIf_congr (fun v => by simp [SetItem.has]) s σ)
  | notCls h =>
    intro σ hσ
    simp only [Piece.ways, Atom.ways]
    refine .of_eq (stepIf_congr (fun v => ?_) s σ)
    simp only [List.mem_cons, List.not_mem_nil, or_false] at h
    rcases h with rfl | rfl | rfl | rfl | rfl <;> simp [SetItem.has, Cls.has, letterClass]
  | notProp =>
    intro σ hσ
    simp only [Piece.ways, Atom.ways]
    exact .of_eq (stepIf_congr (fun v => by simp [SetItem.has, Cls.has]) s σ)
  | notNewline h =>
    intro σ hσ
    simp only [Piece.ways, Atom.ways]
    exact .of_eq (stepIf_congr (fun v => by simp [SetItem.has, Cls.has, letterClass, h]) s σ)
  | setOrder h =>
    intro σ hσ
    simp only [Piece.ways, Atom.ways]
    refine .of_eq (stepIf_congr (fun v => ?_) s σ)
    congr 1
    simp only [h]
  | setItems h =>
    intro σ hσ
    simp only [Piece.ways, Atom.ways]
    refine .of_eq (stepIf_congr (fun v => ?_) s σ)
    congr 1
    simp only [decide_eq_decide]
    rw [exists_mem_append3, exists_mem_append3, sameItems_has h]
  | setUnion =>
    rename_i l m
    intro σ hσ
    simp only [Piece.ways, Atom.ways, Body.ways, Alt.ways, Cat.ways]
    have hu : ∀ (p p' : Ch → Bool), FirstSame (stepIf (fun v => p v || p' v) s σ) (stepIf p s σ ++ stepIf p' s σ) := by
      intro p p'
      unfold stepIf
      cases s[σ.pos]? with
      | none => exact .refl _
      | some v =>
        simp only
        by_cases h1 : p v = true <;> by_cases h2 : p' v = true <;> simp only [h1, h2, Bool.or_true, Bool.true_or, Bool.or_self, if_true, Bool.false_eq_true, if_false, List.append_nil, List.nil_append]
        · exact (FirstSame.drop_seen (L := [{ σ with pos := σ.pos + 1 }]) (M := [{ σ with pos := σ.pos + 1 }]) (fun x hx => hx) []).symm
        all_goals simp [FirstSame.refl]
    refine FirstSame.trans (.of_eq (stepIf_congr (fun v => ?_) s σ)) (hu _ _)
    simp only [List.mem_append, or_and_right, exists_or, Bool.bne_false]
    simp
  | groupAtom => intro σ hσ; simp only [Piece.ways, Atom.ways, Body.ways, Alt.ways, Cat.ways]; exact .refl _
  | groupCat => intro σ hσ; simp only [Piece.ways, grouped_ways, Alt.ways]; exact .refl _
  | groupAlt => intro σ hσ; simp only [Piece.ways, Alt.ways, grouped_ways]; exact .refl _
  | groupFirst =>
    intro σ hσ
    simp only [Piece.ways, Alt.ways, grouped_ways, bars_ways, List.append_assoc]
    exact .refl _
  | again h _ =>
    intro σ hσ
    simp only [Piece.ways, bars_ways, Alt.ways]
    exact FirstSame.drop_seen (fun τ hτ => List.mem_flatMap.2 ⟨_, h, hτ⟩) _
  | againLast h _ =>
    rename_i cs c d _
    intro σ hσ
    simp only [Piece.ways, bars_ways, Alt.ways]
    have := FirstSame.drop_seen (L := (cs.flatMap fun c => c.ways true E s σ) ++ d.ways true E s σ) (M := c.ways true E s σ) (fun τ hτ => by
      rcases List.mem_cons.1 h with rfl | h
      · exact List.mem_append_right _ hτ
      · exact List.mem_append_left _ (List.mem_flatMap.2 ⟨_, h, hτ⟩)) []
    simpa using this
  | after _ =>
    intro σ hσ
    simp only [Piece.ways, append_ways, grouped_ways, Alt.ways, List.flatMap_append]
    exact .refl _
  | before _ h =>
    rename_i c z l _
    intro σ hσ
    have hz := cat_le (once := true) (E := E) h hσ
    simp only [Piece.ways, append_ways, grouped_ways, Alt.ways]
    rcases hT : z.ways true E s σ with _ | ⟨w, _ | ⟨w', T⟩⟩
    · exact .refl _
    · simp [FirstSame.refl]
    · rw [hT] at hz; simp at hz
  | count h h' hl hs hk =>
    intro σ hσ
    simp only [Piece.ways]
    rw [one_ways h, one_ways h', Quant.ways, Quant.ways, hk, hl, extra_slack, extra_slack, hs]
    exact .refl _
  | fixed h h' hl hs hs' =>
    intro σ hσ
    simp only [Piece.ways]
    rw [one_ways h, one_ways h', fixed_ways (iteration_le _) hs, fixed_ways (iteration_le _) hs', hl]
    exact .refl _
  | split _ h h' hl hs hk =>
    rename_i a ds q q' _
    intro σ hσ
    simp only [Piece.ways]
    rw [cons_ways, one_ways h, one_ways (by simp), fixed_ways (iteration_le _) (q := .exactly ds) rfl, split_ways (iteration_le _) hl hs hk]
    exact .of_eq (flatMap_same fun ρ _ => (one_ways h').symm)
  | join _ h0 h h' hl hs hk hk' hp =>
    intro σ hσ
    simp only [Piece.ways]
    rw [cons_ways, one_ways h0, one_ways h]
    refine FirstSame.trans (.of_eq (flatMap_same fun ρ _ => one_ways h'))
      (join_ways (iteration_le _) (fun x y hx hy => iteration_fwd (fun _ _ h => atom_fwd h) hx hy) hl hs hk hk' hp hσ)
  | once ha hl hs =>
    rename_i a q
    intro σ hσ
    simp only [Piece.ways]
    by_cases hq : q = .none
    · subst hq; exact .refl _
    · rw [one_ways hq, fixed_ways (iteration_le _) hs, hl]
      have : times (iteration true fun σ => a.ways true E s σ) 1 σ = iteration true (fun σ => a.ways true E s σ) σ := by simp [times]
      rw [this, plain_iteration ha hσ]
      simp only [Cat.ways]
      exact .refl _
  | optional ha =>
    intro σ hσ
    simp only [Piece.ways, grouped_ways, Alt.ways]
    rw [one_ways (by simp)]
    simp only [Quant.ways, Quant.kind, Quant.low, Quant.extra, times, most, List.flatMap_cons, List.flatMap_nil, List.append_nil, plain_iteration ha hσ,
      Cat.ways]
    simp [FirstSame.refl]
  | lazyOptional ha =>
    intro σ hσ
    simp only [Piece.ways]
    rw [one_ways (by simp)]
    simp only [Quant.ways, Quant.kind, Quant.low, Quant.extra, times, fewest, List.flatMap_cons, List.flatMap_nil, List.append_nil, plain_iteration ha hσ,
      Cat.ways, Atom.ways, Body.ways, Alt.ways]
    simp [FirstSame.refl]
  | possessive _ =>
    intro σ hσ
    simp only [Piece.ways]
    rw [possessive_ways hσ]
    simp only [Cat.ways, Atom.ways, Body.ways, Alt.ways]
    exact .refl _
  | repeatOptional hq =>
    rename_i a k q
    intro σ hσ
    simp only [Piece.ways]
    rw [one_ways hq, one_ways hq]
    refine .of_eq (quantWays_congr (fun x hx => ?_) (atom_iteration_keep (once := true)) q _ hσ)
    have : (fun σ => (Atom.group (.alt (.one (.one a (.opt k))))).ways true E s σ) =
        fun σ => repeats (iteration true fun σ => a.ways true E s σ) k 0 1 s.length σ := by
      funext σ; rw [← optional_repeats]; simp only [Atom.ways, Body.ways, Alt.ways]
    rw [this]
    exact iteration_optional _ k _ x
  | boundary =>
    intro σ hσ
    have hA := fun pos => ahead_step (E := E) (p := fun v => wordChars.matchChar E.uni σ.caseless v) (s := s) (σ := σ) pos word1_step
    have hB := fun pos => behind_step (E := E) (p := fun v => wordChars.matchChar E.uni σ.caseless v) (s := s) (σ := σ) (b := .alt (.one word1)) pos
      (fun q => word1_step)
    have hS : ∀ (p q : Bool), (stayIf p σ).flatMap (fun ρ => stayIf q ρ) = stayIf (p && q) σ := by
      intro p q; cases p <;> cases q <;> rfl
    have hl : ∀ (pos pos' : Bool), (Cat.cons (.behind pos (.alt (.one word1))) .none (.one (.ahead pos' (.alt (.one word1))) .none)).ways true E s σ =
        stayIf ((Decidable.decide (0 < σ.pos ∧ ∃ v, s[σ.pos - 1]? = some v ∧ wordChars.matchChar E.uni σ.caseless v = true) == pos) &&
          (Decidable.decide (∃ v, s[σ.pos]? = some v ∧ wordChars.matchChar E.uni σ.caseless v = true) == pos')) σ := by
      intro pos pos'
      rw [Cat.ways, hB]
      generalize Decidable.decide (0 < σ.pos ∧ ∃ v, s[σ.pos - 1]? = some v ∧ wordChars.matchChar E.uni σ.caseless v = true) = B
      by_cases h : (B == pos) = true
      · simp only [h, stayIf, if_true, List.flatMap_cons, List.flatMap_nil, List.append_nil, Cat.ways, hA, Bool.true_and]
      · simp [h, stayIf]
    have hr : ∀ c d : Cat, Piece.ways E s (.atom (.group (.alt (.bar c (.one d))))) σ = c.ways true E s σ ++ d.ways true E s σ := by
      intro c d; simp only [Piece.ways, Atom.ways, Body.ways, Alt.ways]
    rw [hr, hl, hl]
    simp only [Piece.ways, Atom.ways]
    refine .of_eq ?_
    by_cases h1 : 0 < σ.pos ∧ ∃ v, s[σ.pos - 1]? = some v ∧ wordChars.matchChar E.uni σ.caseless v = true <;>
      by_cases h2 : ∃ v, s[σ.pos]? = some v ∧ wordChars.matchChar E.uni σ.caseless v = true <;>
      simp [h1, h2, stayIf, atBoundary, inClass]
  | subjectEnd =>
    intro σ hσ
    have := ahead_step (E := E) (s := s) (σ := σ) false anyChar_step
    simp only [Piece.ways]
    rw [this]
    simp only [Atom.ways]
    refine .of_eq (congrArg (fun p => stayIf p σ) ?_)
    by_cases h : σ.pos = s.length
    · have h' : s[σ.pos]? = none := List.getElem?_eq_none (by omega)
      simp [h]
    · have h' : σ.pos < s.length := by omega
      simp [h, h']
  | subjectBegin =>
    intro σ hσ
    have := behind_step (E := E) (p := fun _ => true) (s := s) (σ := σ) (b := .alt (.one anyChar)) false (fun q => anyChar_step)
    simp only [Piece.ways]
    rw [this]
    simp only [Atom.ways]
    refine .of_eq (congrArg (fun p => stayIf p σ) ?_)
    by_cases h : σ.pos = 0
    · simp [h]
    · have h' : σ.pos - 1 < s.length := by omega
      simp [h, h', Nat.pos_of_ne_zero h]

/-! ### Groups -/

mutual
theorem atom_noVisible : ∀ {a : Atom}, a.groups = 0 → a.visible = []
  | .cap _ b, h | .named _ _ b, h => by simp [Atom.groups] at h
  | .group b, h => by simp only [Atom.groups] at h; simp only [Atom.visible, body_noVisible h]
  | .ahead _ b, h => by simp only [Atom.groups] at h; simp only [Atom.visible, body_noVisible h]
  | .behind _ b, _ | .atomic b, _ => by simp only [Atom.visible]
  | .ch _, _ | .cls _, _ | .unknown _ _, _ | .set _ _, _ | .dot, _ | .bol, _ | .eol, _ | .subjectBegin, _ | .subjectEnd, _
  | .subjectEndLine, _ | .wordBoundary, _ | .notWordBoundary, _ | .ref _, _ | .refNumber _, _ | .refRelative _ _, _ | .refName _, _
  | .mode _, _ => by simp only [Atom.visible]

theorem cat_noVisible : ∀ {c : Cat}, c.groups = 0 → c.visible = []
  | .one a _, h => by simp only [Cat.groups] at h; simp only [Cat.visible, atom_noVisible h]
  | .cons a _ l, h => by
    simp only [Cat.groups] at h
    simp only [Cat.visible, atom_noVisible (a := a) (by omega), cat_noVisible (c := l) (by omega), List.append_nil]

theorem alt_noVisible : ∀ {l : Alt}, l.groups = 0 → l.visible = []
  | .empty, _ => by simp only [Alt.visible]
  | .one c, h => by simp only [Alt.groups] at h; simp only [Alt.visible, cat_noVisible h]
  | .bar c l, h => by
    simp only [Alt.groups] at h
    simp only [Alt.visible, cat_noVisible (c := c) (by omega), alt_noVisible (l := l) (by omega), List.append_nil]

theorem body_noVisible : ∀ {b : Body}, b.groups = 0 → b.visible = []
  | .alt l, h => by simp only [Body.groups] at h; simp only [Body.visible, alt_noVisible h]
  | .lead l, h => by simp only [Body.groups] at h; simp only [Body.visible, alt_noVisible h]
end

/-- The groups of a part. -/
def Piece.visible : Piece → List (Nat × Option (List Nat))
  | .atom a => a.visible
  | .cat c => c.visible
  | .alt l => l.visible
  | .body b => b.visible

theorem append_visible : ∀ {c d : Cat}, (c.append d).visible = c.visible ++ d.visible
  | .one a q, d => by simp only [Cat.append, Cat.visible]
  | .cons a q l, d => by simp only [Cat.append, Cat.visible, append_visible (c := l), List.append_assoc]

theorem bars_visible : ∀ {cs : List Cat} {l : Alt}, (bars cs l).visible = (cs.flatMap fun c => c.visible) ++ l.visible
  | [], l => by simp [bars]
  | c :: cs, l => by simp [bars, Alt.visible, bars_visible (cs := cs)]

/-- Different spellings have the same groups. -/
theorem alike_visible {x y : Piece} (h : Alike x y) : Piece.visible x = Piece.visible y := by
  induction h with
  | refl => rfl
  | symm _ ih => exact ih.symm
  | trans _ _ ih ih' => exact ih.trans ih'
  | cap _ ih | named _ ih | group _ ih | ahead _ ih => simp only [Piece.visible, Atom.visible] at ih ⊢; rw [ih]
  | behind _ ih | atomic _ ih => simp only [Piece.visible, Atom.visible]
  | item _ ih => simp only [Piece.visible, Cat.visible] at ih ⊢; exact ih
  | append _ _ ih ih' => simp only [Piece.visible, append_visible] at ih ih' ⊢; rw [ih, ih']
  | one _ ih => simp only [Piece.visible, Alt.visible] at ih ⊢; exact ih
  | bar _ _ ih ih' => simp only [Piece.visible, Alt.visible] at ih ih' ⊢; rw [ih, ih']
  | alt _ ih | lead _ ih => simp only [Piece.visible, Body.visible] at ih ⊢; exact ih
  | char | setChar | setCls | notCls | notProp | notNewline | setOrder | setItems => simp only [Piece.visible, Atom.visible]
  | setUnion => simp [Piece.visible, Atom.visible, Body.visible, Alt.visible, Cat.visible]
  | groupAtom => simp only [Piece.visible, Atom.visible, Body.visible, Alt.visible, Cat.visible]
  | groupCat | groupAlt => simp only [Piece.visible, grouped, Atom.visible, Body.visible, Alt.visible, Cat.visible]
  | groupFirst => simp [Piece.visible, grouped, Atom.visible, Body.visible, Alt.visible, Cat.visible, bars_visible]
  | again _ h => simp [Piece.visible, bars_visible, Alt.visible, cat_noVisible h]
  | againLast _ h => simp [Piece.visible, bars_visible, Alt.visible, cat_noVisible h]
  | after h =>
    simp [Piece.visible, append_visible, grouped, Atom.visible, Body.visible, Alt.visible, Cat.visible, cat_noVisible h]
  | before h _ =>
    simp [Piece.visible, append_visible, grouped, Atom.visible, Body.visible, Alt.visible, Cat.visible, cat_noVisible h]
  | count | fixed | once => simp only [Piece.visible, Cat.visible]
  | split h | join h => simp [Piece.visible, Cat.visible, atom_noVisible h]
  | optional => simp [Piece.visible, grouped, Atom.visible, Body.visible, Alt.visible, Cat.visible]
  | lazyOptional => simp [Piece.visible, Atom.visible, Body.visible, Alt.visible, Cat.visible]
  | possessive h => simp [Piece.visible, Atom.visible, Cat.visible, atom_noVisible h]
  | repeatOptional => simp only [Piece.visible, Atom.visible, Body.visible, Alt.visible, Cat.visible]
  | boundary => simp [Piece.visible, Atom.visible, Body.visible, Alt.visible, Cat.visible, word1]
  | subjectEnd => simp [Piece.visible, Atom.visible, Body.visible, Alt.visible, Cat.visible, anyChar]
  | subjectBegin => simp only [Piece.visible, Atom.visible]

end Ctre.Parse

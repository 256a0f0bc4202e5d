import Verif.Lemmas.PcreGramRun

/-
What the parser has read when it rejects can be completed.
-/
namespace Ctre.Parse

/-- Depth of a shortest derivation and the number of the production it begins with (computed by a script, checked below). -/
def rank : GNT → Nat × Nat
  | .start => (0, 1)
  | .optContent => (0, 0)
  | .content => (4, 0)
  | .contentInCapture => (0, 1)
  | .contentOrEmpty => (0, 1)
  | .content2 => (0, 1)
  | .string => (3, 0)
  | .string2 => (0, 1)
  | .stringInCapture => (3, 0)
  | .atomRepeat => (2, 0)
  | .atomRepeatInCapture => (2, 0)
  | .atom => (1, 0)
  | .atomInCapture => (1, 1)
  | .rept => (0, 0)
  | .mod => (0, 0)
  | .number => (1, 0)
  | .number2 => (0, 0)
  | .preblock => (2, 0)
  | .block => (1, 0)
  | .blockName => (1, 0)
  | .blockName2 => (0, 1)
  | .modeSwitch => (1, 0)
  | .modeSwitch2 => (0, 0)
  | .characterClass => (1, 1)
  | .set => (2, 0)
  | .set2a => (0, 1)
  | .set2b => (0, 1)
  | .classNamed => (1, 0)
  | .classNamedName => (0, 0)
  | .setitem => (1, 0)
  | .setitem2 => (1, 0)
  | .range => (0, 0)
  | .backslashRange => (0, 1)
  | .special => (0, 0)
  | .hexdecRepeat => (0, 1)
  | .backslashSet => (0, 0)
  | .backslash => (0, 0)
  | .propertyName => (1, 0)
  | .propertyName2 => (0, 1)
  | .propertyValue => (1, 0)
  | .propertyValue2 => (0, 1)
  | .character => (0, 0)
  | .characterInCapture => (1, 0)
  | .asserts => (0, 0)

def GSym.lower (k : Nat) : GSym → Bool
  | .chars l => l.any notOthers.contains
  | .nt z => Nat.blt (rank z).1 k
  | _ => true

def rankOk (x : GNT) : Bool :=
  match (prods x)[(rank x).2]? with
  | some p => p.all (GSym.lower (rank x).1)
  | none => false

theorem rank_ok (x : GNT) : rankOk x = true := by
  have h : allGNT.all rankOk = true := by decide +kernel
  exact List.all_eq_true.1 h x (by cases x <;> simp [allGNT])

theorem cls_hit {l : List Nat} (h : l.any notOthers.contains = true) : ∃ v, (ESym.g (.chars l)).hit (cls v) = true := by
  obtain ⟨v, h1, h2⟩ := List.any_eq_true.1 h
  exact ⟨v, by rw [cls_of_named h2]; simpa [ESym.hit] using h1⟩

theorem productive_list {k : Nat} (ih : ∀ x, (rank x).1 < k → ∃ y, DerE [.g (.nt x)] y) :
    ∀ {σ : List GSym}, σ.all (GSym.lower k) = true → ∃ y, DerE (σ.map .g) y := by
  intro σ
  induction σ with
  | nil => intro _; exact ⟨[], .nil⟩
  | cons s σ ihσ =>
    intro h
    simp only [List.all_cons, Bool.and_eq_true] at h
    obtain ⟨y, hy⟩ := ihσ h.2
    have : ∃ z, DerE [.g s] z := by
      cases s with
      | chars l => obtain ⟨v, hv⟩ := cls_hit h.1; exact ⟨_, .ch hv .nil⟩
      | other => exact ⟨[.ch 0], .ch (by decide +kernel) .nil⟩
      | nt x => exact ih x (by simpa [GSym.lower] using h.1)
      | act a => exact ⟨_, .act .nil⟩
    obtain ⟨z, hz⟩ := this
    exact ⟨z ++ y, hz.append hy⟩

theorem productive_nt : ∀ k x, (rank x).1 < k → ∃ y, DerE [.g (.nt x)] y := by
  intro k
  induction k with
  | zero => intro x h; omega
  | succ k ih =>
    intro x hx
    have h := rank_ok x
    unfold rankOk at h
    split at h
    · rename_i p hp
      have : p.all (GSym.lower k) = true := by
        refine List.all_eq_true.2 fun s hs => ?_
        have := List.all_eq_true.1 h s hs
        cases s with
        | nt z => simp only [GSym.lower, Nat.blt_eq] at this ⊢; omega
        | chars l => exact this
        | other => rfl
        | act a => rfl
      obtain ⟨y, hy⟩ := productive_list ih this
      exact ⟨y, .nt (List.mem_of_getElem? hp) (by simpa using hy)⟩
    · cases h

theorem productive {σ : List GSym} (h : σ.all (fun s => match s with | .chars l => l.any notOthers.contains | _ => true) = true) :
    ∃ y, DerE (σ.map .g) y := by
  have hb : ∀ x, (rank x).1 < 1000 := by intro x; cases x <;> decide +kernel
  refine productive_list (k := 1000) (productive_nt 1000) (List.all_eq_true.2 fun s hs => ?_)
  have := List.all_eq_true.1 h s hs
  cases s with
  | nt z => simpa [GSym.lower] using hb z
  | chars l => exact this
  | other => rfl
  | act a => rfl

/-- A symbol of the stack that is not an empty set. -/
def Sym.solid : Sym → Bool
  | .set l => !l.isEmpty
  | _ => true

theorem rules_solid (x : NT) : (rules x).all (fun p => match p.2 with | .push l => l.all Sym.solid | _ => true) = true :=
  forall_nt (q := fun x => (rules x).all fun p => match p.2 with | .push l => l.all Sym.solid | _ => true)
    (by decide +kernel) x

theorem mean_productive (x : NT) : ((mean x).head?.map fun p => p.all (fun s => match s with
    | .chars l => l.any notOthers.contains | _ => true)) = some true := by
  have := forall_nt (q := fun x => ((mean x).head?.map fun p => p.all (fun s => match s with
    | .chars l => l.any notOthers.contains | _ => true)) == some true) (by decide +kernel) x
  simpa using this

theorem genS_exists {s : Sym} (hg : s.good = true) (hs : s.solid = true) : ∃ y, GenS s y := by
  cases s with
  | nt x =>
    have h := mean_productive x
    simp only [Option.map_eq_some_iff] at h
    obtain ⟨p, hp, hp'⟩ := h
    obtain ⟨y, hy⟩ := productive hp'
    exact ⟨y, _, List.mem_map.2 ⟨p, List.mem_of_head? hp, rfl⟩, hy⟩
  | act a => exact ⟨_, genS_act.2 rfl⟩
  | any => exact ⟨[.ch 0], (genS_terminal rfl hg).2 ⟨0, rfl, rfl⟩⟩
  | term c => exact ⟨[.ch c], (genS_terminal rfl hg).2 ⟨c, by simp [Sym.reads], rfl⟩⟩
  | set l =>
    cases l with
    | nil => cases hs
    | cons c l => exact ⟨[.ch c], (genS_terminal rfl hg).2 ⟨c, by simp [Sym.reads], rfl⟩⟩

theorem genT_exists : ∀ {st : List Sym}, (∀ s ∈ st, s.good = true ∧ s.solid = true) → ∃ y, GenT st y := by
  intro st
  induction st with
  | nil => intro _; exact ⟨[], rfl⟩
  | cons s st ih =>
    intro h
    obtain ⟨y1, h1⟩ := genS_exists (h s (by simp)).1 (h s (by simp)).2
    obtain ⟨y2, h2⟩ := ih fun s hs => h s (by simp [hs])
    exact ⟨y1 ++ y2, y1, y2, rfl, h1, h2⟩

theorem solid_rule {x : NT} {v : Option Nat} {l : List Sym} (hl : pushOf x v = some l) :
    ∀ s ∈ l, s.good = true ∧ s.solid = true := by
  intro s hs
  refine ⟨good_rule hl s hs, ?_⟩
  unfold pushOf at hl
  split at hl
  · rename_i m hm
    cases hl
    rcases lookup_cases (v := v) (l := rules x) with h1 | ⟨p, r, h1, _, h3⟩
    · rw [rule, h1] at hm; cases hm
    · rw [rule, h3] at hm
      subst hm
      have := List.all_eq_true.1 (rules_solid x) _ h1
      exact List.all_eq_true.1 this s hs
  · cases hl; cases hs
  · cases hl

theorem reject_viable (P : PropTable) : ∀ {n prev inp st c rest}, decide P n prev inp st c = .reject rest →
    (∀ s ∈ st, s.good = true ∧ s.solid = true) → ∃ u w y, inp = u ++ rest ∧ GenT st y ∧ text y = u ++ w := by
  intro n
  induction n with
  | zero => intro prev inp st c rest h; cases h
  | succ n ih =>
    intro prev inp st c rest h hg
    have stop : inp = rest → ∃ u w y, inp = u ++ rest ∧ GenT st y ∧ text y = u ++ w := by
      rintro rfl
      obtain ⟨y, hy⟩ := genT_exists hg
      exact ⟨[], text y, y, rfl, hy, rfl⟩
    cases st with
    | nil =>
      cases inp with
      | nil => cases h
      | cons v inp => exact stop (by simpa [decide] using h)
    | cons s st =>
      have hg' : ∀ s ∈ st, s.good = true ∧ s.solid = true := fun s hs => hg s (by simp [hs])
      rcases terminal_cases s with ⟨x, rfl⟩ | ⟨a, rfl⟩ | ht
      · rw [decide_nt] at h
        split at h
        · rename_i l hl
          have hg2 := solid_rule hl
          obtain ⟨u, w, y, rfl, h1, h2⟩ := ih h (fun s hs => (List.mem_append.1 hs).elim (hg2 s) (hg' s))
          cases u with
          | nil => exact stop rfl
          | cons v u =>
            obtain ⟨y1, y2, rfl, h3, h4⟩ := genT_append.1 h1
            refine ⟨v :: u, w, _, rfl, ⟨y1, y2, rfl, ?_, h4⟩, h2⟩
            refine local_sound hl h3 ?_
            have := look_append (y1 := y1) (y2 := y2)
            rw [h2] at this
            exact this
        · exact stop (by simpa using h)
      · rw [decide_act] at h
        split at h
        · obtain ⟨u, w, y, rfl, h1, h2⟩ := ih h hg'
          exact ⟨u, w, .act a :: y, rfl, ⟨[.act a], y, rfl, genS_act.2 rfl, h1⟩, h2⟩
        · exact stop (by simpa using h)
        · cases h
      · rw [decide_terminal P n prev ht] at h
        cases inp with
        | nil => exact stop (by simpa using h)
        | cons v inp =>
          simp only at h
          split at h
          · rename_i hr
            obtain ⟨u, w, y, rfl, h1, h2⟩ := ih h hg'
            exact ⟨v :: u, w, .ch v :: y, rfl,
              ⟨[.ch v], y, rfl, (genS_terminal ht (hg s (by simp)).1).2 ⟨v, hr, rfl⟩, h1⟩, by simp [text, h2]⟩
          · exact stop (by simpa using h)

end Ctre.Parse

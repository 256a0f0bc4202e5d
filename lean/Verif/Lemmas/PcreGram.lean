import Verif.Lemmas.PcreGramData

/-
The LL(1) tables derive exactly what the grammar file derives.
-/
namespace Ctre.Parse

/-- The characters the grammar does not name are represented by 0. -/
def cls (v : Nat) : Nat := if notOthers.contains v then v else 0

def symbolsAll : List Nat := 0 :: notOthers

theorem cls_mem (v : Nat) : cls v ∈ symbolsAll := by
  unfold cls symbolsAll
  split
  · rename_i h
    exact List.mem_cons_of_mem _ (by simpa using h)
  · exact List.mem_cons_self

theorem named_all : named.all notOthers.contains = true ∧ notOthers.all named.contains = true ∧
    notOthers.contains 0 = false := by decide +kernel

theorem named_iff (v : Nat) : v ∈ named ↔ notOthers.contains v = true := by
  constructor
  · intro h
    exact List.all_eq_true.1 named_all.1 v h
  · intro h
    have := List.all_eq_true.1 named_all.2.1 v (by simpa using h)
    simpa using this

/-! ### Derivations with the symbol `anything` of the tables -/

/-- A symbol of the grammar or `anything`. -/
inductive ESym where
  | any
  | g (s : GSym)
deriving DecidableEq

/-- The symbol is a terminal that admits the class. -/
def ESym.hit (v : Nat) : ESym → Bool
  | .any => true
  | .g (.chars l) => l.contains v
  | .g .other => v == 0
  | .g _ => false

inductive DerE : List ESym → List Event → Prop
  | nil : DerE [] []
  | ch {e : ESym} {v : Nat} {σ : List ESym} {y : List Event} : e.hit (cls v) = true → DerE σ y → DerE (e :: σ) (.ch v :: y)
  | act {a : Act} {σ : List ESym} {y : List Event} : DerE σ y → DerE (.g (.act a) :: σ) (.act a :: y)
  | nt {x : GNT} {p : List GSym} {σ : List ESym} {y : List Event} : p ∈ prods x → DerE (p.map .g ++ σ) y →
      DerE (.g (.nt x) :: σ) y

theorem DerE.append {φ ψ : List ESym} {y z : List Event} (h : DerE φ y) (h' : DerE ψ z) : DerE (φ ++ ψ) (y ++ z) := by
  induction h with
  | nil => exact h'
  | ch h1 _ ih => exact .ch h1 ih
  | act _ ih => exact .act ih
  | nt h1 _ ih => exact .nt h1 (by rw [List.append_assoc] at ih; exact ih)

theorem DerE.split {φ ψ : List ESym} {y : List Event} (h : DerE (φ ++ ψ) y) :
    ∃ y1 y2, y = y1 ++ y2 ∧ DerE φ y1 ∧ DerE ψ y2 := by
  generalize hχ : φ ++ ψ = χ at h
  induction h generalizing φ with
  | nil =>
    obtain ⟨rfl, rfl⟩ := List.append_eq_nil_iff.1 hχ
    exact ⟨[], [], rfl, .nil, .nil⟩
  | ch h1 h2 ih =>
    cases φ with
    | nil => simp only [List.nil_append] at hχ; exact ⟨[], _, rfl, .nil, hχ ▸ .ch h1 h2⟩
    | cons e φ =>
      simp only [List.cons_append, List.cons.injEq] at hχ
      obtain ⟨rfl, hχ⟩ := hχ
      obtain ⟨y1, y2, rfl, h3, h4⟩ := ih hχ
      exact ⟨_ :: y1, y2, rfl, .ch h1 h3, h4⟩
  | act h2 ih =>
    cases φ with
    | nil => simp only [List.nil_append] at hχ; exact ⟨[], _, rfl, .nil, hχ ▸ .act h2⟩
    | cons e φ =>
      simp only [List.cons_append, List.cons.injEq] at hχ
      obtain ⟨rfl, hχ⟩ := hχ
      obtain ⟨y1, y2, rfl, h3, h4⟩ := ih hχ
      exact ⟨_ :: y1, y2, rfl, .act h3, h4⟩
  | nt h1 h2 ih =>
    cases φ with
    | nil => simp only [List.nil_append] at hχ; exact ⟨[], _, rfl, .nil, hχ ▸ .nt h1 h2⟩
    | cons e φ =>
      simp only [List.cons_append, List.cons.injEq] at hχ
      obtain ⟨rfl, hχ⟩ := hχ
      obtain ⟨y1, y2, rfl, h3, h4⟩ := ih (φ := _ ++ φ) (by rw [List.append_assoc, hχ])
      exact ⟨y1, y2, rfl, .nt h1 h3, h4⟩

/-- Every character of the list is named. -/
def GSym.good (s : GSym) : Bool := s.named.all notOthers.contains

theorem prods_good (x : GNT) {p : List GSym} (hp : p ∈ prods x) : ∀ s ∈ p, s.good = true := by
  intro s hs
  refine List.all_eq_true.2 fun v hv => ?_
  refine (named_iff v).1 ?_
  refine List.mem_flatMap.2 ⟨x, by cases x <;> simp [allGNT], List.mem_flatMap.2 ⟨p, hp, List.mem_flatMap.2 ⟨s, hs, hv⟩⟩⟩

theorem hit_chars {l : List Nat} (hl : (GSym.chars l).good = true) (v : Nat) :
    (ESym.g (.chars l)).hit (cls v) = true ↔ v ∈ l := by
  unfold cls ESym.hit
  have h := List.all_eq_true.1 hl
  simp only [GSym.named] at h
  by_cases hv : notOthers.contains v = true
  · rw [if_pos hv]; simp
  · rw [if_neg hv]
    constructor
    · intro h0
      have := h 0 (by simpa using h0)
      rw [named_all.2.2] at this
      cases this
    · intro hm
      exact (hv (h v hm)).elim

theorem hit_other (v : Nat) : (ESym.g .other).hit (cls v) = true ↔ v ∉ named := by
  rw [named_iff]
  unfold cls ESym.hit
  by_cases hv : notOthers.contains v = true
  · rw [if_pos hv]
    simp only [beq_iff_eq, hv, not_true, iff_false]
    rintro rfl
    rw [named_all.2.2] at hv
    cases hv
  · rw [if_neg hv]
    simpa using hv

theorem derives_iff {σ : List GSym} {y : List Event} (hσ : ∀ s ∈ σ, s.good = true) : Derives σ y ↔ DerE (σ.map .g) y := by
  constructor
  · intro h
    induction h with
    | nil => exact .nil
    | chars h1 _ ih =>
      exact .ch ((hit_chars (hσ _ (by simp)) _).2 h1) (ih fun s hs => hσ s (by simp [hs]))
    | other h1 _ ih => exact .ch ((hit_other _).2 h1) (ih fun s hs => hσ s (by simp [hs]))
    | act _ ih => exact .act (ih fun s hs => hσ s (by simp [hs]))
    | nt h1 _ ih =>
      refine .nt h1 ?_
      rw [← List.map_append]
      refine ih fun s hs => ?_
      rcases List.mem_append.1 hs with h | h
      · exact prods_good _ h1 s h
      · exact hσ s (by simp [h])
  · intro h
    generalize hφ : σ.map ESym.g = φ at h
    induction h generalizing σ with
    | nil =>
      have : σ = [] := by simpa using hφ
      subst this
      exact .nil
    | ch h1 _ ih =>
      obtain ⟨s, τ, rfl, h3, h4⟩ := List.map_eq_cons_iff.1 hφ
      subst h3
      have h5 := ih (fun s hs => hσ s (by simp [hs])) h4
      cases s with
      | chars l => exact .chars ((hit_chars (hσ _ (by simp)) _).1 h1) h5
      | other => exact .other ((hit_other _).1 h1) h5
      | nt x => cases h1
      | act a => cases h1
    | act _ ih =>
      obtain ⟨s, τ, rfl, h3, h4⟩ := List.map_eq_cons_iff.1 hφ
      cases h3
      exact .act (ih (fun s hs => hσ s (by simp [hs])) h4)
    | nt h1 _ ih =>
      obtain ⟨s, τ, rfl, h3, h4⟩ := List.map_eq_cons_iff.1 hφ
      cases h3
      refine .nt h1 (ih (fun s hs => ?_) (by rw [List.map_append, h4]))
      rcases List.mem_append.1 hs with h | h
      · exact prods_good _ h1 s h
      · exact hσ s (by simp [h])

/-! ### Text -/

theorem text_append (y z : List Event) : text (y ++ z) = text y ++ text z := by
  induction y with
  | nil => rfl
  | cons e y ih => cases e <;> simp [text, ih]

def acts (l : List Act) : List Event := l.map .act

theorem text_acts (l : List Act) : text (acts l) = [] := by
  induction l with
  | nil => rfl
  | cons a l ih => exact ih

/-- The class of the next character. -/
def look (t : List Nat) : Option Nat := t.head?.map cls

/-! ### Expansion of the first nonterminals -/

/-- What a list of symbols can begin with, when the next character is of the class `v`: actions followed by this character and
the remaining symbols, or actions only.  `none`: not enough depth. -/
def expand : Nat → Option Nat → List ESym → Option (List (List Act × Option (List ESym)))
  | 0, _, _ => none
  | _ + 1, _, [] => some [([], none)]
  | d + 1, v, .g (.act a) :: σ => (expand d v σ).map (List.map fun p => (a :: p.1, p.2))
  | d + 1, v, .g (.nt x) :: σ =>
    (prods x).foldr (fun p acc =>
      match expand d v (p.map .g ++ σ), acc with
      | some l, some m => some (l ++ m)
      | _, _ => none) (some [])
  | _ + 1, v, e :: σ =>
    match v with
    | some w => some (if e.hit w then [([], some σ)] else [])
    | none => some []

theorem foldr_expand {d : Nat} {v : Option Nat} {σ : List ESym} : ∀ {ps : List (List GSym)} {L},
    ps.foldr (fun p acc =>
      match expand d v (p.map .g ++ σ), acc with
      | some l, some m => some (l ++ m)
      | _, _ => none) (some []) = some L →
    ∀ q, q ∈ L ↔ ∃ p ∈ ps, ∃ M, expand d v (p.map .g ++ σ) = some M ∧ q ∈ M := by
  intro ps
  induction ps with
  | nil => intro L h q; simp only [List.foldr_nil, Option.some.injEq] at h; subst h; simp
  | cons p ps ih =>
    intro L h q
    simp only [List.foldr_cons] at h
    split at h
    · rename_i l m h1 h2
      simp only [Option.some.injEq] at h
      subst h
      rw [List.mem_append, ih h2 q]
      constructor
      · rintro (h | ⟨p', h3, h4⟩)
        · exact ⟨p, by simp, l, h1, h⟩
        · exact ⟨p', by simp [h3], h4⟩
      · rintro ⟨p', h3, M, h4, h5⟩
        rcases List.mem_cons.1 h3 with rfl | h3
        · rw [h1] at h4; cases h4; exact .inl h5
        · exact .inr ⟨p', h3, M, h4, h5⟩
    · cases h

theorem foldr_expand_mem {d : Nat} {v : Option Nat} {σ : List ESym} : ∀ {ps : List (List GSym)} {L},
    ps.foldr (fun p acc =>
      match expand d v (p.map .g ++ σ), acc with
      | some l, some m => some (l ++ m)
      | _, _ => none) (some []) = some L →
    ∀ p ∈ ps, ∃ M, expand d v (p.map .g ++ σ) = some M := by
  intro ps
  induction ps with
  | nil => intro L _ p hp; simp at hp
  | cons p ps ih =>
    intro L h q hq
    simp only [List.foldr_cons] at h
    split at h
    · rename_i l m h1 h2
      rcases List.mem_cons.1 hq with rfl | h3
      · exact ⟨l, h1⟩
      · exact ih h2 q h3
    · cases h

/-- `y` is described by an entry of an expansion for lookahead `v`. -/
def Entry (v : Option Nat) (q : List Act × Option (List ESym)) (y : List Event) : Prop :=
  match q.2 with
  | some ρ => ∃ w z, some (cls w) = v ∧ y = acts q.1 ++ .ch w :: z ∧ DerE ρ z
  | none => y = acts q.1

theorem Entry.cons {v : Option Nat} {q : List Act × Option (List ESym)} {y : List Event} (h : Entry v q y) (a : Act) :
    Entry v (a :: q.1, q.2) (.act a :: y) := by
  unfold Entry at h ⊢
  cases hq : q.2 with
  | none => rw [hq] at h; simp only at h ⊢; rw [h]; rfl
  | some ρ =>
    rw [hq] at h
    simp only at h ⊢
    obtain ⟨w, z, h1, rfl, h2⟩ := h
    exact ⟨w, z, h1, rfl, h2⟩

/-- The condition that `v` is the next character if any is read. -/
def Fits' (v : Option Nat) (y : List Event) : Prop := text y = [] ∨ look (text y) = v

theorem expand_complete {v : Option Nat} : ∀ {d : Nat} {φ : List ESym} {L}, expand d v φ = some L → ∀ {y}, DerE φ y →
    Fits' v y → ∃ q ∈ L, Entry v q y := by
  intro d
  induction d with
  | zero => intro φ L h; simp [expand] at h
  | succ d ih =>
    intro φ L h y hy hv
    cases hy with
    | nil =>
      simp only [expand, Option.some.injEq] at h
      subst h
      exact ⟨([], none), by simp, rfl⟩
    | act hy =>
      simp only [expand, Option.map_eq_some_iff] at h
      obtain ⟨M, h1, rfl⟩ := h
      obtain ⟨q, h2, h3⟩ := ih h1 hy hv
      exact ⟨_, List.mem_map.2 ⟨q, h2, rfl⟩, h3.cons _⟩
    | nt hp hy =>
      simp only [expand] at h
      obtain ⟨M, h1⟩ := foldr_expand_mem h _ hp
      obtain ⟨q, h2, h3⟩ := ih h1 hy hv
      exact ⟨q, (foldr_expand h q).2 ⟨_, hp, M, h1, h2⟩, h3⟩
    | @ch e w σ z h1 hy =>
      have hv' : some (cls w) = v := by
        rcases hv with hv | hv
        · simp [text] at hv
        · simpa [text, look] using hv
      subst hv'
      have : L = [([], some σ)] := by
        cases e with
        | any => simpa [expand, ESym.hit] using h.symm
        | g s =>
          cases s with
          | chars l => simpa [expand, h1] using h.symm
          | other => simpa [expand, h1] using h.symm
          | nt x => cases h1
          | act a => cases h1
      subst this
      exact ⟨([], some σ), by simp, w, z, rfl, rfl, hy⟩

theorem expand_leaf {v : Option Nat} {e : ESym} {σ : List ESym} {L : List (List Act × Option (List ESym))} (h : (match v with
    | some w => some (if e.hit w then [([], some σ)] else [])
    | none => some []) = some L) {q : List Act × Option (List ESym)} (hq : q ∈ L) {y : List Event} (hy : Entry v q y) :
    DerE (e :: σ) y := by
  cases v with
  | none => simp only [Option.some.injEq] at h; subst h; simp at hq
  | some w =>
    simp only [Option.some.injEq] at h
    subst h
    split at hq
    · rename_i hit
      simp only [List.mem_singleton] at hq
      subst hq
      obtain ⟨w', z, h1, rfl, h2⟩ := hy
      simp only [Option.some.injEq] at h1
      subst h1
      exact .ch hit h2
    · simp at hq

theorem expand_sound {v : Option Nat} : ∀ {d : Nat} {φ : List ESym} {L}, expand d v φ = some L → ∀ {q}, q ∈ L →
    ∀ {y}, Entry v q y → DerE φ y := by
  intro d
  induction d with
  | zero => intro φ L h; simp [expand] at h
  | succ d ih =>
    intro φ L h q hq y hy
    cases φ with
    | nil =>
      simp only [expand, Option.some.injEq] at h
      subst h
      simp only [List.mem_singleton] at hq
      subst hq
      have hy : y = [] := hy
      subst hy
      exact .nil
    | cons e σ =>
      cases e with
      | any => exact expand_leaf h hq hy
      | g s =>
        cases s with
        | chars l => exact expand_leaf h hq hy
        | other => exact expand_leaf h hq hy
        | act a =>
          simp only [expand, Option.map_eq_some_iff] at h
          obtain ⟨M, h1, rfl⟩ := h
          obtain ⟨p, hp, rfl⟩ := List.mem_map.1 hq
          unfold Entry at hy
          cases hp2 : p.2 with
          | none =>
            rw [hp2] at hy
            simp only at hy
            subst hy
            exact .act (ih (y := acts p.1) h1 hp (by unfold Entry; rw [hp2]))
          | some ρ =>
            rw [hp2] at hy
            simp only at hy
            obtain ⟨w, z, h2, rfl, h3⟩ := hy
            exact .act (ih h1 hp (by unfold Entry; rw [hp2]; exact ⟨w, z, h2, rfl, h3⟩))
        | nt x =>
          simp only [expand] at h
          obtain ⟨p, hp, M, h1, h2⟩ := (foldr_expand h q).1 hq
          exact .nt hp (ih h1 h2 hy)

/-! ### What the stack of the parser stands for -/

/-- The same characters in increasing order. -/
def canon (l : List Nat) : List Nat := (List.range 128).filter l.contains

def alts : Sym → List (List ESym)
  | .nt x => (mean x).map (List.map .g)
  | .act a => [[.g (.act a)]]
  | .any => [[.any]]
  | .term c => [[.g (.chars [c])]]
  | .set l => [[.g (.chars (canon l))]]

def forms : List Sym → List (List ESym)
  | [] => [[]]
  | s :: st => (alts s).flatMap fun a => (forms st).map fun b => a ++ b

def GenS (s : Sym) (y : List Event) : Prop := ∃ φ ∈ alts s, DerE φ y

def GenT : List Sym → List Event → Prop
  | [], y => y = []
  | s :: st, y => ∃ y1 y2, y = y1 ++ y2 ∧ GenS s y1 ∧ GenT st y2

theorem genT_append {l st : List Sym} {y : List Event} :
    GenT (l ++ st) y ↔ ∃ y1 y2, y = y1 ++ y2 ∧ GenT l y1 ∧ GenT st y2 := by
  induction l generalizing y with
  | nil =>
    constructor
    · intro h; exact ⟨[], y, rfl, rfl, h⟩
    · rintro ⟨_, y2, rfl, rfl, h⟩; exact h
  | cons s l ih =>
    constructor
    · rintro ⟨a, b, rfl, h1, h2⟩
      obtain ⟨b1, b2, rfl, h3, h4⟩ := ih.1 h2
      exact ⟨a ++ b1, b2, by simp, ⟨a, b1, rfl, h1, h3⟩, h4⟩
    · rintro ⟨_, y2, rfl, ⟨a, b, rfl, h1, h2⟩, h3⟩
      exact ⟨a, b ++ y2, by simp, h1, ih.2 ⟨b, y2, rfl, h2, h3⟩⟩

theorem genT_forms {l : List Sym} {y : List Event} : GenT l y ↔ ∃ φ ∈ forms l, DerE φ y := by
  induction l generalizing y with
  | nil =>
    constructor
    · rintro rfl; exact ⟨[], by simp [forms], .nil⟩
    · rintro ⟨φ, h, h1⟩
      simp only [forms, List.mem_singleton] at h
      subst h
      cases h1
      rfl
  | cons s l ih =>
    constructor
    · rintro ⟨a, b, rfl, ⟨φ, h1, h2⟩, h3⟩
      obtain ⟨ψ, h4, h5⟩ := ih.1 h3
      exact ⟨φ ++ ψ, List.mem_flatMap.2 ⟨φ, h1, List.mem_map.2 ⟨ψ, h4, rfl⟩⟩, h2.append h5⟩
    · rintro ⟨χ, h, h1⟩
      obtain ⟨φ, h2, h3⟩ := List.mem_flatMap.1 h
      obtain ⟨ψ, h4, rfl⟩ := List.mem_map.1 h3
      obtain ⟨a, b, rfl, h5, h6⟩ := h1.split
      exact ⟨a, b, rfl, ⟨φ, h2, h5⟩, ih.2 ⟨ψ, h4, h6⟩⟩

/-! ### The checks -/

def expandAll (d : Nat) (v : Option Nat) (φs : List (List ESym)) : Option (List (List Act × Option (List ESym))) :=
  φs.foldr (fun φ acc =>
    match expand d v φ, acc with
    | some l, some m => some (l ++ m)
    | _, _ => none) (some [])

theorem expandAll_mem {d : Nat} {v : Option Nat} : ∀ {φs : List (List ESym)} {L}, expandAll d v φs = some L →
    (∀ φ ∈ φs, ∃ M, expand d v φ = some M ∧ ∀ q ∈ M, q ∈ L) ∧
    ∀ q ∈ L, ∃ φ ∈ φs, ∃ M, expand d v φ = some M ∧ q ∈ M := by
  intro φs
  induction φs with
  | nil =>
    intro L h
    simp only [expandAll, List.foldr_nil, Option.some.injEq] at h
    subst h
    simp
  | cons φ φs ih =>
    intro L h
    simp only [expandAll, List.foldr_cons] at h
    split at h
    · rename_i l m h1 h2
      simp only [Option.some.injEq] at h
      subst h
      obtain ⟨i1, i2⟩ := ih h2
      constructor
      · intro ψ hψ
        rcases List.mem_cons.1 hψ with rfl | hψ
        · exact ⟨l, h1, fun q hq => List.mem_append_left _ hq⟩
        · obtain ⟨M, h3, h4⟩ := i1 ψ hψ
          exact ⟨M, h3, fun q hq => List.mem_append_right _ (h4 q hq)⟩
      · intro q hq
        rcases List.mem_append.1 hq with hq | hq
        · exact ⟨φ, by simp, l, h1, hq⟩
        · obtain ⟨ψ, h3, h4⟩ := i2 q hq
          exact ⟨ψ, by simp [h3], h4⟩
    · cases h

theorem expandAll_complete {d : Nat} {v : Option Nat} {φs : List (List ESym)} {L} (h : expandAll d v φs = some L)
    {φ : List ESym} (hφ : φ ∈ φs) {y : List Event} (hy : DerE φ y) (hv : Fits' v y) : ∃ q ∈ L, Entry v q y := by
  obtain ⟨M, h1, h2⟩ := (expandAll_mem h).1 φ hφ
  obtain ⟨q, h3, h4⟩ := expand_complete h1 hy hv
  exact ⟨q, h2 q h3, h4⟩

theorem expandAll_sound {d : Nat} {v : Option Nat} {φs : List (List ESym)} {L} (h : expandAll d v φs = some L)
    {q : List Act × Option (List ESym)} (hq : q ∈ L) {y : List Event} (hy : Entry v q y) : ∃ φ ∈ φs, DerE φ y := by
  obtain ⟨φ, h1, M, h2, h3⟩ := (expandAll_mem h).2 q hq
  exact ⟨φ, h1, expand_sound h2 h3 hy⟩

/-- What the tables replace a nonterminal by. -/
def pushOf (x : NT) (v : Option Nat) : Option (List Sym) :=
  match rule x v with
  | .push l => some l
  | .eps => some []
  | .reject => none

def inFollow (v : Option Nat) (f : List Nat × Bool) : Bool :=
  match v with
  | some w => f.1.contains w
  | none => f.2

def inFirst (v : Option Nat) (f : List Nat) : Bool :=
  match v with
  | some w => f.contains w
  | none => false

/-- The rule of the tables for `x` and lookahead `v` agrees with the grammar. -/
def agreesAt (x : NT) (v : Option Nat) : Bool :=
  match expandAll 24 v ((mean x).map (List.map .g)), expandAll 24 v (((pushOf x v).map forms).getD []) with
  | some A, some B =>
    B.all (fun q => A.contains q) &&
    A.all fun q =>
      match q.2 with
      | some _ => B.contains q && inFirst v (firstNT x)
      | none => (!inFollow v (followNT x) || B.contains q) && nullNT x
  | _, _ => false

def firstS : Sym → List Nat
  | .nt x => firstNT x
  | .act _ => []
  | .any => symbolsAll
  | .term c => [c]
  | .set l => l

def nullS : Sym → Bool
  | .nt x => nullNT x
  | .act _ => true
  | _ => false

def firstL : List Sym → List Nat
  | [] => []
  | s :: l => firstS s ++ if nullS s then firstL l else []

def nullL : List Sym → Bool
  | [] => true
  | s :: l => nullS s && nullL l

def followCheck (f : List Nat × Bool) : List Sym → Bool
  | [] => true
  | s :: l =>
    (match s with
      | .nt z => (firstL l).all (followNT z).1.contains &&
          (!nullL l || (f.1.all (followNT z).1.contains && (!f.2 || (followNT z).2)))
      | _ => true) && followCheck f l

def Sym.good : Sym → Bool
  | .term c => notOthers.contains c
  | .set l => l.all notOthers.contains
  | _ => true

def Pat.good : Pat → Bool
  | .term c => notOthers.contains c
  | .set l => l.all notOthers.contains
  | _ => true

def ruleOk (x : NT) (p : Pat × Rhs) : Bool :=
  p.1.good &&
  match p.2 with
  | .push l => l.all Sym.good && followCheck (followNT x) l
  | _ => true

theorem rules_ok (x : NT) : (rules x).all (ruleOk x) = true :=
  forall_nt (q := fun x => (rules x).all (ruleOk x)) (by decide +kernel) x

theorem agrees_all (x : NT) : (none :: symbolsAll.map some).all (agreesAt x) = true :=
  forall_nt (q := fun x => (none :: symbolsAll.map some).all (agreesAt x)) (by decide +kernel) x

theorem agrees (x : NT) (v : Option Nat) : agreesAt x (v.map cls) = true := by
  refine List.all_eq_true.1 (agrees_all x) _ ?_
  cases v with
  | none => exact List.mem_cons_self
  | some w => exact List.mem_cons_of_mem _ (List.mem_map.2 ⟨_, cls_mem w, rfl⟩)

end Ctre.Parse

import Verif.Spec.Ctll

/-
The machine of `ctll::parser` and derivations.
-/
namespace Ctre.Ctll
open Parse (Decision AOut currentTerm previousTerm)

variable {N A σ : Type}

/-! ### Choice of a rule -/

theorem contains_iff (l : List Nat) (v : Nat) : contains l v = true ↔ v ∈ l := by
  induction l with
  | nil => simp [contains]
  | cons d l ih =>
    have : contains (d :: l) v = ((d == v) || contains l v) := rfl
    rw [this, Bool.or_eq_true, ih, List.mem_cons, beq_iff_eq]
    constructor <;> (rintro (h | h)) <;> simp [h]

theorem same_iff (p : Look) (v : Option Nat) : p.same v = true ↔ p.Admits v ∧ p.Exact := by
  cases p <;> cases v <;> simp [Look.same, Look.Admits, Look.Exact]
  case term.some a v => exact ⟨fun h => h.symm, fun h => h.symm⟩

theorem converts_iff (p : Look) (v : Option Nat) : p.converts v = true ↔ p.Admits v ∧ ¬ p.Exact := by
  have hc := contains_iff
  cases p <;> cases v <;> simp [Look.converts, Look.Admits, Look.Exact, hc]
  case negSet.some l v => rw [← hc, Bool.not_eq_true]

theorem constructible_iff (s : Sym N A) (v : Nat) : s.constructible v = true ↔ s.Admits v := by
  have hc := contains_iff
  cases s <;> simp [Sym.constructible, Sym.Admits, hc]
  case term a => exact ⟨fun h => h.symm, fun h => h.symm⟩
  case negSet l => rw [← hc, Bool.not_eq_true]

theorem filter_one {α : Type} {p : α → Bool} {l : List α} {d : α} (h : l.filter p = [d]) :
    ∃ l1 l2, l = l1 ++ d :: l2 ∧ p d = true ∧ ∀ e ∈ l1 ++ l2, p e = false := by
  induction l with
  | nil => simp at h
  | cons e l ih =>
    rw [List.filter_cons] at h
    split at h
    · rename_i he
      rw [List.cons.injEq] at h
      obtain ⟨rfl, h⟩ := h
      refine ⟨[], l, rfl, he, fun x hx => ?_⟩
      have := List.filter_eq_nil_iff.1 h x (by simpa using hx)
      simpa using this
    · rename_i he
      obtain ⟨l1, l2, rfl, h1, h2⟩ := ih h
      refine ⟨e :: l1, l2, rfl, h1, fun x hx => ?_⟩
      rw [List.cons_append, List.mem_cons] at hx
      rcases hx with rfl | hx
      · simpa using he
      · exact h2 x hx

theorem filter_one_of {α : Type} {p : α → Bool} {l1 l2 : List α} {d : α} (h1 : p d = true)
    (h2 : ∀ e ∈ l1 ++ l2, p e = false) : (l1 ++ d :: l2).filter p = [d] := by
  rw [List.filter_append, List.filter_cons, if_pos h1,
    List.filter_eq_nil_iff.2 fun e he => by simp [h2 e (by simp [he])],
    List.filter_eq_nil_iff.2 fun e he => by simp [h2 e (by simp [he])]]
  rfl

theorem choose_of_best {l : List (Look × Rule N A)} {v : Option Nat} {d : Look × Rule N A} (h : Best l v d) :
    choose l v = some d.2 := by
  obtain ⟨l1, l2, rfl, h1, h2⟩ := h
  unfold choose
  by_cases hx : d.1.Exact
  · rw [filter_one_of (p := fun d : Look × Rule N A => d.1.same v) ((same_iff _ _).2 ⟨h1, hx⟩) (fun e he => by
      rw [← Bool.not_eq_true, same_iff]
      rcases h2 e he with h | h
      · exact fun h' => h h'.1
      · exact fun h' => h.2 h'.2)]
  · have h3 : ∀ e ∈ l1 ++ l2, ¬ e.1.Admits v := fun e he => by
      rcases h2 e he with h | h
      · exact h
      · exact (hx h.1).elim
    rw [List.filter_eq_nil_iff.2 (fun e he => by
      rw [same_iff]
      rw [List.mem_append, List.mem_cons] at he
      rcases he with he | rfl | he
      · exact fun h' => h3 e (by simp [he]) h'.1
      · exact fun h' => hx h'.2
      · exact fun h' => h3 e (by simp [he]) h'.1)]
    rw [filter_one_of (p := fun d : Look × Rule N A => d.1.converts v) ((converts_iff _ _).2 ⟨h1, hx⟩) (fun e he => by
      rw [← Bool.not_eq_true, converts_iff]
      exact fun h' => h3 e he h'.1)]

theorem choose_none_admits {l : List (Look × Rule N A)} {v : Option Nat} (h : ∀ d ∈ l, ¬ d.1.Admits v) :
    choose l v = some .reject := by
  unfold choose
  rw [List.filter_eq_nil_iff.2 (fun e he => by rw [same_iff]; exact fun h' => h e he h'.1)]
  rw [List.filter_eq_nil_iff.2 (fun e he => by rw [converts_iff]; exact fun h' => h e he h'.1)]

theorem best_of_choose {l : List (Look × Rule N A)} {v : Option Nat} {r : Rule N A} (h : choose l v = some r) :
    (∃ d, Best l v d ∧ d.2 = r) ∨ (r = .reject ∧ ∀ d ∈ l, ¬ d.1.Admits v) := by
  unfold choose at h
  split at h
  · rename_i d hd
    obtain ⟨l1, l2, rfl, h1, h2⟩ := filter_one hd
    have h1 := (same_iff _ _).1 h1
    refine .inl ⟨d, ⟨l1, l2, rfl, h1.1, fun e he => ?_⟩, by simpa using h⟩
    have := h2 e he
    rw [← Bool.not_eq_true, same_iff] at this
    by_cases ha : e.1.Admits v
    · exact .inr ⟨h1.2, fun hx => this ⟨ha, hx⟩⟩
    · exact .inl ha
  · cases h
  · rename_i hn
    have hs : ∀ e ∈ l, e.1.Admits v → ¬ e.1.Exact := fun e he ha hx =>
      List.filter_eq_nil_iff.1 hn e he ((same_iff _ _).2 ⟨ha, hx⟩)
    split at h
    · rename_i d hd
      obtain ⟨l1, l2, rfl, h1, h2⟩ := filter_one hd
      have h1 := (converts_iff _ _).1 h1
      refine .inl ⟨d, ⟨l1, l2, rfl, h1.1, fun e he => .inl fun ha => ?_⟩, by simpa using h⟩
      have := h2 e he
      rw [← Bool.not_eq_true, converts_iff] at this
      refine this ⟨ha, hs e ?_ ha⟩
      rw [List.mem_append] at he
      simp only [List.mem_append, List.mem_cons]
      rcases he with he | he
      · exact .inl he
      · exact .inr (.inr he)
    · cases h
    · rename_i hm
      refine .inr ⟨by simpa using h.symm, fun e he ha => ?_⟩
      exact List.filter_eq_nil_iff.1 hm e he ((converts_iff _ _).2 ⟨ha, hs e he ha⟩)

theorem best_mem {l : List (Look × Rule N A)} {v : Option Nat} {d : Look × Rule N A} (h : Best l v d) : d ∈ l := by
  obtain ⟨l1, l2, rfl, _⟩ := h
  simp

theorem best_unique {l : List (Look × Rule N A)} {v : Option Nat} {d e : Look × Rule N A} (h : Best l v d)
    (h' : Best l v e) : d = e := by
  obtain ⟨l1, l2, rfl, h1, h2⟩ := h
  obtain ⟨m1, m2, h3, h4, h5⟩ := h'
  have he : e ∈ l1 ++ d :: l2 := by rw [h3]; simp
  have hd : d ∈ m1 ++ e :: m2 := by rw [← h3]; simp
  have key : ∀ {a b : List (Look × Rule N A)} {x y : Look × Rule N A}, x ∈ a ++ y :: b → x = y ∨ x ∈ a ++ b := by
    intro a b x y h
    simp only [List.mem_append, List.mem_cons] at h ⊢
    rcases h with h | h | h
    · exact .inr (.inl h)
    · exact .inl h
    · exact .inr (.inr h)
  rcases key he with h | h
  · exact h.symm
  · rcases key hd with g | g
    · exact g
    · rcases h2 e h with i | i
      · exact (i h4).elim
      · rcases h5 d g with j | j
        · exact (j h1).elim
        · exact (i.2 j.1).elim

/-! ### Derivations -/

theorem text_append (y z : List (Event A)) : text (y ++ z) = text y ++ text z := by
  induction y with
  | nil => rfl
  | cons e y ih => cases e <;> simp [text, ih]

theorem Derives.append {G : Grammar N A} {φ ψ : List (Sym N A)} {y z : List (Event A)} (h : Derives G φ y)
    (h' : Derives G ψ z) : Derives G (φ ++ ψ) (y ++ z) := by
  induction h with
  | nil => exact h'
  | ch h1 _ ih => exact .ch h1 ih
  | act _ ih => exact .act ih
  | nt h1 _ ih => exact .nt h1 (by rw [List.append_assoc] at ih; exact ih)

theorem Derives.split {G : Grammar N A} {φ ψ : List (Sym N A)} {y : List (Event A)} (h : Derives G (φ ++ ψ) y) :
    ∃ y1 y2, y = y1 ++ y2 ∧ Derives G φ y1 ∧ Derives G ψ y2 := by
  generalize hχ : φ ++ ψ = χ at h
  induction h generalizing φ with
  | nil =>
    obtain ⟨rfl, rfl⟩ := List.append_eq_nil_iff.1 hχ
    exact ⟨[], [], rfl, .nil, .nil⟩
  | ch h1 h2 ih =>
    cases φ with
    | nil => simp only [List.nil_append] at hχ; exact ⟨[], _, rfl, .nil, hχ ▸ .ch h1 h2⟩
    | cons e φ =>
      simp only [List.cons_append, List.cons.injEq] at hχ
      obtain ⟨rfl, hχ⟩ := hχ
      obtain ⟨y1, y2, rfl, h3, h4⟩ := ih hχ
      exact ⟨_ :: y1, y2, rfl, .ch h1 h3, h4⟩
  | act h2 ih =>
    cases φ with
    | nil => simp only [List.nil_append] at hχ; exact ⟨[], _, rfl, .nil, hχ ▸ .act h2⟩
    | cons e φ =>
      simp only [List.cons_append, List.cons.injEq] at hχ
      obtain ⟨rfl, hχ⟩ := hχ
      obtain ⟨y1, y2, rfl, h3, h4⟩ := ih hχ
      exact ⟨_ :: y1, y2, rfl, .act h3, h4⟩
  | nt h1 h2 ih =>
    cases φ with
    | nil => simp only [List.nil_append] at hχ; exact ⟨[], _, rfl, .nil, hχ ▸ .nt h1 h2⟩
    | cons e φ =>
      simp only [List.cons_append, List.cons.injEq] at hχ
      obtain ⟨rfl, hχ⟩ := hχ
      obtain ⟨y1, y2, rfl, h3, h4⟩ := ih (φ := _ ++ φ) (by rw [List.append_assoc, hχ])
      exact ⟨y1, y2, rfl, .nt h1 h3, h4⟩

theorem Nullable.append {G : Grammar N A} {φ ψ : List (Sym N A)} (h : Nullable G φ) (h' : Nullable G ψ) :
    Nullable G (φ ++ ψ) := by
  obtain ⟨y, h1, h2⟩ := h
  obtain ⟨z, h3, h4⟩ := h'
  exact ⟨y ++ z, h1.append h3, by rw [text_append, h2, h4]; rfl⟩

theorem perform_append (S : Selector A σ) : ∀ (y z : List (Event A)) (p : Option Nat) (c : σ), text y = [] →
    perform false S p c (y ++ z) = (perform false S p c y).bind fun c' => perform false S p c' z := by
  intro y
  induction y with
  | nil => intro z p c _; rfl
  | cons e y ih =>
    intro z p c h
    cases e with
    | ch v => simp [text] at h
    | act a =>
      simp only [List.cons_append, perform]
      cases S p c a <;> simp
      exact ih z p _ h

theorem perform_actionsOf (ignore : Bool) (S : Selector A σ) : ∀ (y : List (Event A)) (p : Option Nat) (c : σ),
    perform false (actionsOf ignore S) p c y = perform ignore S p c y := by
  intro y
  induction y with
  | nil => intro p c; rfl
  | cons e y ih =>
    intro p c
    cases e with
    | ch v => exact ih _ _
    | act a =>
      cases ignore <;> simp only [perform, actionsOf, conditional, identity, ignoreUnknown] <;> cases hs : S p c a <;>
        simp only [reduceIte]
      · exact ih _ _
      · exact ih _ _

theorem perform_empty (p : Option Nat) (y : List (Event A)) : perform false (emptyActions A Unit) p () y = some () := by
  induction y generalizing p with
  | nil => rfl
  | cons e y ih =>
    cases e with
    | ch v => exact ih _
    | act a => exact ih _

/-! ### One step of the machine -/

inductive Next (N A σ : Type) where
  | same (st : List (Sym N A)) (c : σ)
  | next (st : List (Sym N A)) (c : σ)
  | stop (st : List (Sym N A)) (c : σ) (d : Decision)
  | ill

def step (S : Selector A σ) (G : Grammar N A) (input : List Nat) (pos : Nat) (stack : List (Sym N A)) (c : σ) : Next N A σ :=
  match stack.head? with
  | some (.act a) =>
    match S (previousTerm input pos) c a with
    | .ok c' => .same stack.tail c'
    | .reject => .stop stack c .reject
    | .ill => .ill
  | top =>
    match G.rule top (currentTerm input pos) with
    | none => .ill
    | some .accept => .stop stack.tail c .accept
    | some .reject => .stop stack.tail c .reject
    | some .popInput => .next stack.tail c
    | some .epsilon => .same stack.tail c
    | some (.push (.term t :: l)) =>
      if currentTerm input pos = some t then .next (l ++ stack.tail) c else .same (.term t :: l ++ stack.tail) c
    | some (.push l) => .same (l ++ stack.tail) c

theorem decide_step (S : Selector A σ) (G : Grammar N A) (input : List Nat) (n pos : Nat) (st : List (Sym N A)) (c : σ) :
    decide S G input (n + 1) pos st c =
      match step S G input pos st c with
      | .same st' c' => decide S G input n pos st' c'
      | .next st' c' => .res ⟨pos + 1, st', c', .undecided⟩
      | .stop st' c' d => .res ⟨pos, st', c', d⟩
      | .ill => .ill := by
  have key : ∀ (r : Option (Rule N A)) (β : List (Sym N A)),
      (match (motive := Option (Rule N A) → LRes N A σ) r with
      | none => .ill
      | some .accept => .res ⟨pos, β, c, .accept⟩
      | some .reject => .res ⟨pos, β, c, .reject⟩
      | some .popInput => .res ⟨pos + 1, β, c, .undecided⟩
      | some .epsilon => decide S G input n pos β c
      | some (.push (Sym.term t :: l)) =>
        if currentTerm input pos = some t then .res ⟨pos + 1, l ++ β, c, .undecided⟩
        else decide S G input n pos (Sym.term t :: l ++ β) c
      | some (.push l) => decide S G input n pos (l ++ β) c) =
      match (match (motive := Option (Rule N A) → Next N A σ) r with
      | none => .ill
      | some .accept => .stop β c .accept
      | some .reject => .stop β c .reject
      | some .popInput => .next β c
      | some .epsilon => .same β c
      | some (.push (Sym.term t :: l)) =>
        if currentTerm input pos = some t then .next (l ++ β) c else .same (Sym.term t :: l ++ β) c
      | some (.push l) => .same (l ++ β) c) with
      | .same st' c' => decide S G input n pos st' c'
      | .next st' c' => .res ⟨pos + 1, st', c', .undecided⟩
      | .stop st' c' d => .res ⟨pos, st', c', d⟩
      | .ill => .ill := by
    intro r β
    cases r with
    | none => rfl
    | some r =>
      cases r with
      | push l =>
        cases l with
        | nil => rfl
        | cons s l =>
          cases s with
          | term t =>
            by_cases hv : currentTerm input pos = some t
            · simp only [if_pos hv]
            · simp only [if_neg hv]
          | _ => rfl
      | _ => rfl
  cases st with
  | nil => exact key _ _
  | cons s β =>
    cases s with
    | act a =>
      simp only [decide, step, List.head?_cons, List.tail_cons]
      cases S (previousTerm input pos) c a <;> rfl
    | _ => exact key _ _

/-- The machine ends with a result, or (`none`) with an error of the compiler. -/
inductive Ends (S : Selector A σ) (G : Grammar N A) (input : List Nat) : Nat → List (Sym N A) → σ → Option (Results N A σ) → Prop
  | same {pos st c st' c' o} : step S G input pos st c = .same st' c' → Ends S G input pos st' c' o → Ends S G input pos st c o
  | next {pos st c st' c' o} : step S G input pos st c = .next st' c' → Ends S G input (pos + 1) st' c' o →
      Ends S G input pos st c o
  | stop {pos st c st' c' d} : step S G input pos st c = .stop st' c' d → Ends S G input pos st c (some ⟨pos, st', c', d⟩)
  | ill {pos st c} : step S G input pos st c = .ill → Ends S G input pos st c none

theorem Ends.unique {S : Selector A σ} {G : Grammar N A} {input : List Nat} {pos st c o o'} (h : Ends S G input pos st c o)
    (h' : Ends S G input pos st c o') : o = o' := by
  induction h with
  | same h1 _ ih =>
    cases h' with
    | same h2 h3 => rw [h1] at h2; cases h2; exact ih h3
    | next h2 h3 => rw [h1] at h2; cases h2
    | stop h2 => rw [h1] at h2; cases h2
    | ill h2 => rw [h1] at h2; cases h2
  | next h1 _ ih =>
    cases h' with
    | same h2 h3 => rw [h1] at h2; cases h2
    | next h2 h3 => rw [h1] at h2; cases h2; exact ih h3
    | stop h2 => rw [h1] at h2; cases h2
    | ill h2 => rw [h1] at h2; cases h2
  | stop h1 =>
    cases h' with
    | same h2 h3 => rw [h1] at h2; cases h2
    | next h2 h3 => rw [h1] at h2; cases h2
    | stop h2 => rw [h1] at h2; cases h2; rfl
    | ill h2 => rw [h1] at h2; cases h2
  | ill h1 =>
    cases h' with
    | same h2 h3 => rw [h1] at h2; cases h2
    | next h2 h3 => rw [h1] at h2; cases h2
    | stop h2 => rw [h1] at h2; cases h2
    | ill h2 => rfl

/-- What a step does. -/
inductive Does (S : Selector A σ) (G : Grammar N A) (input : List Nat) (pos : Nat) :
    List (Sym N A) → σ → Next N A σ → Prop
  | actOk {a β c c'} : S (previousTerm input pos) c a = .ok c' → Does S G input pos (.act a :: β) c (.same β c')
  | actReject {a β c} : S (previousTerm input pos) c a = .reject → Does S G input pos (.act a :: β) c (.stop (.act a :: β) c .reject)
  | actIll {a β c} : S (previousTerm input pos) c a = .ill → Does S G input pos (.act a :: β) c .ill
  | accept {c} : currentTerm input pos = none → Does S G input pos [] c (.stop [] c .accept)
  | tooLong {v c} : currentTerm input pos = some v → Does S G input pos [] c (.stop [] c .reject)
  | read {s v β c} : currentTerm input pos = some v → s.Admits v → Does S G input pos (s :: β) c (.next β c)
  | wrong {s v β c} : (∀ x, s ≠ .nt x) → (∀ a, s ≠ .act a) → currentTerm input pos = some v → ¬ s.Admits v →
      Does S G input pos (s :: β) c (.stop β c .reject)
  | short {s β c} : (∀ x, s ≠ .nt x) → (∀ a, s ≠ .act a) → currentTerm input pos = none →
      Does S G input pos (s :: β) c (.stop β c .reject)
  | ambiguous {x β c} : (∃ d ∈ G.rules x, d.1.Admits (currentTerm input pos)) →
      (∀ d, ¬ Best (G.rules x) (currentTerm input pos) d) → Does S G input pos (.nt x :: β) c .ill
  | noRule {x β c} : (∀ d ∈ G.rules x, ¬ d.1.Admits (currentTerm input pos)) →
      Does S G input pos (.nt x :: β) c (.stop β c .reject)
  | accepts {x d β c} : Best (G.rules x) (currentTerm input pos) d → d.2 = .accept →
      Does S G input pos (.nt x :: β) c (.stop β c .accept)
  | rejects {x d β c} : Best (G.rules x) (currentTerm input pos) d → d.2 = .reject →
      Does S G input pos (.nt x :: β) c (.stop β c .reject)
  | pops {x d β c} : Best (G.rules x) (currentTerm input pos) d → d.2 = .popInput →
      Does S G input pos (.nt x :: β) c (.next β c)
  | quick {x d t l β c} : Best (G.rules x) (currentTerm input pos) d → d.2 = .push (.term t :: l) →
      currentTerm input pos = some t → Does S G input pos (.nt x :: β) c (.next (l ++ β) c)
  | expand {x d α β c} : Best (G.rules x) (currentTerm input pos) d → Stands d α →  d.2 ≠ .popInput →
      Does S G input pos (.nt x :: β) c (.same (α ++ β) c)

theorem choose_none {l : List (Look × Rule N A)} {v : Option Nat} (h : choose l v = none) :
    (∃ d ∈ l, d.1.Admits v) ∧ ∀ d, ¬ Best l v d := by
  constructor
  · by_cases h' : ∃ d ∈ l, d.1.Admits v
    · exact h'
    · rw [choose_none_admits fun d hd ha => h' ⟨d, hd, ha⟩] at h
      cases h
  · intro d hd
    rw [choose_of_best hd] at h
    cases h

theorem step_does (S : Selector A σ) (G : Grammar N A) (input : List Nat) (pos : Nat) (st : List (Sym N A)) (c : σ) :
    Does S G input pos st c (step S G input pos st c) := by
  have term : ∀ (s : Sym N A) β, (∀ x, s ≠ .nt x) → (∀ a, s ≠ .act a) →
      Does S G input pos (s :: β) c (step S G input pos (s :: β) c) := by
    intro s β h1 h2
    cases hv : currentTerm input pos with
    | none =>
      have : step S G input pos (s :: β) c = .stop β c .reject := by
        cases s <;> simp_all [step, Grammar.rule]
      rw [this]
      exact .short h1 h2 hv
    | some v =>
      by_cases ha : s.Admits v
      · have : step S G input pos (s :: β) c = .next β c := by
          have hc := (constructible_iff s v).2 ha
          cases s <;> simp_all [step, Grammar.rule]
        rw [this]
        exact .read hv ha
      · have : step S G input pos (s :: β) c = .stop β c .reject := by
          have hc : ¬ s.constructible v = true := fun h => ha ((constructible_iff s v).1 h)
          cases s <;> simp_all [step, Grammar.rule]
        rw [this]
        exact .wrong h1 h2 hv ha
  cases st with
  | nil =>
    cases hv : currentTerm input pos with
    | none => simpa [step, Grammar.rule, hv] using Does.accept hv
    | some v => simpa [step, Grammar.rule, hv] using Does.tooLong hv
  | cons s β =>
    cases s with
    | act a =>
      cases ha : S (previousTerm input pos) c a with
      | ok c' => simpa [step, ha] using Does.actOk ha
      | reject => simpa [step, ha] using Does.actReject ha
      | ill => simpa [step, ha] using Does.actIll ha
    | nt x =>
      cases hr : choose (G.rules x) (currentTerm input pos) with
      | none =>
        obtain ⟨h1, h2⟩ := choose_none hr
        simpa [step, Grammar.rule, hr] using Does.ambiguous h1 h2
      | some r =>
        rcases best_of_choose hr with ⟨d, hd, rfl⟩ | ⟨rfl, hn⟩
        · cases hd2 : d.2 with
          | accept => simpa [step, Grammar.rule, hr, hd2] using Does.accepts hd hd2
          | reject => simpa [step, Grammar.rule, hr, hd2] using Does.rejects hd hd2
          | popInput => simpa [step, Grammar.rule, hr, hd2] using Does.pops hd hd2
          | epsilon =>
            have := Does.expand (S := S) (β := β) (c := c) hd (α := []) (by simp [Stands, hd2]) (by simp [hd2])
            simpa [step, Grammar.rule, hr, hd2] using this
          | push l =>
            have he := Does.expand (S := S) (β := β) (c := c) hd (α := l) (by simp [Stands, hd2]) (by simp [hd2])
            cases l with
            | nil => simpa [step, Grammar.rule, hr, hd2] using he
            | cons s l =>
              cases s with
              | term t =>
                by_cases hv : currentTerm input pos = some t
                · have hq := Does.quick (S := S) (β := β) (c := c) hd hd2 hv
                  simp only [step, Grammar.rule, hr, hd2, List.head?_cons, List.tail_cons, if_pos hv]
                  exact hq
                · simp only [step, Grammar.rule, hr, hd2, List.head?_cons, List.tail_cons, if_neg hv]
                  exact he
              | _ => simpa [step, Grammar.rule, hr, hd2] using he
        · simpa [step, Grammar.rule, hr] using Does.noRule hn
    | term t => exact term _ _ (by simp) (by simp)
    | anything => exact term _ _ (by simp) (by simp)
    | range a b => exact term _ _ (by simp) (by simp)
    | set l => exact term _ _ (by simp) (by simp)
    | negSet l => exact term _ _ (by simp) (by simp)

theorem step_read {S : Selector A σ} {G : Grammar N A} {input : List Nat} {pos : Nat} {s : Sym N A} {v : Nat}
    {β : List (Sym N A)} {c : σ} (hv : currentTerm input pos = some v) (h : s.Admits v) :
    step S G input pos (s :: β) c = .next β c := by
  have hc := (constructible_iff s v).2 h
  cases s with
  | nt x => exact h.elim
  | act a => exact h.elim
  | _ => simp [step, Grammar.rule, hv, hc]

/-! ### Positions -/

theorem current_lt {input : List Nat} {pos v : Nat} (h : currentTerm input pos = some v) : pos < input.length := by
  unfold currentTerm at h
  split at h
  · assumption
  · cases h

theorem drop_some {input : List Nat} {pos v : Nat} (h : currentTerm input pos = some v) :
    input.drop pos = v :: input.drop (pos + 1) := by
  have hp := current_lt h
  unfold currentTerm at h
  rw [if_pos hp, List.getElem?_eq_getElem hp, Option.some.injEq] at h
  rw [List.drop_eq_getElem_cons hp, h]

theorem drop_none {input : List Nat} {pos : Nat} (h : currentTerm input pos = none) : input.drop pos = [] := by
  unfold currentTerm at h
  split at h
  · rename_i hp
    rw [List.getElem?_eq_getElem hp] at h
    cases h
  · exact List.drop_eq_nil_of_le (by omega)

theorem current_head (input : List Nat) (pos : Nat) : currentTerm input pos = (input.drop pos).head? := by
  cases h : currentTerm input pos with
  | none => rw [drop_none h]; rfl
  | some v => rw [drop_some h]; rfl

theorem previous_next {input : List Nat} {pos v : Nat} (h : currentTerm input pos = some v) :
    previousTerm input (pos + 1) = some v := by
  have hp := current_lt h
  unfold currentTerm at h
  rw [if_pos hp] at h
  unfold previousTerm
  rw [if_neg (by omega), Nat.add_sub_cancel, if_pos hp, h]

theorem best_admits {l : List (Look × Rule N A)} {v : Option Nat} {d : Look × Rule N A} (h : Best l v d) : d.1.Admits v := by
  obtain ⟨_, _, _, h, _⟩ := h
  exact h

theorem popInput_some {G : Grammar N A} (hG : G.Plain) {x : N} {v : Option Nat} {d : Look × Rule N A}
    (hb : Best (G.rules x) v d) (h : d.2 = .popInput) : ∃ w, v = some w := by
  have h3 := (hG _ _ (best_mem hb)).2 h
  have h4 := best_admits hb
  cases v with
  | some w => exact ⟨w, rfl⟩
  | none => cases hl : d.1 <;> rw [hl] at h4 h3 <;> simp [Look.Admits] at h4 h3

theorem next_some {S : Selector A σ} {G : Grammar N A} (hG : G.Plain) {input : List Nat} {pos : Nat} {st st' : List (Sym N A)}
    {c c' : σ} (h : step S G input pos st c = .next st' c') : ∃ v, currentTerm input pos = some v := by
  have hd := step_does S G input pos st c
  rw [h] at hd
  cases hd with
  | read h1 _ => exact ⟨_, h1⟩
  | quick _ _ h1 => exact ⟨_, h1⟩
  | pops h1 h2 =>
    exact popInput_some hG h1 h2

/-! ### Rounds -/

def toLRes : Option (Results N A σ) → LRes N A σ
  | some r => .res r
  | none => .ill

theorem rounds_done (S : Selector A σ) (G : Grammar N A) (input : List Nat) (F : Nat) {o : LRes N A σ}
    (h : o.round S G input F = o) : ∀ k, LRes.rounds S G input F k o = o := by
  intro k
  induction k with
  | zero => rfl
  | succ k ih => rw [LRes.rounds, h, ih]

theorem rounds_of_ends {S : Selector A σ} {G : Grammar N A} (hG : G.Plain) {input : List Nat} {pos : Nat}
    {st : List (Sym N A)} {c : σ} {o : Option (Results N A σ)} (h : Ends S G input pos st c o) :
    (∀ r, o = some r → r.decision ≠ .undecided) ∧ ∃ n, ∀ F, n ≤ F → ∀ F', n ≤ F' → ∀ k, input.length - pos ≤ k →
      LRes.rounds S G input F k (decide S G input F' pos st c) = toLRes o := by
  induction h with
  | same h1 _ ih =>
    obtain ⟨i1, n, ih⟩ := ih
    refine ⟨i1, n + 1, fun F hF F' hF' k hk => ?_⟩
    obtain ⟨m, rfl⟩ : ∃ m, F' = m + 1 := ⟨F' - 1, by omega⟩
    rw [decide_step, h1]
    exact ih F (by omega) m (by omega) k hk
  | next h1 _ ih =>
    obtain ⟨i1, n, ih⟩ := ih
    refine ⟨i1, n + 1, fun F hF F' hF' k hk => ?_⟩
    obtain ⟨v, hv⟩ := next_some hG h1
    have hp := current_lt hv
    obtain ⟨m, rfl⟩ : ∃ m, F' = m + 1 := ⟨F' - 1, by omega⟩
    obtain ⟨k, rfl⟩ : ∃ j, k = j + 1 := ⟨k - 1, by omega⟩
    rw [decide_step, h1]
    exact ih F (by omega) F (by omega) k (by omega)
  | @stop pos st c st' c' d h1 =>
    have hd : d ≠ .undecided := by
      have := step_does S G input pos st c
      rw [h1] at this
      cases this <;> simp
    refine ⟨fun r hr => by cases hr; exact hd, 1, fun F hF F' hF' k hk => ?_⟩
    obtain ⟨m, rfl⟩ : ∃ m, F' = m + 1 := ⟨F' - 1, by omega⟩
    rw [decide_step, h1]
    refine rounds_done S G input F ?_ k
    cases d
    · rfl
    · rfl
    · exact (hd rfl).elim
  | ill h1 =>
    refine ⟨fun r hr => (by cases hr), 1, fun F hF F' hF' k hk => ?_⟩
    obtain ⟨m, rfl⟩ : ∃ m, F' = m + 1 := ⟨F' - 1, by omega⟩
    rw [decide_step, h1]
    exact rounds_done S G input F (o := .ill) rfl k

theorem decide_cases {S : Selector A σ} {G : Grammar N A} (hG : G.Plain) {input : List Nat} : ∀ {F pos : Nat}
    {st : List (Sym N A)} {c : σ},
    decide S G input F pos st c = .timeout ∨
    (∃ o, Ends S G input pos st c o ∧ decide S G input F pos st c = toLRes o) ∨
    (pos < input.length ∧ ∃ st' c', decide S G input F pos st c = .res ⟨pos + 1, st', c', .undecided⟩ ∧
      ∀ o, Ends S G input (pos + 1) st' c' o → Ends S G input pos st c o) := by
  intro F
  induction F with
  | zero => intro pos st c; exact .inl rfl
  | succ F ih =>
    intro pos st c
    rw [decide_step]
    cases hs : step S G input pos st c with
    | same st' c' =>
      rcases ih (pos := pos) (st := st') (c := c') with h | ⟨o, h1, h2⟩ | ⟨h0, s2, c2, h1, h2⟩
      · exact .inl h
      · exact .inr (.inl ⟨o, .same hs h1, h2⟩)
      · exact .inr (.inr ⟨h0, s2, c2, h1, fun o ho => .same hs (h2 o ho)⟩)
    | next st' c' =>
      obtain ⟨v, hv⟩ := next_some hG hs
      exact .inr (.inr ⟨current_lt hv, st', c', rfl, fun o ho => .next hs ho⟩)
    | stop st' c' d => exact .inr (.inl ⟨_, .stop hs, rfl⟩)
    | ill => exact .inr (.inl ⟨_, .ill hs, rfl⟩)

theorem rounds_cases {S : Selector A σ} {G : Grammar N A} (hG : G.Plain) {input : List Nat} (F : Nat) : ∀ {k F' pos : Nat}
    {st : List (Sym N A)} {c : σ}, input.length - pos ≤ k →
    LRes.rounds S G input F k (decide S G input F' pos st c) = .timeout ∨
    ∃ o, Ends S G input pos st c o ∧ LRes.rounds S G input F k (decide S G input F' pos st c) = toLRes o := by
  have fin : ∀ {k : Nat} {pos : Nat} {st : List (Sym N A)} {c : σ} {o : Option (Results N A σ)}, Ends S G input pos st c o →
      LRes.rounds S G input F k (toLRes o) = toLRes o := by
    intro k pos st c o h
    refine rounds_done S G input F ?_ k
    have h1 := (rounds_of_ends hG h).1
    cases o with
    | none => rfl
    | some r =>
      have := h1 r rfl
      simp only [toLRes, LRes.round]
  intro k
  induction k with
  | zero =>
    intro F' pos st c hk
    rcases decide_cases hG (S := S) (input := input) (F := F') (pos := pos) (st := st) (c := c) with h | ⟨o, h1, h2⟩ | ⟨h0, _⟩
    · exact .inl h
    · exact .inr ⟨o, h1, h2⟩
    · omega
  | succ k ih =>
    intro F' pos st c hk
    rcases decide_cases hG (S := S) (input := input) (F := F') (pos := pos) (st := st) (c := c) with h | ⟨o, h1, h2⟩ | ⟨h0, s2, c2, h1, h2⟩
    · refine .inl ?_
      rw [h]
      exact rounds_done S G input F rfl _
    · exact .inr ⟨o, h1, by rw [h2]; exact fin h1⟩
    · rw [h1, LRes.rounds]
      rcases ih (F' := F) (pos := pos + 1) (st := s2) (c := c2) (by omega) with h | ⟨o, h3, h4⟩
      · exact .inl h
      · exact .inr ⟨o, h2 o h3, h4⟩

/-! ### Soundness -/

theorem stands_popInput {d : Look × Rule N A} (h : d.2 = .popInput) {v : Nat} (ha : d.1.Admits (some v)) :
    ∃ s : Sym N A, Stands d [s] ∧ s.Admits v := by
  obtain ⟨p, r⟩ := d
  subst h
  cases p with
  | eps => cases ha
  | term a => exact ⟨.term a, ⟨_, rfl, rfl⟩, by simpa [Look.Admits, Sym.Admits] using ha⟩
  | anything => exact ⟨.anything, ⟨_, rfl, rfl⟩, trivial⟩
  | range a b => exact ⟨.range a b, ⟨_, rfl, rfl⟩, by simpa [Look.Admits, Sym.Admits] using ha⟩
  | set l => exact ⟨.set l, ⟨_, rfl, rfl⟩, by simpa [Look.Admits, Sym.Admits] using ha⟩
  | negSet l => exact ⟨.negSet l, ⟨_, rfl, rfl⟩, by simpa [Look.Admits, Sym.Admits] using ha⟩

theorem ends_sound {S : Selector A σ} {G : Grammar N A} (hG : G.Plain) {input : List Nat} {pos : Nat}
    {st : List (Sym N A)} {c : σ} {o : Option (Results N A σ)} (h : Ends S G input pos st c o) :
    ∀ r, o = some r → r.decision = .accept → ∃ y, Derives G st y ∧ text y = input.drop pos ∧
      perform false S (previousTerm input pos) c y = some r.subject := by
  induction h with
  | @same pos st c st' c' o h1 _ ih =>
    intro r hr ha
    obtain ⟨y, i1, i2, i3⟩ := ih r hr ha
    have hd := step_does S G input pos st c
    rw [h1] at hd
    cases hd with
    | actOk h2 => exact ⟨_, .act i1, i2, by simp only [perform, h2]; exact i3⟩
    | expand h2 h3 _ => exact ⟨y, .nt ⟨_, best_mem h2, h3⟩ i1, i2, i3⟩
  | @next pos st c st' c' o h1 _ ih =>
    intro r hr ha
    obtain ⟨y, i1, i2, i3⟩ := ih r hr ha
    obtain ⟨v, hv⟩ := next_some hG h1
    have hd := step_does S G input pos st c
    rw [h1] at hd
    rw [previous_next hv] at i3
    have hc : c' = c := by cases hd <;> rfl
    subst hc
    refine ⟨.ch v :: y, ?_, by simp only [text]; rw [i2, drop_some hv], i3⟩
    cases hd with
    | read h2 h3 =>
      rw [hv, Option.some.injEq] at h2
      subst h2
      exact .ch h3 i1
    | @pops x d _ _ h2 h3 =>
      have h4 := best_admits h2
      rw [hv] at h4
      obtain ⟨s, h5, h6⟩ := stands_popInput h3 h4
      exact .nt ⟨d, best_mem h2, h5⟩ (.ch h6 i1)
    | @quick x d t l _ _ h2 h3 h4 =>
      rw [hv, Option.some.injEq] at h4
      subst h4
      refine .nt (α := .term v :: l) ⟨d, best_mem h2, by simp [Stands, h3]⟩ (.ch rfl i1)
  | @stop pos st c st' c' d h1 =>
    intro r hr ha
    cases hr
    have hd := step_does S G input pos st c
    rw [h1] at hd
    simp only at ha
    subst ha
    cases hd with
    | accept h2 => exact ⟨[], .nil, by rw [drop_none h2]; rfl, rfl⟩
    | accepts h2 h3 => exact ((hG _ _ (best_mem h2)).1 h3).elim
  | ill _ => intro r hr; cases hr

/-! ### Completeness -/

/-- What the rest of the stack derives can follow the nonterminals before it. -/
def FollowOk (G : Grammar N A) (st : List (Sym N A)) : Prop :=
  ∀ φ z β, st = φ ++ .nt z :: β → ∀ y, Derives G β y → Follows G z (text y).head?

theorem FollowOk.tail {G : Grammar N A} {s : Sym N A} {st : List (Sym N A)} (h : FollowOk G (s :: st)) : FollowOk G st :=
  fun φ z β e => h (s :: φ) z β (by rw [e]; rfl)

theorem FollowOk.expand {G : Grammar N A} {x : N} {α st : List (Sym N A)} (h : FollowOk G (.nt x :: st))
    (hp : G.Production x α) : FollowOk G (α ++ st) := by
  intro φ z β e y hy
  rcases List.append_eq_append_iff.1 e with ⟨ψ, h1, h2⟩ | ⟨ψ, h1, h2⟩
  · exact h (.nt x :: ψ) z β (by rw [h2]; rfl) y hy
  · cases ψ with
    | nil =>
      rw [List.nil_append] at h2
      exact h [.nt x] z β (by rw [← h2]; rfl) y hy
    | cons s ψ =>
      rw [List.cons_append, List.cons.injEq] at h2
      obtain ⟨rfl, rfl⟩ := h2
      obtain ⟨y1, y2, rfl, h3, h4⟩ := hy.split
      subst h1
      rw [text_append]
      cases ht : text y1 with
      | cons v t => exact .next hp ⟨y1, t, h3, ht⟩
      | nil => exact .last hp ⟨y1, h3, ht⟩ (h [] x st rfl y2 h4)

theorem followOk_start (G : Grammar N A) : FollowOk G [G.start] := by
  intro φ z β e y hy
  cases φ with
  | nil =>
    rw [List.nil_append, List.cons.injEq] at e
    obtain ⟨e1, rfl⟩ := e
    cases hy
    exact .start e1
  | cons s φ => simp at e

theorem ll1_best {G : Grammar N A} (hL : G.LL1) {x : N} {α st : List (Sym N A)} (hp : G.Production x α)
    (hf : FollowOk G (.nt x :: st)) {y : List (Event A)} (hy : Derives G (α ++ st) y) :
    ∃ d, Best (G.rules x) (text y).head? d ∧ Stands d α := by
  obtain ⟨y1, y2, rfl, h1, h2⟩ := hy.split
  obtain ⟨l1, l2⟩ := hL x α hp
  rw [text_append]
  cases ht : text y1 with
  | cons v t => exact l1 v ⟨y1, t, h1, ht⟩
  | nil => exact l2 ⟨y1, h1, ht⟩ _ (hf [] x st rfl y2 h2)

theorem ends_read {S : Selector A σ} {G : Grammar N A} {input : List Nat} {pos : Nat} {s : Sym N A} {v : Nat}
    {β : List (Sym N A)} {c : σ} {o : Option (Results N A σ)} (hv : currentTerm input pos = some v) (h : s.Admits v)
    (he : Ends S G input pos (s :: β) c o) : Ends S G input (pos + 1) β c o := by
  have hs := step_read (S := S) (G := G) (β := β) (c := c) hv h
  cases he with
  | same h1 _ => rw [hs] at h1; cases h1
  | next h1 h2 => rw [hs] at h1; cases h1; exact h2
  | stop h1 => rw [hs] at h1; cases h1
  | ill h1 => rw [hs] at h1; cases h1

theorem ends_best {S : Selector A σ} {G : Grammar N A} {input : List Nat} {pos : Nat} {x : N} {d : Look × Rule N A}
    {α β : List (Sym N A)} {c : σ} {o : Option (Results N A σ)} (hb : Best (G.rules x) (currentTerm input pos) d)
    (hs : Stands d α) (hv : d.2 = .popInput → ∃ v, currentTerm input pos = some v)
    (h : Ends S G input pos (α ++ β) c o) : Ends S G input pos (.nt x :: β) c o := by
  have hr := choose_of_best hb
  cases hd2 : d.2 with
  | accept => simp [Stands, hd2] at hs
  | reject => simp [Stands, hd2] at hs
  | epsilon =>
    simp only [Stands, hd2] at hs
    subst hs
    exact .same (by simp [step, Grammar.rule, hr, hd2]) h
  | popInput =>
    obtain ⟨v, hv⟩ := hv hd2
    have ha := best_admits hb
    rw [hv] at ha
    obtain ⟨s, h1, h2⟩ := stands_popInput hd2 ha
    simp only [Stands, hd2] at hs h1
    obtain ⟨s', h3, rfl⟩ := hs
    obtain ⟨s2, h4, h5⟩ := h1
    rw [List.cons.injEq] at h5
    obtain ⟨rfl, -⟩ := h5
    rw [h3, Option.some.injEq] at h4
    subst h4
    exact .next (by simp [step, Grammar.rule, hr, hd2]) (ends_read hv h2 h)
  | push l =>
    simp only [Stands, hd2] at hs
    subst hs
    have fallback : step S G input pos (.nt x :: β) c = .same (α ++ β) c → Ends S G input pos (.nt x :: β) c o :=
      fun hst => .same hst h
    cases α with
    | nil => exact fallback (by simp [step, Grammar.rule, hr, hd2])
    | cons s l =>
      cases s with
      | term t =>
        by_cases hv : currentTerm input pos = some t
        · refine .next (st' := l ++ β) (c' := c) ?_ (ends_read hv (s := .term t) rfl h)
          simp only [step, Grammar.rule, hr, hd2, List.head?_cons, List.tail_cons, if_pos hv]
        · refine fallback ?_
          simp only [step, Grammar.rule, hr, hd2, List.head?_cons, List.tail_cons, if_neg hv]
      | _ => exact fallback (by simp [step, Grammar.rule, hr, hd2])

theorem ends_complete {S : Selector A σ} {G : Grammar N A} (hG : G.Plain) (hL : G.LL1) {input : List Nat} {st : List (Sym N A)}
    {y : List (Event A)} (h : Derives G st y) : ∀ {pos : Nat} {c c' : σ}, FollowOk G st → text y = input.drop pos →
      perform false S (previousTerm input pos) c y = some c' →
      ∃ p, Ends S G input pos st c (some ⟨p, [], c', .accept⟩) := by
  induction h with
  | nil =>
    intro pos c c' _ ht hp
    have hv : currentTerm input pos = none := by rw [current_head, ← ht]; rfl
    simp only [perform, Option.some.injEq] at hp
    subst hp
    exact ⟨pos, .stop (by simp [step, Grammar.rule, hv])⟩
  | @ch s v β y h1 _ ih =>
    intro pos c c' hf ht hp
    have hv : currentTerm input pos = some v := by rw [current_head, ← ht]; rfl
    simp only [text] at ht
    rw [drop_some hv, List.cons.injEq] at ht
    obtain ⟨p, ih⟩ := ih (pos := pos + 1) hf.tail ht.2 (by rw [previous_next hv]; exact hp)
    exact ⟨p, .next (step_read hv h1) ih⟩
  | @act a β y _ ih =>
    intro pos c c' hf ht hp
    simp only [perform] at hp
    split at hp
    · rename_i c2 ha
      obtain ⟨p, ih⟩ := ih hf.tail ht hp
      exact ⟨p, .same (by simp [step, ha]) ih⟩
    · cases hp
    · simp at hp
  | @nt x α β y hpr hy ih =>
    intro pos c c' hf ht hp
    obtain ⟨p, ih⟩ := ih (hf.expand hpr) ht hp
    obtain ⟨d, hb, hs⟩ := ll1_best hL hpr hf hy
    rw [ht, ← current_head] at hb
    exact ⟨p, ends_best hb hs (popInput_some hG hb) ih⟩

/-! ### Unique derivations -/

theorem stands_unique {d : Look × Rule N A} {α α' : List (Sym N A)} (h : Stands d α) (h' : Stands d α') : α = α' := by
  cases hd : d.2 with
  | push l => simp only [Stands, hd] at h h'; rw [h, h']
  | epsilon => simp only [Stands, hd] at h h'; rw [h, h']
  | popInput =>
    simp only [Stands, hd] at h h'
    obtain ⟨s, h1, rfl⟩ := h
    obtain ⟨s', h2, rfl⟩ := h'
    rw [h1, Option.some.injEq] at h2
    rw [h2]
  | accept => simp [Stands, hd] at h
  | reject => simp [Stands, hd] at h

theorem derives_unique {G : Grammar N A} (hL : G.LL1) {st : List (Sym N A)} {y : List (Event A)} (h : Derives G st y) :
    ∀ {y'}, FollowOk G st → Derives G st y' → text y = text y' → y = y' := by
  induction h with
  | nil => intro y' _ h' _; cases h'; rfl
  | @ch s v β y h1 _ ih =>
    intro y' hf h' ht
    cases h' with
    | ch h2 h3 =>
      simp only [text, List.cons.injEq] at ht
      obtain ⟨rfl, ht⟩ := ht
      rw [ih hf.tail h3 ht]
    | act _ => exact h1.elim
    | nt _ _ => exact h1.elim
  | @act a β y _ ih =>
    intro y' hf h' ht
    cases h' with
    | ch h2 _ => exact h2.elim
    | act h3 => rw [ih hf.tail h3 ht]
  | @nt x α β y hpr hy ih =>
    intro y' hf h' ht
    cases h' with
    | ch h2 _ => exact h2.elim
    | nt hpr' hy' =>
      obtain ⟨d, hb, hs⟩ := ll1_best hL hpr hf hy
      obtain ⟨d', hb', hs'⟩ := ll1_best hL hpr' hf hy'
      rw [← ht] at hb'
      have := best_unique hb hb'
      subst this
      have := stands_unique hs hs'
      subst this
      exact ih (hf.expand hpr) hy' ht

/-! ### Termination -/

/-- The list either ends the machine or is removed without reading. -/
def Finishes (S : Selector A σ) (G : Grammar N A) (input : List Nat) (pos : Nat) (α : List (Sym N A)) : Prop :=
  ∀ β c, (∃ o, Ends S G input pos (α ++ β) c o) ∨
    (Nullable G α ∧ ∃ c', ∀ o, Ends S G input pos β c' o → Ends S G input pos (α ++ β) c o)

theorem finishes_nil (S : Selector A σ) (G : Grammar N A) (input : List Nat) (pos : Nat) : Finishes S G input pos [] :=
  fun _ c => .inr ⟨⟨[], .nil, rfl⟩, c, fun _ h => h⟩

theorem finishes_cons {S : Selector A σ} {G : Grammar N A} {input : List Nat} {pos : Nat} {s : Sym N A}
    {α : List (Sym N A)} (h : Finishes S G input pos [s]) (h' : Nullable G [s] → Finishes S G input pos α) :
    Finishes S G input pos (s :: α) := by
  intro β c
  rcases h (α ++ β) c with ⟨o, h1⟩ | ⟨h1, c', h2⟩
  · exact .inl ⟨o, h1⟩
  · rcases h' h1 β c' with ⟨o, h3⟩ | ⟨h3, c2, h4⟩
    · exact .inl ⟨o, h2 o h3⟩
    · exact .inr ⟨h1.append h3, c2, fun o ho => h2 o (h4 o ho)⟩

theorem finishes_simple {S : Selector A σ} {G : Grammar N A} {input : List Nat} {pos : Nat}
    (H : ∀ v, currentTerm input pos = some v → ∀ st c, ∃ o, Ends S G input (pos + 1) st c o) {s : Sym N A}
    (hs : ∀ x, s ≠ .nt x) : Finishes S G input pos [s] := by
  intro β c
  have hd := step_does S G input pos (s :: β) c
  cases hst : step S G input pos (s :: β) c with
  | ill => exact .inl ⟨_, .ill hst⟩
  | stop st' c' d => exact .inl ⟨_, .stop hst⟩
  | next st' c' =>
    rw [hst] at hd
    cases hd with
    | read h1 h2 =>
      obtain ⟨o, ho⟩ := H _ h1 β c
      exact .inl ⟨o, .next hst ho⟩
    | pops _ _ => exact (hs _ rfl).elim
    | quick _ _ _ => exact (hs _ rfl).elim
  | same st' c' =>
    rw [hst] at hd
    cases hd with
    | @actOk a _ _ _ h1 =>
      exact .inr ⟨⟨[.act a], .act .nil, rfl⟩, c', fun o ho => .same hst ho⟩
    | expand _ _ _ => exact (hs _ rfl).elim

theorem finishes_nt {S : Selector A σ} {G : Grammar N A} (hG : G.Plain) (hR : G.NoLeftRecursion) {input : List Nat} {pos : Nat}
    (H : ∀ v, currentTerm input pos = some v → ∀ st c, ∃ o, Ends S G input (pos + 1) st c o) (x : N) :
    Finishes S G input pos [.nt x] := by
  refine hR.induction (C := fun x => Finishes S G input pos [.nt x]) x fun x ih => ?_
  have list : ∀ α γ, G.Production x (γ ++ α) → Nullable G γ → Finishes S G input pos α := by
    intro α
    induction α with
    | nil => intro γ _ _; exact finishes_nil S G input pos
    | cons s α iha =>
      intro γ hp hn
      refine finishes_cons ?_ fun hs => iha (γ ++ [s]) (by simpa using hp) (hn.append hs)
      by_cases h : ∃ z, s = .nt z
      · obtain ⟨z, rfl⟩ := h
        exact ih z ⟨γ, α, hp, hn⟩
      · exact finishes_simple H fun z hz => h ⟨z, hz⟩
  intro β c
  have hd := step_does S G input pos (.nt x :: β) c
  cases hst : step S G input pos (.nt x :: β) c with
  | ill => exact .inl ⟨_, .ill hst⟩
  | stop st' c' d => exact .inl ⟨_, .stop hst⟩
  | next st' c' =>
    obtain ⟨v, hv⟩ := next_some hG hst
    obtain ⟨o, ho⟩ := H v hv st' c'
    exact .inl ⟨o, .next hst ho⟩
  | same st' c' =>
    rw [hst] at hd
    cases hd with
    | @expand _ d α _ _ h1 h2 h3 =>
      have hp : G.Production x α := ⟨d, best_mem h1, h2⟩
      rcases list α [] hp ⟨[], .nil, rfl⟩ β c with ⟨o, ho⟩ | ⟨⟨y, hy, ht⟩, c2, h4⟩
      · exact .inl ⟨o, .same hst ho⟩
      · exact .inr ⟨⟨y, .nt hp (by simpa using hy), ht⟩, c2, fun o ho => .same hst (h4 o ho)⟩

theorem ends_exists {S : Selector A σ} {G : Grammar N A} (hG : G.Plain) (hR : G.NoLeftRecursion) {input : List Nat} :
    ∀ n pos, input.length - pos = n → ∀ st c, ∃ o, Ends S G input pos st c o := by
  intro n
  induction n with
  | zero =>
    intro pos hn
    have H : ∀ v, currentTerm input pos = some v → ∀ st c, ∃ o, Ends S G input (pos + 1) st c o := fun v hv => by
      have := current_lt hv
      omega
    intro st
    induction st with
    | nil =>
      intro c
      cases hst : step S G input pos [] c with
      | ill => exact ⟨_, .ill hst⟩
      | stop st' c' d => exact ⟨_, .stop hst⟩
      | next st' c' => obtain ⟨v, hv⟩ := next_some hG hst; have := current_lt hv; omega
      | same st' c' =>
        have hd := step_does S G input pos [] c
        rw [hst] at hd
        cases hd
    | cons s st ih =>
      intro c
      have hf : Finishes S G input pos [s] := by
        by_cases h : ∃ z, s = .nt z
        · obtain ⟨z, rfl⟩ := h
          exact finishes_nt hG hR H z
        · exact finishes_simple H fun z hz => h ⟨z, hz⟩
      rcases hf st c with h | ⟨_, c', h⟩
      · exact h
      · obtain ⟨o, ho⟩ := ih c'
        exact ⟨o, h o ho⟩
  | succ n ihn =>
    intro pos hn
    have H : ∀ v, currentTerm input pos = some v → ∀ st c, ∃ o, Ends S G input (pos + 1) st c o := fun v hv =>
      ihn (pos + 1) (by omega)
    intro st
    induction st with
    | nil =>
      intro c
      cases hst : step S G input pos [] c with
      | ill => exact ⟨_, .ill hst⟩
      | stop st' c' d => exact ⟨_, .stop hst⟩
      | next st' c' =>
        obtain ⟨v, hv⟩ := next_some hG hst
        obtain ⟨o, ho⟩ := H v hv st' c'
        exact ⟨o, .next hst ho⟩
      | same st' c' =>
        have hd := step_does S G input pos [] c
        rw [hst] at hd
        cases hd
    | cons s st ih =>
      intro c
      have hf : Finishes S G input pos [s] := by
        by_cases h : ∃ z, s = .nt z
        · obtain ⟨z, rfl⟩ := h
          exact finishes_nt hG hR H z
        · exact finishes_simple H fun z hz => h ⟨z, hz⟩
      rcases hf st c with h | ⟨_, c', h⟩
      · exact h
      · obtain ⟨o, ho⟩ := ih c'
        exact ⟨o, h o ho⟩

/-! ### No compiler errors -/

theorem ends_not_ill {S : Selector A σ} {G : Grammar N A} (hC : G.Clear) (hS : ∀ p c a, S p c a ≠ .ill) {input : List Nat} {pos : Nat}
    {st : List (Sym N A)} {c : σ} {o : Option (Results N A σ)} (h : Ends S G input pos st c o) : o ≠ none := by
  induction h with
  | same _ _ ih => exact ih
  | next _ _ ih => exact ih
  | stop _ => simp
  | @ill pos st c h1 =>
    have hd := step_does S G input pos st c
    rw [h1] at hd
    cases hd with
    | actIll h2 => exact (hS _ _ _ h2).elim
    | @ambiguous x _ _ h2 h3 =>
      rcases hC x (currentTerm input pos) with h | ⟨d, h⟩
      · obtain ⟨d, hd, ha⟩ := h2
        exact (h d hd ha).elim
      · exact (h3 d h).elim

/-! ### Errors -/

theorem ends_position {S : Selector A σ} {G : Grammar N A} (hG : G.Plain) {input : List Nat} {pos : Nat}
    {st : List (Sym N A)} {c : σ} {o : Option (Results N A σ)} (h : Ends S G input pos st c o) :
    ∀ r, o = some r → pos ≤ r.position ∧ (pos ≤ input.length → r.position ≤ input.length) := by
  induction h with
  | same _ _ ih => exact ih
  | next h1 _ ih =>
    intro r hr
    obtain ⟨v, hv⟩ := next_some hG h1
    have := current_lt hv
    have := ih r hr
    omega
  | stop _ => intro r hr; cases hr; exact ⟨Nat.le_refl _, fun h => h⟩
  | ill _ => intro r hr; cases hr

theorem ends_viable {S : Selector A σ} {G : Grammar N A} (hG : G.Plain)
    (hP : ∀ x α, G.Production x α → ∃ y, Derives G α y) {input : List Nat} {pos : Nat}
    {st : List (Sym N A)} {c : σ} {o : Option (Results N A σ)} (h : Ends S G input pos st c o) :
    ∀ r, o = some r → (∃ y, Derives G st y) →
      ∃ y t, Derives G st y ∧ text y = (input.drop pos).take (r.position - pos) ++ t := by
  have tail : ∀ {s : Sym N A} {β : List (Sym N A)}, (∃ y, Derives G (s :: β) y) → ∃ y, Derives G β y := by
    intro s β ⟨y, hy⟩
    obtain ⟨_, y2, _, _, h2⟩ := (show Derives G ([s] ++ β) y from hy).split
    exact ⟨y2, h2⟩
  have exp : ∀ {x : N} {α β : List (Sym N A)}, G.Production x α → (∃ y, Derives G (.nt x :: β) y) →
      ∃ y, Derives G (α ++ β) y := by
    intro x α β hp h
    obtain ⟨y, hy⟩ := tail h
    obtain ⟨z, hz⟩ := hP x α hp
    exact ⟨_, hz.append hy⟩
  induction h with
  | @same pos st c st' c' o h1 _ ih =>
    intro r hr hl
    have hd := step_does S G input pos st c
    rw [h1] at hd
    cases hd with
    | actOk h2 =>
      obtain ⟨y, t, i1, i2⟩ := ih r hr (tail hl)
      exact ⟨_, t, .act i1, i2⟩
    | expand h2 h3 _ =>
      have hp : G.Production _ _ := ⟨_, best_mem h2, h3⟩
      obtain ⟨y, t, i1, i2⟩ := ih r hr (exp hp hl)
      exact ⟨y, t, .nt hp i1, i2⟩
  | @next pos st c st' c' o h1 h1' ih =>
    intro r hr hl
    obtain ⟨v, hv⟩ := next_some hG h1
    have hpos := (ends_position hG h1' r hr).1
    have htake : ∀ t, v :: ((input.drop (pos + 1)).take (r.position - (pos + 1)) ++ t) =
        (input.drop pos).take (r.position - pos) ++ t := by
      intro t
      rw [drop_some hv, show r.position - pos = (r.position - (pos + 1)) + 1 by omega]
      rfl
    have hd := step_does S G input pos st c
    rw [h1] at hd
    cases hd with
    | read h2 h3 =>
      rw [hv, Option.some.injEq] at h2
      subst h2
      obtain ⟨y, t, i1, i2⟩ := ih r hr (tail hl)
      exact ⟨.ch v :: y, t, .ch h3 i1, by simp only [text]; rw [i2, htake]⟩
    | @pops x d _ _ h2 h3 =>
      have h4 := best_admits h2
      rw [hv] at h4
      obtain ⟨s, h5, h6⟩ := stands_popInput h3 h4
      obtain ⟨y, t, i1, i2⟩ := ih r hr (tail hl)
      exact ⟨.ch v :: y, t, .nt ⟨d, best_mem h2, h5⟩ (.ch h6 i1), by simp only [text]; rw [i2, htake]⟩
    | @quick x d t l _ _ h2 h3 h4 =>
      rw [hv, Option.some.injEq] at h4
      subst h4
      have hp : G.Production x (.term v :: l) := ⟨d, best_mem h2, by simp [Stands, h3]⟩
      obtain ⟨y, t, i1, i2⟩ := ih r hr (tail (s := .term v) (exp hp hl))
      exact ⟨.ch v :: y, t, .nt hp (.ch rfl i1), by simp only [text]; rw [i2, htake]⟩
  | stop _ =>
    intro r hr hl
    cases hr
    obtain ⟨y, hy⟩ := hl
    exact ⟨y, text y, hy, by simp⟩
  | ill _ => intro r hr; cases hr

theorem step_congr (S : Selector A σ) (G : Grammar N A) {input input' : List Nat} {pos : Nat}
    (h1 : currentTerm input' pos = currentTerm input pos) (h2 : previousTerm input' pos = previousTerm input pos)
    (st : List (Sym N A)) (c : σ) : step S G input' pos st c = step S G input pos st c := by
  unfold step
  rw [h1, h2]

theorem terms_agree {input input' : List Nat} {p pos : Nat} (h : input'.take (p + 1) = input.take (p + 1)) (hp : pos ≤ p) :
    currentTerm input' pos = currentTerm input pos ∧ previousTerm input' pos = previousTerm input pos := by
  have key : ∀ q, q ≤ p → input'[q]? = input[q]? := by
    intro q hq
    have h1 := congrArg (fun l : List Nat => l[q]?) h
    simpa [List.getElem?_take, show q < p + 1 by omega] using h1
  have cur : ∀ (l : List Nat) q, (if q < l.length then l[q]? else none) = l[q]? := by
    intro l q
    split
    · rfl
    · rw [List.getElem?_eq_none (by omega)]
  constructor
  · unfold currentTerm
    rw [cur, cur, key pos hp]
  · unfold previousTerm
    split
    · rfl
    · rw [cur, cur, key (pos - 1) (by omega)]

theorem ends_prefix {S : Selector A σ} {G : Grammar N A} (hG : G.Plain) {input input' : List Nat} {pos : Nat}
    {st : List (Sym N A)} {c : σ} {o : Option (Results N A σ)} (h : Ends S G input pos st c o) :
    ∀ r, o = some r → input'.take (r.position + 1) = input.take (r.position + 1) → Ends S G input' pos st c o := by
  induction h with
  | @same pos st c st' c' o h1 h2 ih =>
    intro r hr ht
    have hp := (ends_position hG h2 r hr).1
    obtain ⟨t1, t2⟩ := terms_agree ht hp
    exact .same (by rw [step_congr S G t1 t2]; exact h1) (ih r hr ht)
  | @next pos st c st' c' o h1 h2 ih =>
    intro r hr ht
    have hp := (ends_position hG h2 r hr).1
    obtain ⟨t1, t2⟩ := terms_agree ht (show pos ≤ r.position by omega)
    exact .next (by rw [step_congr S G t1 t2]; exact h1) (ih r hr ht)
  | @stop pos st c st' c' d h1 =>
    intro r hr ht
    cases hr
    obtain ⟨t1, t2⟩ := terms_agree ht (Nat.le_refl pos)
    exact .stop (by rw [step_congr S G t1 t2]; exact h1)
  | ill _ => intro r hr; cases hr

end Ctre.Ctll

import Verif.Lemmas.CtllPcre

/-
C76: the parser library parses every LL(1) grammar exactly.
-/
namespace Ctre
open Ctll
open Parse (Decision AOut)

section
variable {N A σ : Type}

/-- C76: for a nonterminal and the current symbol, the best rule is used if there is one; if no rule admits the symbol, the
text is rejected; if rules admit it and none is the best, the program does not compile. -/
theorem C76_choice (l : List (Look × Rule N A)) (v : Option Nat) :
    (∀ d, Best l v d → choose l v = some d.2) ∧
    ((∀ d ∈ l, ¬ d.1.Admits v) → choose l v = some .reject) ∧
    ((∃ d ∈ l, d.1.Admits v) → (∀ d, ¬ Best l v d) → choose l v = none) := by
  refine ⟨fun d => choose_of_best, choose_none_admits, fun ⟨d, h1, h2⟩ h3 => ?_⟩
  cases h : choose l v with
  | none => rfl
  | some r =>
    rcases best_of_choose h with ⟨e, h4, _⟩ | ⟨_, h4⟩
    · exact (h3 e h4).elim
    · exact (h4 d h1 h2).elim

/-- C76: what is accepted belongs to the language of the grammar, and the output is what the actions make of the subject when
they are performed in the order of a derivation. -/
theorem C76_sound (S : Selector A σ) (ignore : Bool) (G : Grammar N A) (hG : G.Plain) (t : List Nat) (fuel : Nat) (c : σ)
    {r : Results N A σ} (h : output S ignore G t fuel c = .res r) (ha : r.decision = .accept) :
    ∃ y, Derives G [G.start] y ∧ text y = t ∧ perform ignore S none c y = some r.subject := by
  rcases rounds_cases hG fuel (S := actionsOf ignore S) (input := t) (k := t.length) (F' := fuel) (pos := 0) (st := [G.start])
    (c := c) (by omega) with h1 | ⟨o, h1, h2⟩
  · rw [show output S ignore G t fuel c = _ from h1] at h
    cases h
  · rw [show output S ignore G t fuel c = _ from h2] at h
    cases o with
    | none => cases h
    | some r' =>
      cases h
      obtain ⟨y, i1, i2, i3⟩ := ends_sound hG h1 r rfl ha
      refine ⟨y, i1, by simpa using i2, ?_⟩
      rw [← perform_actionsOf]
      exact i3

/-- C76: with an LL(1) grammar, a text of the language is accepted, if the actions succeed along its derivation, and the output
is the subject they make. -/
theorem C76_complete (S : Selector A σ) (ignore : Bool) (G : Grammar N A) (hG : G.Plain) (hL : G.LL1) (c c' : σ)
    {y : List (Event A)} (h : Derives G [G.start] y) (hp : perform ignore S none c y = some c') :
    ∃ n p, ∀ fuel, n ≤ fuel → output S ignore G (text y) fuel c = .res ⟨p, [], c', .accept⟩ := by
  obtain ⟨p, he⟩ := ends_complete (S := actionsOf ignore S) hG hL (input := text y) h (pos := 0) (c := c) (c' := c')
    (followOk_start G) (by simp) (by rw [perform_actionsOf]; exact hp)
  obtain ⟨_, n, hn⟩ := rounds_of_ends hG he
  exact ⟨n, p, fun fuel hf => hn fuel hf fuel hf _ (by omega)⟩

/-- C76: an LL(1) grammar derives every text in one way at most. -/
theorem C76_unambiguous (G : Grammar N A) (hL : G.LL1) {y y' : List (Event A)} (h : Derives G [G.start] y)
    (h' : Derives G [G.start] y') (ht : text y = text y') : y = y' :=
  derives_unique hL h (followOk_start G) h' ht

/-- C76: the check `correct_with` is true exactly for the texts of the language, for an LL(1) grammar. -/
theorem C76_language (G : Grammar N A) (hG : G.Plain) (hL : G.LL1) (t : List Nat) :
    (G.Language t → ∃ n, ∀ fuel, n ≤ fuel → correct G t fuel = some true) ∧
    (∀ fuel, correct G t fuel = some true → G.Language t) := by
  constructor
  · rintro ⟨y, h, rfl⟩
    obtain ⟨n, p, hn⟩ := C76_complete (emptyActions A Unit) false G hG hL () () h (perform_empty _ _)
    refine ⟨n, fun fuel hf => ?_⟩
    rw [correct, hn fuel hf]
    rfl
  · intro fuel h
    rw [correct] at h
    cases ho : output (emptyActions A Unit) false G t fuel () with
    | ill => rw [ho] at h; cases h
    | timeout => rw [ho] at h; cases h
    | res r =>
      rw [ho] at h
      simp only [LRes.correct, Option.some.injEq, beq_iff_eq] at h
      obtain ⟨y, h1, h2, _⟩ := C76_sound _ _ G hG t fuel () ho h
      exact ⟨y, h1, h2⟩

/-- C76: without left recursion the parser ends on every text, with a decision or with an error of the compiler. -/
theorem C76_terminates (S : Selector A σ) (ignore : Bool) (G : Grammar N A) (hG : G.Plain) (hR : G.NoLeftRecursion)
    (t : List Nat) (c : σ) :
    ∃ n, (∀ fuel, n ≤ fuel → output S ignore G t fuel c = .ill) ∨
      ∃ r, (r.decision = .accept ∨ r.decision = .reject) ∧ ∀ fuel, n ≤ fuel → output S ignore G t fuel c = .res r := by
  obtain ⟨o, he⟩ := ends_exists (S := actionsOf ignore S) hG hR (input := t) _ 0 rfl [G.start] c
  obtain ⟨h1, n, hn⟩ := rounds_of_ends hG he
  refine ⟨n, ?_⟩
  cases o with
  | none => exact .inl fun fuel hf => hn fuel hf fuel hf _ (by omega)
  | some r =>
    refine .inr ⟨r, ?_, fun fuel hf => hn fuel hf fuel hf _ (by omega)⟩
    have := h1 r rfl
    cases hd : r.decision with
    | accept => exact .inl rfl
    | reject => exact .inr rfl
    | undecided => exact (this hd).elim

/-- C76: for an LL(1) grammar without left recursion and without equally good rules, `correct_with` is true for the texts of
the language and false for all others. -/
theorem C76_decides (G : Grammar N A) (hG : G.Plain) (hL : G.LL1) (hC : G.Clear) (hR : G.NoLeftRecursion) (t : List Nat) :
    ∃ n b, (b = true ↔ G.Language t) ∧ ∀ fuel, n ≤ fuel → correct G t fuel = some b := by
  obtain ⟨o, he⟩ := ends_exists (S := actionsOf false (emptyActions A Unit)) hG hR (input := t) _ 0 rfl [G.start] ()
  have hni := ends_not_ill hC (by intro p c a; simp [actionsOf, conditional, identity, Ctll.emptyActions]) he
  obtain ⟨n, hn⟩ := (rounds_of_ends hG he).2
  cases o with
  | none => exact (hni rfl).elim
  | some r =>
    have ho : ∀ fuel, n ≤ fuel → correct G t fuel = some (r.decision == .accept) := fun fuel hf => by
      rw [correct, show output (emptyActions A Unit) false G t fuel () = _ from hn fuel hf fuel hf _ (by omega)]
      rfl
    refine ⟨n, r.decision == .accept, ?_, ho⟩
    obtain ⟨l1, l2⟩ := C76_language G hG hL t
    constructor
    · intro hb
      exact l2 n (by rw [ho n (Nat.le_refl _), hb])
    · intro hl
      obtain ⟨m, hm⟩ := l1 hl
      have h1 := hm (max n m) (Nat.le_max_right _ _)
      rw [ho (max n m) (Nat.le_max_left _ _), Option.some.injEq] at h1
      exact h1

/-- C76: the position of an error is the length of the longest beginning of the text that can be continued to a text of the
language, for an LL(1) grammar whose right-hand sides all derive something. -/
theorem C76_error (G : Grammar N A) (hG : G.Plain) (hL : G.LL1) (hP : G.Productive) (t : List Nat) (fuel : Nat)
    {r : Results N A Unit} (h : output (emptyActions A Unit) false G t fuel () = .res r) (hr : r.decision = .reject) :
    r.position ≤ t.length ∧ (∃ u, G.Language (t.take r.position ++ u)) ∧ ¬ G.Language t ∧
      ∀ u, r.position < t.length → ¬ G.Language (t.take (r.position + 1) ++ u) := by
  rcases rounds_cases hG fuel (S := actionsOf false (emptyActions A Unit)) (input := t) (k := t.length) (F' := fuel) (pos := 0)
    (st := [G.start]) (c := ()) (by omega) with h1 | ⟨o, h1, h2⟩
  · rw [show output (emptyActions A Unit) false G t fuel () = _ from h1] at h
    cases h
  · rw [show output (emptyActions A Unit) false G t fuel () = _ from h2] at h
    cases o with
    | none => cases h
    | some r' =>
      cases h
      have hpos := (ends_position hG h1 r rfl).2 (Nat.zero_le _)
      have no : ∀ t', t'.take (r.position + 1) = t.take (r.position + 1) → ¬ G.Language t' := by
        rintro _ ht ⟨y, hy, rfl⟩
        obtain ⟨p, he⟩ := ends_complete (S := actionsOf false (emptyActions A Unit)) hG hL (input := text y) hy (pos := 0)
          (c := ()) (c' := ()) (followOk_start G) (by simp) (by rw [perform_actionsOf]; exact perform_empty _ _)
        have := (ends_prefix hG h1 r rfl ht).unique he
        rw [Option.some.injEq] at this
        rw [this] at hr
        cases hr
      refine ⟨hpos, ?_, no t rfl, fun u hu => no _ ?_⟩
      · obtain ⟨y, u, h3, h4⟩ := ends_viable hG hP.2 h1 r rfl hP.1
        exact ⟨u, y, h3, by simpa using h4⟩
      · rw [List.take_append_of_le_length (by rw [List.length_take]; omega), List.take_take, Nat.min_self]

/-- C76: with `IgnoreUnknownActions` a missing action never prevents the compilation. -/
theorem C76_ignore (S : Selector A σ) (G : Grammar N A) (hG : G.Plain) (hC : G.Clear) (t : List Nat) (fuel : Nat) (c : σ) :
    output S true G t fuel c ≠ .ill := by
  intro h
  rcases rounds_cases hG fuel (S := actionsOf true S) (input := t) (k := t.length) (F' := fuel) (pos := 0)
    (st := [G.start]) (c := c) (by omega) with h1 | ⟨o, h1, h2⟩
  · rw [show output S true G t fuel c = _ from h1] at h
    cases h
  · rw [show output S true G t fuel c = _ from h2] at h
    cases o with
    | some r => cases h
    | none =>
      refine ends_not_ill hC (fun p c a => ?_) h1 rfl
      simp only [actionsOf, conditional, ignoreUnknown]
      cases S p c a <;> simp

/-- C76: the parser of patterns is the parser of the library with the grammar of patterns. -/
theorem C76_pcre (S : Parse.Selector σ) (t : List Nat) (c : σ) :
    output S false pcreGrammar t (Parse.parseFuel t.length) c = pcreRes (Parse.trampoline S t c) := by
  have h1 := decide_pcre S t (Parse.parseFuel t.length) 0 [.nt .s] c
  have h2 := rounds_pcre S t (Parse.parseFuel t.length) t.length (Parse.decideAt S t (Parse.parseFuel t.length) 0 [.nt .s] c)
  rw [← h1] at h2
  exact h2

end

/-! ### A grammar of nested parentheses -/

/-- `s → ( count s ) s` and `s →` (nothing), chosen before `)` and at the end. -/
def nested : Grammar Unit Unit where
  start := .nt ()
  rules := fun _ => [(.term 40, .push [.term 40, .act (), .nt (), .term 41, .nt ()]), (.set [41], .epsilon), (.eps, .epsilon)]

theorem nested_production {x : Unit} {α : List (Sym Unit Unit)} (h : nested.Production x α) :
    α = [.term 40, .act (), .nt (), .term 41, .nt ()] ∨ α = [] := by
  obtain ⟨d, hd, hs⟩ := h
  simp only [nested, List.mem_cons, List.not_mem_nil, or_false] at hd
  rcases hd with rfl | rfl | rfl
  · exact .inl hs
  · exact .inr hs
  · exact .inr hs

theorem nested_split {x z : Unit} {α β : List (Sym Unit Unit)} (h : nested.Production x (α ++ .nt z :: β)) :
    (α = [.term 40, .act ()] ∧ β = [.term 41, .nt ()]) ∨ (α = [.term 40, .act (), .nt (), .term 41] ∧ β = []) := by
  rcases nested_production h with h | h
  · rcases α with _ | ⟨a1, _ | ⟨a2, _ | ⟨a3, _ | ⟨a4, _ | ⟨a5, α⟩⟩⟩⟩⟩ <;> simp_all
  · simp at h

theorem nested_follows {x : Unit} {v : Option Nat} (h : Follows nested x v) : v = none ∨ v = some 41 := by
  induction h with
  | start _ => exact .inl rfl
  | next hp hb =>
    obtain ⟨y, t, h1, h2⟩ := hb
    rcases nested_split hp with ⟨-, rfl⟩ | ⟨-, rfl⟩
    · cases h1 with
      | ch h3 _ =>
        simp only [text, List.cons.injEq] at h2
        rw [← h2.1]
        exact .inr (congrArg some h3)
    · cases h1
      simp [text] at h2
  | last _ _ _ ih => exact ih

theorem nested_plain : nested.Plain := by
  intro x d hd
  simp only [nested, List.mem_cons, List.not_mem_nil, or_false] at hd
  rcases hd with rfl | rfl | rfl <;> simp

theorem nested_best40 : Best (nested.rules ()) (some 40) (.term 40, .push [.term 40, .act (), .nt (), .term 41, .nt ()]) :=
  ⟨[], _, rfl, rfl, by
    intro e he
    simp only [List.nil_append, List.mem_cons, List.not_mem_nil, or_false] at he
    rcases he with rfl | rfl <;> simp [Look.Admits]⟩

theorem nested_best41 : Best (nested.rules ()) (some 41) (.set [41], .epsilon) :=
  ⟨[(.term 40, .push [.term 40, .act (), .nt (), .term 41, .nt ()])], [(.eps, .epsilon)], rfl, ⟨41, rfl, by simp⟩, by
    intro e he
    simp only [List.cons_append, List.nil_append, List.mem_cons, List.not_mem_nil, or_false] at he
    rcases he with rfl | rfl <;> simp [Look.Admits]⟩

theorem nested_bestEnd : Best (nested.rules ()) none (.eps, .epsilon) :=
  ⟨[(.term 40, .push [.term 40, .act (), .nt (), .term 41, .nt ()]), (.set [41], .epsilon)], [], rfl, rfl, by
    intro e he
    simp only [List.cons_append, List.nil_append, List.append_nil, List.mem_cons, List.not_mem_nil, or_false] at he
    rcases he with rfl | rfl <;> simp [Look.Admits]⟩

theorem nested_ll1 : nested.LL1 := by
  intro x α hp
  rcases nested_production hp with rfl | rfl
  · constructor
    · rintro v ⟨y, t, h1, h2⟩
      cases h1 with
      | ch h3 _ =>
        simp only [text, List.cons.injEq] at h2
        rw [← h2.1, show _ = _ from h3]
        exact ⟨_, nested_best40, rfl⟩
    · rintro ⟨y, h1, h2⟩
      cases h1 with
      | ch _ _ => simp [text] at h2
  · constructor
    · rintro v ⟨y, t, h1, h2⟩
      cases h1
      simp [text] at h2
    · intro _ v hv
      rcases nested_follows hv with rfl | rfl
      · exact ⟨_, nested_bestEnd, rfl⟩
      · exact ⟨_, nested_best41, rfl⟩

theorem nested_clear : nested.Clear := by
  intro x v
  by_cases h1 : v = some 40
  · subst h1; exact .inr ⟨_, nested_best40⟩
  · by_cases h2 : v = some 41
    · subst h2; exact .inr ⟨_, nested_best41⟩
    · by_cases h3 : v = none
      · subst h3; exact .inr ⟨_, nested_bestEnd⟩
      · left
        intro d hd
        simp only [nested, List.mem_cons, List.not_mem_nil, or_false] at hd
        rcases hd with rfl | rfl | rfl
        · exact h1
        · rintro ⟨w, rfl, hw⟩
          exact h2 (by simpa using hw)
        · exact h3

theorem nested_noLeftRecursion : nested.NoLeftRecursion := by
  refine ⟨fun x => ⟨x, fun z hz => ?_⟩⟩
  obtain ⟨α, β, hp, y, h1, h2⟩ := hz
  rcases nested_split hp with ⟨rfl, -⟩ | ⟨rfl, -⟩ <;> cases h1 with
    | ch _ _ => simp [text] at h2

theorem nested_empty : Derives nested [.nt ()] [] :=
  .nt (α := []) ⟨(.eps, .epsilon), by simp [nested], rfl⟩ .nil

theorem nested_pair : Derives nested [.term 40, .act (), .nt (), .term 41, .nt ()] [.ch 40, .act (), .ch 41] :=
  .ch rfl (.act (.nt (α := []) ⟨(.eps, .epsilon), by simp [nested], rfl⟩ (.ch rfl nested_empty)))

theorem nested_productive : nested.Productive := by
  refine ⟨⟨_, nested_empty⟩, fun x α hp => ?_⟩
  rcases nested_production hp with rfl | rfl
  · exact ⟨_, nested_pair⟩
  · exact ⟨_, .nil⟩

/-- The action counts. -/
def countActions : Selector Unit Nat := fun _ c _ => .ok (c + 1)

-- `()` is in the language, `(` and `)(` are not
example : nested.Language [40, 41] :=
  ⟨[.ch 40, .act (), .ch 41],
    .nt ⟨(.term 40, .push [.term 40, .act (), .nt (), .term 41, .nt ()]), by simp [nested], rfl⟩ nested_pair, rfl⟩
example : correct nested [40, 40, 41, 41, 40, 41] 10 = some true := by decide +kernel
example : correct nested [41, 40] 10 = some false := by decide +kernel
example : (match output countActions false nested [40, 40, 41, 41, 40, 41] 10 0 with
    | .res r => r.subject | _ => 0) = 3 := by decide +kernel
-- the error is at the second `)` : `()` can be continued, `())` cannot
example : (match output (emptyActions Unit Unit) false nested [40, 41, 41] 10 () with
    | .res r => (r.position, r.decision) | _ => (0, .accept)) = (2, .reject) := by decide +kernel

/-- A grammar whose only rule is declared for the wrong symbol: `s → a`, before `b`. -/
def misdeclared : Grammar Unit Unit where
  start := .nt ()
  rules := fun _ => [(.term 98, .push [.term 97])]

/-- C76: the condition LL(1) is needed: a text of the language of this grammar is rejected. -/
theorem C76_fails_not_ll1 : misdeclared.Plain ∧ misdeclared.Language [97] ∧ ∀ fuel, correct misdeclared [97] (fuel + 1) = some false := by
  refine ⟨fun x d hd => ?_, ⟨[.ch 97], .nt (α := [.term 97]) ⟨_, List.mem_singleton.2 rfl, rfl⟩ (.ch rfl .nil), rfl⟩, fun fuel => rfl⟩
  simp only [misdeclared, List.mem_singleton] at hd
  subst hd
  simp

/-- A left recursive grammar: `s → s a` before every character, `s →` at the end. -/
def leftRecursive : Grammar Unit Unit where
  start := .nt ()
  rules := fun _ => [(.anything, .push [.nt (), .term 97]), (.eps, .epsilon)]

/-- C76: the condition on left recursion is needed: with this grammar the parser does not end on the text `a`. -/
theorem C76_fails_left_recursive : leftRecursive.Plain ∧ ¬ leftRecursive.NoLeftRecursion ∧
    ∀ fuel, correct leftRecursive [97] fuel = none := by
  refine ⟨fun x d hd => ?_, fun h => ?_, fun fuel => ?_⟩
  · simp only [leftRecursive, List.mem_cons, List.not_mem_nil, or_false] at hd
    rcases hd with rfl | rfl <;> simp
  · have hl : Leads leftRecursive () () := ⟨[], [.term 97], ⟨(.anything, .push [.nt (), .term 97]), by simp [leftRecursive], rfl⟩,
      [], .nil, rfl⟩
    exact h.induction (C := fun _ => False) () fun x ih => ih () hl
  · have key : ∀ n β, Ctll.decide (actionsOf false (emptyActions Unit Unit)) leftRecursive [97] n 0 (.nt () :: β) () = .timeout := by
      intro n
      induction n with
      | zero => intro β; rfl
      | succ n ih =>
        intro β
        exact ih (.term 97 :: β)
    rw [correct, output, show leftRecursive.start = .nt () from rfl, key]
    rfl

end Ctre

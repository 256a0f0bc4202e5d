import Verif.Lemmas.PcreGram

/-
The run of the parser follows the derivation of the grammar file.
-/
namespace Ctre.Parse

/-! ### The tables do not distinguish characters of a class -/

theorem cls_of_named {v : Nat} (h : notOthers.contains v = true) : cls v = v := if_pos h

theorem cls_contains {l : List Nat} (hl : l.all notOthers.contains = true) (v : Nat) :
    l.contains (cls v) = l.contains v := by
  by_cases hv : notOthers.contains v = true
  · rw [cls_of_named hv]
  · have h0 : cls v = 0 := if_neg hv
    rw [h0]
    have a : l.contains 0 = false := by
      refine Bool.eq_false_iff.2 fun h => ?_
      have := List.all_eq_true.1 hl 0 (by simpa using h)
      rw [named_all.2.2] at this
      cases this
    have b : l.contains v = false := by
      refine Bool.eq_false_iff.2 fun h => ?_
      exact hv (List.all_eq_true.1 hl v (by simpa using h))
    rw [a, b]

theorem Pat.accepts_cls {p : Pat} (hp : p.good = true) (v : Nat) : p.accepts (some (cls v)) = p.accepts (some v) := by
  cases p with
  | term c =>
    have h := cls_contains (l := [c]) (by simpa [Pat.good] using hp) v
    have e : ∀ w, (c == w) = [c].contains w := by
      intro w
      by_cases hw : c = w
      · simp [hw]
      · have : ¬ w = c := fun h => hw h.symm
        simp [hw, this]
    simp only [Pat.accepts]
    rw [e, e, h]
  | set l => exact cls_contains hp v
  | others =>
    simp only [Pat.accepts]
    rw [cls_contains (l := notOthers) (by decide +kernel)]
  | eps => rfl

theorem lookup_cls {v : Nat} : ∀ {l : List (Pat × Rhs)}, (∀ p ∈ l, p.1.good = true) →
    lookup (some (cls v)) l = lookup (some v) l := by
  intro l
  induction l with
  | nil => intro _; rfl
  | cons p l ih =>
    intro h
    obtain ⟨p, r⟩ := p
    simp only [lookup]
    rw [Pat.accepts_cls (h (p, r) (by simp)), ih fun q hq => h q (by simp [hq])]

theorem rule_cls (x : NT) (t : List Nat) : rule x (look t) = rule x t.head? := by
  cases t with
  | nil => rfl
  | cons v t =>
    refine lookup_cls fun p hp => ?_
    have := List.all_eq_true.1 (rules_ok x) p hp
    simp only [ruleOk, Bool.and_eq_true] at this
    exact this.1

theorem pushOf_cls (x : NT) (t : List Nat) : pushOf x (t.head?.map cls) = pushOf x t.head? := by
  unfold pushOf
  rw [show rule x (t.head?.map cls) = rule x t.head? from rule_cls x t]

theorem rule_push_ok {x : NT} {v : Option Nat} {l : List Sym} (h : rule x v = .push l) :
    (∀ s ∈ l, s.good = true) ∧ followCheck (followNT x) l = true := by
  rcases lookup_cases (v := v) (l := rules x) with h1 | ⟨p, r, h1, _, h3⟩
  · rw [rule, h1] at h; cases h
  · rw [rule, h3] at h
    subst h
    have := List.all_eq_true.1 (rules_ok x) _ h1
    simp only [ruleOk, Bool.and_eq_true, List.all_eq_true] at this
    exact this.2

/-! ### Local correctness -/

theorem look_append {y1 y2 : List Event} : Fits' (look (text (y1 ++ y2))) y1 := by
  rw [text_append]
  unfold Fits' look
  cases text y1 with
  | nil => exact .inl rfl
  | cons v t => exact .inr rfl

/-- A replacement by the tables is licensed by the grammar. -/
theorem local_sound {x : NT} {l : List Sym} {y : List Event} {t : List Nat} (hl : pushOf x t.head? = some l)
    (hy : GenT l y) (hv : Fits' (look t) y) : GenS (.nt x) y := by
  have h := agrees x t.head?
  have hp : pushOf x (t.head?.map cls) = some l := by
    rw [← hl]; exact pushOf_cls x t
  unfold agreesAt at h
  rw [hp] at h
  simp only [Option.map_some, Option.getD_some] at h
  split at h
  · rename_i A B hA hB
    simp only [Bool.and_eq_true, List.all_eq_true] at h
    obtain ⟨φ, h1, h2⟩ := genT_forms.1 hy
    obtain ⟨q, h3, h4⟩ := expandAll_complete hB h1 h2 hv
    have h5 := h.1 q h3
    obtain ⟨ψ, h6, h7⟩ := expandAll_sound hA (by simpa using h5) h4
    exact ⟨ψ, h6, h7⟩
  · cases h

/-- The tables replace a nonterminal by what the rest of the text needs. -/
theorem local_complete {x : NT} {y1 y2 : List Event} (hy : GenS (.nt x) y1)
    (hf : inFollow (look (text y2)) (followNT x) = true) :
    ∃ l, pushOf x (text (y1 ++ y2)).head? = some l ∧ GenT l y1 := by
  have h := agrees x (text (y1 ++ y2)).head?
  have hp : pushOf x ((text (y1 ++ y2)).head?.map cls) = pushOf x (text (y1 ++ y2)).head? := by
    exact pushOf_cls x _
  unfold agreesAt at h
  rw [hp] at h
  split at h
  · rename_i A B hA hB
    simp only [Bool.and_eq_true, List.all_eq_true] at h
    obtain ⟨φ, h1, h2⟩ := hy
    obtain ⟨q, h3, h4⟩ := expandAll_complete hA h1 h2 look_append
    have h5 := h.2 q h3
    have hq : q ∈ B := by
      cases hq2 : q.2 with
      | some ρ => rw [hq2] at h5; simp only [Bool.and_eq_true] at h5; simpa using h5.1
      | none =>
        rw [hq2] at h5
        simp only [Bool.and_eq_true, Bool.or_eq_true, Bool.not_eq_true'] at h5
        have hy1 : y1 = acts q.1 := by unfold Entry at h4; rw [hq2] at h4; exact h4
        have : (text (y1 ++ y2)).head?.map cls = look (text y2) := by
          rw [text_append, hy1, text_acts]; rfl
        rw [this, hf] at h5
        rcases h5.1 with h6 | h6
        · cases h6
        · simpa using h6
    obtain ⟨ψ, h6, h7⟩ := expandAll_sound hB hq h4
    cases hpo : pushOf x (text (y1 ++ y2)).head? with
    | none => rw [hpo] at h6; simp at h6
    | some l =>
      rw [hpo] at h6
      exact ⟨l, rfl, genT_forms.2 ⟨ψ, h6, h7⟩⟩
  · cases h

/-! ### First and follow -/

theorem first_nt {x : NT} {y : List Event} (hy : GenS (.nt x) y) :
    (text y = [] → nullNT x = true) ∧ (text y ≠ [] → inFirst (look (text y)) (firstNT x) = true) := by
  have h := agrees x (text y).head?
  unfold agreesAt at h
  split at h
  · rename_i A B hA hB
    simp only [Bool.and_eq_true, List.all_eq_true] at h
    obtain ⟨φ, h1, h2⟩ := hy
    obtain ⟨q, h3, h4⟩ := expandAll_complete hA h1 h2 (.inr rfl)
    have h5 := h.2 q h3
    unfold Entry at h4
    cases hq2 : q.2 with
    | some ρ =>
      rw [hq2] at h4 h5
      simp only [Bool.and_eq_true] at h5
      obtain ⟨w, z, _, rfl, _⟩ := h4
      refine ⟨fun h0 => ?_, fun _ => h5.2⟩
      rw [text_append, text_acts] at h0
      simp [text] at h0
    | none =>
      rw [hq2] at h4 h5
      simp only [Bool.and_eq_true] at h5
      simp only at h4
      refine ⟨fun _ => h5.2, fun h0 => ?_⟩
      rw [h4, text_acts] at h0
      exact (h0 rfl).elim
  · cases h

theorem canon_hit {l : List Nat} (hl : l.all notOthers.contains = true) (v : Nat) :
    (ESym.g (.chars (canon l))).hit (cls v) = true ↔ v ∈ l := by
  have hb : notOthers.all (fun w => w < 128) = true := by decide +kernel
  have hm : ∀ w, w ∈ canon l ↔ w ∈ l := by
    intro w
    simp only [canon, List.mem_filter, List.mem_range, List.contains_iff_mem]
    refine ⟨fun h => h.2, fun h => ⟨?_, h⟩⟩
    have := List.all_eq_true.1 hl w h
    have := List.all_eq_true.1 hb w (by simpa using this)
    simpa using this
  have : (ESym.g (.chars (canon l))).hit (cls v) = true ↔ l.contains (cls v) = true := by
    simp only [ESym.hit, List.contains_iff_mem]
    exact hm _
  rw [this, cls_contains hl]
  simp

/-- What a terminal of the stack reads. -/
def Sym.reads (v : Nat) : Sym → Bool
  | .any => true
  | .term c => c == v
  | .set l => l.contains v
  | _ => false

def Sym.terminal : Sym → Bool
  | .nt _ => false
  | .act _ => false
  | _ => true

theorem genS_terminal {s : Sym} (ht : s.terminal = true) (hg : s.good = true) {y : List Event} :
    GenS s y ↔ ∃ v, s.reads v = true ∧ y = [.ch v] := by
  have one : ∀ e : ESym, (∀ x, e ≠ .g (.nt x)) → (∀ a, e ≠ .g (.act a)) → ∀ y, DerE [e] y ↔ ∃ v, e.hit (cls v) = true ∧ y = [.ch v] := by
    intro e h1 h2 y
    constructor
    · intro h
      cases h with
      | ch h3 h4 => cases h4; exact ⟨_, h3, rfl⟩
      | act _ => exact (h2 _ rfl).elim
      | nt _ _ => exact (h1 _ rfl).elim
    · rintro ⟨v, h3, rfl⟩
      exact .ch h3 .nil
  cases s with
  | nt x => cases ht
  | act a => cases ht
  | any =>
    simp only [GenS, alts, List.mem_singleton, exists_eq_left]
    rw [one _ (by simp) (by simp)]
    simp [ESym.hit, Sym.reads]
  | term c =>
    simp only [GenS, alts, List.mem_singleton, exists_eq_left]
    rw [one _ (by simp) (by simp)]
    have := hit_chars (l := [c]) (by simpa [GSym.good, GSym.named, Sym.good] using hg)
    simp only [this, Sym.reads, List.mem_singleton, beq_iff_eq]
    simp only [eq_comm]
  | set l =>
    simp only [GenS, alts, List.mem_singleton, exists_eq_left]
    rw [one _ (by simp) (by simp)]
    simp only [canon_hit hg, Sym.reads, List.contains_iff_mem]

theorem genS_act {a : Act} {y : List Event} : GenS (.act a) y ↔ y = [.act a] := by
  simp only [GenS, alts, List.mem_singleton, exists_eq_left]
  constructor
  · intro h
    cases h with
    | ch h _ => cases h
    | act h => cases h; rfl
  · rintro rfl
    exact .act .nil

theorem first_sym {s : Sym} (hg : s.good = true) {y : List Event} (hy : GenS s y) :
    (text y = [] → nullS s = true) ∧ (text y ≠ [] → inFirst (look (text y)) (firstS s) = true) := by
  cases s with
  | nt x => exact first_nt hy
  | act a =>
    rw [genS_act] at hy
    subst hy
    exact ⟨fun _ => rfl, fun h => (h rfl).elim⟩
  | any =>
    obtain ⟨v, _, rfl⟩ := (genS_terminal rfl hg).1 hy
    refine ⟨(fun h => by cases h), fun _ => ?_⟩
    exact (List.contains_iff_mem).2 (cls_mem v)
  | term c =>
    obtain ⟨v, h1, rfl⟩ := (genS_terminal rfl hg).1 hy
    refine ⟨(fun h => by cases h), fun _ => ?_⟩
    simp only [Sym.reads, beq_iff_eq] at h1
    subst h1
    show [c].contains (cls c) = true
    rw [cls_of_named hg]
    simp
  | set l =>
    obtain ⟨v, h1, rfl⟩ := (genS_terminal rfl hg).1 hy
    refine ⟨(fun h => by cases h), fun _ => ?_⟩
    show l.contains (cls v) = true
    rw [cls_contains hg]
    exact h1

theorem inFirst_append {v : Option Nat} {l m : List Nat} : inFirst v (l ++ m) = (inFirst v l || inFirst v m) := by
  cases v <;> simp [inFirst]

theorem first_list {l : List Sym} (hg : ∀ s ∈ l, s.good = true) {y : List Event} (hy : GenT l y) :
    (text y = [] → nullL l = true) ∧ (text y ≠ [] → inFirst (look (text y)) (firstL l) = true) := by
  induction l generalizing y with
  | nil =>
    have : y = [] := hy
    subst this
    exact ⟨fun _ => rfl, fun h => (h rfl).elim⟩
  | cons s l ih =>
    obtain ⟨a, b, rfl, h1, h2⟩ := hy
    have f1 := first_sym (hg s (by simp)) h1
    have f2 := ih (fun s hs => hg s (by simp [hs])) h2
    rw [text_append]
    constructor
    · intro h
      obtain ⟨ha, hb⟩ := List.append_eq_nil_iff.1 h
      simp [nullL, f1.1 ha, f2.1 hb]
    · intro h
      simp only [firstL, inFirst_append, Bool.or_eq_true]
      by_cases ha : text a = []
      · rw [ha] at h ⊢
        rw [f1.1 ha, if_pos rfl]
        exact .inr (f2.2 (by simpa using h))
      · left
        have := f1.2 ha
        cases hta : text a with
        | nil => exact (ha hta).elim
        | cons v t => rw [hta] at this; exact this

/-- Every nonterminal of the stack is followed by what the table of followers says. -/
def FollowInv : List Sym → Prop
  | [] => True
  | s :: st => (∀ x, s = .nt x → ∀ y, GenT st y → inFollow (look (text y)) (followNT x) = true) ∧ FollowInv st

theorem inFollow_sub {v : Option Nat} {f g : List Nat × Bool} (h1 : f.1.all g.1.contains = true)
    (h2 : (!f.2 || g.2) = true) (h : inFollow v f = true) : inFollow v g = true := by
  cases v with
  | none =>
    have : f.2 = true := h
    rw [this] at h2
    exact h2
  | some w => exact List.all_eq_true.1 h1 w (List.contains_iff_mem.1 h)

theorem inFirst_sub {v : Option Nat} {l : List Nat} {g : List Nat × Bool} (h1 : l.all g.1.contains = true)
    (h : inFirst v l = true) : inFollow v g = true := by
  cases v with
  | none => cases h
  | some w => exact List.all_eq_true.1 h1 w (List.contains_iff_mem.1 h)

theorem inv_push {f : List Nat × Bool} {st : List Sym} (hst : FollowInv st)
    (hf : ∀ y, GenT st y → inFollow (look (text y)) f = true) {l : List Sym} (hg : ∀ s ∈ l, s.good = true)
    (hc : followCheck f l = true) : FollowInv (l ++ st) := by
  induction l with
  | nil => exact hst
  | cons s l ih =>
    simp only [followCheck, Bool.and_eq_true] at hc
    refine ⟨?_, ih (fun s hs => hg s (by simp [hs])) hc.2⟩
    rintro x rfl y hy
    have hy : GenT (l ++ st) y := hy
    obtain ⟨y1, y2, rfl, h1, h2⟩ := genT_append.1 hy
    have fl := first_list (fun s hs => hg s (by simp [hs])) h1
    have hc := hc.1
    simp only [Bool.and_eq_true, Bool.or_eq_true] at hc
    rw [text_append]
    cases ht : text y1 with
    | nil =>
      have hn := fl.1 ht
      rcases hc.2 with h3 | h3
      · rw [hn] at h3; cases h3
      · exact inFollow_sub h3.1 (by simpa using h3.2) (hf y2 h2)
    | cons v t =>
      have := fl.2 (by rw [ht]; simp)
      rw [ht] at this
      exact inFirst_sub hc.1 this

theorem inv_rule {x : NT} {st : List Sym} (h : FollowInv (.nt x :: st)) {v : Option Nat} {l : List Sym}
    (hl : pushOf x v = some l) : FollowInv (l ++ st) := by
  unfold pushOf at hl
  split at hl
  · rename_i m hm
    cases hl
    have := rule_push_ok hm
    exact inv_push h.2 (h.1 x rfl) this.1 this.2
  · cases hl; exact h.2
  · cases hl

theorem good_rule {x : NT} {v : Option Nat} {l : List Sym} (hl : pushOf x v = some l) : ∀ s ∈ l, s.good = true := by
  unfold pushOf at hl
  split at hl
  · rename_i m hm
    cases hl
    exact (rule_push_ok hm).1
  · cases hl; simp
  · cases hl

/-! ### The run without actions -/

inductive GRun where
  | done (y : List Event)
  | reject
  | timeout

def GRun.cons (e : Event) : GRun → GRun
  | .done y => .done (e :: y)
  | r => r

def run : Nat → List Nat → List Sym → GRun
  | 0, _, _ => .timeout
  | n + 1, inp, st =>
    match st with
    | [] => if inp = [] then .done [] else .reject
    | .act a :: st => (run n inp st).cons (.act a)
    | .nt x :: st =>
      match pushOf x inp.head? with
      | some l => run n inp (l ++ st)
      | none => .reject
    | s :: st =>
      match inp with
      | v :: inp => if s.reads v then (run n inp st).cons (.ch v) else .reject
      | [] => .reject

theorem run_terminal (n : Nat) {s : Sym} (ht : s.terminal = true) (inp : List Nat) (st : List Sym) :
    run (n + 1) inp (s :: st) = match inp with
      | v :: inp => if s.reads v then (run n inp st).cons (.ch v) else .reject
      | [] => .reject := by
  cases s <;> first | rfl | cases ht

theorem GRun.cons_done {e : Event} {r : GRun} {y : List Event} (h : r.cons e = .done y) : ∃ z, r = .done z ∧ y = e :: z := by
  cases r with
  | done z => cases h; exact ⟨z, rfl, rfl⟩
  | reject => cases h
  | timeout => cases h

theorem terminal_cases (s : Sym) : (∃ x, s = .nt x) ∨ (∃ a, s = .act a) ∨ s.terminal = true := by
  cases s <;> simp [Sym.terminal]

theorem run_sound : ∀ {n inp st y}, run n inp st = .done y → (∀ s ∈ st, s.good = true) → GenT st y ∧ text y = inp := by
  intro n
  induction n with
  | zero => intro inp st y h; cases h
  | succ n ih =>
    intro inp st y h hg
    cases st with
    | nil =>
      simp only [run] at h
      split at h
      · cases h; rename_i hi; exact ⟨rfl, hi.symm⟩
      · cases h
    | cons s st =>
      have hg' : ∀ s ∈ st, s.good = true := fun s hs => hg s (by simp [hs])
      rcases terminal_cases s with ⟨x, rfl⟩ | ⟨a, rfl⟩ | ht
      · simp only [run] at h
        split at h
        · rename_i l hl
          have hg2 := good_rule hl
          obtain ⟨h1, rfl⟩ := ih h (fun s hs => (List.mem_append.1 hs).elim (hg2 s) (hg' s))
          obtain ⟨y1, y2, rfl, h2, h3⟩ := genT_append.1 h1
          exact ⟨⟨y1, y2, rfl, local_sound hl h2 look_append, h3⟩, rfl⟩
        · cases h
      · simp only [run] at h
        obtain ⟨z, h1, rfl⟩ := GRun.cons_done h
        obtain ⟨h2, h3⟩ := ih h1 hg'
        exact ⟨⟨[.act a], z, rfl, genS_act.2 rfl, h2⟩, h3⟩
      · rw [run_terminal n ht] at h
        cases inp with
        | nil => cases h
        | cons v inp =>
          simp only at h
          split at h
          · rename_i hr
            obtain ⟨z, h1, rfl⟩ := GRun.cons_done h
            obtain ⟨h2, h3⟩ := ih h1 hg'
            exact ⟨⟨[.ch v], z, rfl, (genS_terminal ht (hg s (by simp))).2 ⟨v, hr, rfl⟩, h2⟩, by simp [text, h3]⟩
          · cases h

theorem run_complete : ∀ n {st y}, GenT st y → FollowInv st → (∀ s ∈ st, s.good = true) →
    run n (text y) st = .done y ∨ run n (text y) st = .timeout := by
  intro n
  induction n with
  | zero => intro st y _ _ _; exact .inr rfl
  | succ n ih =>
    intro st y hy hi hg
    cases st with
    | nil =>
      have : y = [] := hy
      subst this
      exact .inl rfl
    | cons s st =>
      have hg' : ∀ s ∈ st, s.good = true := fun s hs => hg s (by simp [hs])
      obtain ⟨y1, y2, rfl, h1, h2⟩ := hy
      rcases terminal_cases s with ⟨x, rfl⟩ | ⟨a, rfl⟩ | ht
      · obtain ⟨l, hl, h3⟩ := local_complete h1 (hi.1 x rfl y2 h2)
        simp only [run, hl]
        have hg2 := good_rule hl
        exact ih (genT_append.2 ⟨y1, y2, rfl, h3, h2⟩) (inv_rule hi hl)
          (fun s hs => (List.mem_append.1 hs).elim (hg2 s) (hg' s))
      · rw [genS_act] at h1
        subst h1
        simp only [run]
        rcases ih h2 hi.2 hg' with h | h
        · left
          show (run n (text y2) st).cons _ = _
          rw [h]; rfl
        · right
          show (run n (text y2) st).cons _ = _
          rw [h]; rfl
      · obtain ⟨v, hr, rfl⟩ := (genS_terminal ht (hg s (by simp))).1 h1
        rw [run_terminal n ht]
        show (if s.reads v then (run n (text y2) st).cons (.ch v) else .reject) = _ ∨
          (if s.reads v then (run n (text y2) st).cons (.ch v) else .reject) = _
        rw [if_pos hr]
        rcases ih h2 hi.2 hg' with h | h
        · left; rw [h]; rfl
        · right; rw [h]; rfl

theorem run_terminates : ∀ n inp st, parseCost inp.length st < n → run n inp st = .timeout → False := by
  intro n
  induction n with
  | zero => intro _ _ h; simp at h
  | succ n ih =>
    have hc : ∀ {e r}, GRun.cons e r = .timeout → r = .timeout := by
      intro e r h; cases r <;> first | rfl | cases h
    intro inp st h ht
    cases st with
    | nil => simp only [run] at ht; split at ht <;> cases ht
    | cons s st =>
      rcases terminal_cases s with ⟨x, rfl⟩ | ⟨a, rfl⟩ | hs
      · simp only [run] at ht
        split at ht
        · rename_i l hl
          unfold pushOf at hl
          split at hl
          · rename_i m hm
            cases hl
            have := parseCost_push (st := st) hm
            exact ih _ _ (by omega) ht
          · cases hl
            have := parseCost_eps inp.length x st
            exact ih _ _ (by simp; omega) ht
          · cases hl
        · cases ht
      · have := parseCost_drop inp.length (.act a) st rfl
        simp only [run] at ht
        exact ih _ _ (by omega) (hc ht)
      · rw [run_terminal n hs] at ht
        cases inp with
        | nil => cases ht
        | cons v inp =>
          have := parseCost_read inp.length s st (by cases s <;> first | rfl | cases hs)
          simp only [List.length_cons] at h
          simp only at ht
          split at ht
          · exact ih _ _ (by omega) (hc ht)
          · cases ht

/-! ### The parser -/

/-- The parser's answer that corresponds to what the actions yield. -/
def Answer : ARes → PRes → Prop
  | .ok c, r => r = .accept c
  | .reject, r => ∃ rest, r = .reject rest
  | .ill, r => r = .ill

theorem decide_terminal (P : PropTable) (n : Nat) (prev : Option Nat) {s : Sym} (ht : s.terminal = true) (inp : List Nat)
    (st : List Sym) (c : Ctx) :
    decide P (n + 1) prev inp (s :: st) c = match inp with
      | v :: inp => if s.reads v then decide P n (some v) inp st c else .reject (v :: inp)
      | [] => .reject [] := by
  cases s with
  | nt x => cases ht
  | act a => cases ht
  | any => cases inp <;> simp [decide, Sym.reads]
  | term t => cases inp <;> simp [decide, Sym.reads]
  | set l => cases inp <;> simp [decide, Sym.reads]

theorem decide_nt (P : PropTable) (n : Nat) (prev : Option Nat) (x : NT) (inp : List Nat) (st : List Sym) (c : Ctx) :
    decide P (n + 1) prev inp (.nt x :: st) c = match pushOf x inp.head? with
      | some l => decide P n prev inp (l ++ st) c
      | none => .reject inp := by
  unfold pushOf
  cases inp with
  | nil => simp only [decide]; cases rule x ([] : List Nat).head? <;> rfl
  | cons v inp => simp only [decide]; cases rule x (v :: inp).head? <;> rfl

theorem decide_act (P : PropTable) (n : Nat) (prev : Option Nat) (a : Act) (inp : List Nat) (st : List Sym) (c : Ctx) :
    decide P (n + 1) prev inp (.act a :: st) c = match apply P prev c a with
      | .ok c' => decide P n prev inp st c'
      | .reject => .reject inp
      | .ill => .ill := by
  cases inp <;> rfl

theorem decide_of_run (P : PropTable) : ∀ {n inp st y}, run n inp st = .done y → ∀ prev c,
    Answer (perform P prev c y) (decide P n prev inp st c) := by
  intro n
  induction n with
  | zero => intro inp st y h; cases h
  | succ n ih =>
    intro inp st y h prev c
    cases st with
    | nil =>
      simp only [run] at h
      split at h
      · rename_i hi; cases h; subst hi; rfl
      · cases h
    | cons s st =>
      rcases terminal_cases s with ⟨x, rfl⟩ | ⟨a, rfl⟩ | ht
      · rw [decide_nt]
        simp only [run] at h
        cases hl : pushOf x inp.head? with
        | none => rw [hl] at h; cases h
        | some l => rw [hl] at h; exact ih h prev c
      · rw [decide_act]
        simp only [run] at h
        obtain ⟨z, h1, rfl⟩ := GRun.cons_done h
        simp only [perform]
        cases apply P prev c a with
        | ok c' => exact ih h1 prev c'
        | reject => exact ⟨_, rfl⟩
        | ill => rfl
      · rw [decide_terminal P n prev ht]
        rw [run_terminal n ht] at h
        cases inp with
        | nil => cases h
        | cons v inp =>
          simp only at h ⊢
          split at h
          · rename_i hr
            obtain ⟨z, h1, rfl⟩ := GRun.cons_done h
            rw [if_pos hr]
            exact ih h1 (some v) c
          · cases h

theorem run_of_decide (P : PropTable) : ∀ {n prev inp st c c'}, decide P n prev inp st c = .accept c' →
    ∃ y, run n inp st = .done y := by
  intro n
  induction n with
  | zero => intro prev inp st c c' h; cases h
  | succ n ih =>
    intro prev inp st c c' h
    cases st with
    | nil =>
      cases inp with
      | nil => exact ⟨[], rfl⟩
      | cons v inp => cases h
    | cons s st =>
      rcases terminal_cases s with ⟨x, rfl⟩ | ⟨a, rfl⟩ | ht
      · rw [decide_nt] at h
        simp only [run]
        cases hl : pushOf x inp.head? with
        | none => rw [hl] at h; cases h
        | some l => rw [hl] at h; exact ih h
      · rw [decide_act] at h
        simp only [run]
        cases ha : apply P prev c a with
        | ok c1 =>
          rw [ha] at h
          obtain ⟨y, hy⟩ := ih h
          exact ⟨.act a :: y, by rw [hy]; rfl⟩
        | reject => rw [ha] at h; cases h
        | ill => rw [ha] at h; cases h
      · rw [decide_terminal P n prev ht] at h
        rw [run_terminal n ht]
        cases inp with
        | nil => cases h
        | cons v inp =>
          simp only at h ⊢
          split at h
          · rename_i hr
            obtain ⟨y, hy⟩ := ih h
            exact ⟨.ch v :: y, by rw [if_pos hr, hy]; rfl⟩
          · cases h

/-! ### The start symbol -/

theorem genT_start {y : List Event} : GenT [.nt .s] y ↔ Derives [.nt .start] y := by
  rw [derives_iff (by intro s hs; simp only [List.mem_singleton] at hs; subst hs; rfl)]
  constructor
  · rintro ⟨a, b, rfl, ⟨φ, h1, h2⟩, h3⟩
    have : b = [] := h3
    subst this
    simp only [alts, mean, List.map_cons, List.map_nil, List.mem_singleton] at h1
    subst h1
    simpa using h2
  · intro h
    exact ⟨y, [], by simp, ⟨_, by simp [alts, mean], h⟩, rfl⟩

theorem inv_start : FollowInv [.nt .s] := by
  refine ⟨?_, trivial⟩
  rintro x hx y hy
  cases hx
  have : y = [] := hy
  subst this
  decide +kernel

theorem run_start {y : List Event} (h : Derives [.nt .start] y) :
    run (parseFuel (text y).length) (text y) [.nt .s] = .done y := by
  rcases run_complete (parseFuel (text y).length) (genT_start.2 h) inv_start (by simp [Sym.good]) with h | h
  · exact h
  · refine (run_terminates _ _ _ ?_ h).elim
    simp [parseCost, parseFuel, eager, weightSyms, Sym.weight, NT.weight]
    omega

end Ctre.Parse

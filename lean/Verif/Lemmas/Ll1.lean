import Verif.Model.Ll1
import Verif.Lemmas.PcreGramRun

/-
The parser machine as written (Model/Ll1.lean) compared with the machine without rounds.
-/
namespace Ctre.Parse

variable {σ : Type}

inductive GRes (σ : Type) where
  | accept (c : σ)
  | reject (rest : List Nat)
  | ill
  | timeout

/-- The machine without rounds, for any actions. -/
def direct (A : Selector σ) : Nat → Option Nat → List Nat → List Sym → σ → GRes σ
  | 0, _, _, _, _ => .timeout
  | n + 1, prev, inp, st, c =>
    match st with
    | [] => if inp = [] then .accept c else .reject inp
    | .act a :: st =>
      match A prev c a with
      | .ok c' => direct A n prev inp st c'
      | .reject => .reject inp
      | .ill => .ill
    | .nt x :: st =>
      match pushOf x inp.head? with
      | some l => direct A n prev inp (l ++ st) c
      | none => .reject inp
    | s :: st =>
      match inp with
      | v :: inp => if s.reads v then direct A n (some v) inp st c else .reject (v :: inp)
      | [] => .reject []

theorem direct_terminal (A : Selector σ) (n : Nat) (prev : Option Nat) {s : Sym} (ht : s.terminal = true) (inp : List Nat)
    (st : List Sym) (c : σ) :
    direct A (n + 1) prev inp (s :: st) c = match inp with
      | v :: inp => if s.reads v then direct A n (some v) inp st c else .reject (v :: inp)
      | [] => .reject [] := by
  cases s with
  | nt x => cases ht
  | act a => cases ht
  | any => cases inp <;> simp [direct]
  | term t => cases inp <;> simp [direct]
  | set l => cases inp <;> simp [direct]

theorem pops_reads (s : Sym) (v : Nat) : s.pops v = s.reads v := by cases s <;> rfl

theorem direct_mono (A : Selector σ) : ∀ n prev inp st c, direct A n prev inp st c ≠ .timeout →
    direct A (n + 1) prev inp st c = direct A n prev inp st c := by
  intro n
  induction n with
  | zero => intro _ _ _ _ h; exact (h rfl).elim
  | succ n ih =>
    intro prev inp st c h
    cases st with
    | nil => rfl
    | cons s st =>
      rcases terminal_cases s with ⟨x, rfl⟩ | ⟨a, rfl⟩ | ht
      · simp only [direct] at h
        conv => lhs; unfold direct
        conv => rhs; unfold direct
        simp only
        cases hx : pushOf x inp.head? with
        | none => rfl
        | some l => rw [hx] at h; exact ih _ _ _ _ h
      · simp only [direct] at h
        conv => lhs; unfold direct
        conv => rhs; unfold direct
        simp only
        cases hx : A prev c a with
        | ok c' => rw [hx] at h; exact ih _ _ _ _ h
        | reject => rfl
        | ill => rfl
      · rw [direct_terminal A n prev ht] at h
        rw [direct_terminal A (n + 1) prev ht, direct_terminal A n prev ht]
        cases inp with
        | nil => rfl
        | cons v inp =>
          simp only at h ⊢
          split
          · rename_i hr; rw [if_pos hr] at h; exact ih _ _ _ _ h
          · rfl

theorem direct_le (A : Selector σ) {n m : Nat} {prev inp st c} (h : n ≤ m) (hn : direct A n prev inp st c ≠ .timeout) :
    direct A m prev inp st c = direct A n prev inp st c := by
  obtain ⟨k, rfl⟩ := Nat.exists_eq_add_of_le h
  induction k with
  | zero => rfl
  | succ k ih =>
    rw [Nat.add_succ, direct_mono, ih (by omega)]
    rw [ih (by omega)]; exact hn

/-- The machine without rounds ends with this answer. -/
def Ends (A : Selector σ) (prev : Option Nat) (inp : List Nat) (st : List Sym) (c : σ) (g : GRes σ) : Prop :=
  g ≠ .timeout ∧ ∃ n, direct A n prev inp st c = g

theorem Ends.unique {A : Selector σ} {prev inp st c} {g g' : GRes σ} (h : Ends A prev inp st c g)
    (h' : Ends A prev inp st c g') : g = g' := by
  obtain ⟨hg, n, hn⟩ := h
  obtain ⟨hg', m, hm⟩ := h'
  have e1 := direct_le A (Nat.le_max_left n m) (by rw [hn]; exact hg)
  have e2 := direct_le A (Nat.le_max_right n m) (by rw [hm]; exact hg')
  rw [← hn, ← hm, ← e1, e2]

theorem Ends.act {A : Selector σ} {prev inp a st} {c c' : σ} {g : GRes σ} (h : A prev c a = .ok c')
    (hg : Ends A prev inp st c' g) : Ends A prev inp (.act a :: st) c g := by
  obtain ⟨h1, n, h2⟩ := hg
  exact ⟨h1, n + 1, by simp only [direct, h, h2]⟩

theorem Ends.nt {A : Selector σ} {prev inp x st l} {c : σ} {g : GRes σ} (h : pushOf x inp.head? = some l)
    (hg : Ends A prev inp (l ++ st) c g) : Ends A prev inp (.nt x :: st) c g := by
  obtain ⟨h1, n, h2⟩ := hg
  exact ⟨h1, n + 1, by simp only [direct, h, h2]⟩

theorem Ends.read {A : Selector σ} {prev v inp s st} {c : σ} {g : GRes σ} (ht : s.terminal = true) (h : s.reads v = true)
    (hg : Ends A (some v) inp st c g) : Ends A prev (v :: inp) (s :: st) c g := by
  obtain ⟨h1, n, h2⟩ := hg
  exact ⟨h1, n + 1, by rw [direct_terminal A n prev ht]; simp only [h, if_true, h2]⟩

theorem currentTerm_eq (input : List Nat) (pos : Nat) : currentTerm input pos = (input.drop pos).head? := by
  unfold currentTerm
  split
  · rename_i h; simp [List.head?_drop]
  · rename_i h; simp [List.drop_eq_nil_of_le (Nat.le_of_not_lt h)]

theorem drop_of_current {input : List Nat} {pos v : Nat} (h : currentTerm input pos = some v) :
    pos < input.length ∧ input.drop pos = v :: input.drop (pos + 1) ∧ previousTerm input (pos + 1) = some v := by
  unfold currentTerm at h
  split at h
  · rename_i hp
    have e : input[pos]'hp = v := by rw [List.getElem?_eq_getElem hp] at h; exact Option.some.inj h
    refine ⟨hp, by rw [List.drop_eq_getElem_cons hp, e], ?_⟩
    simp only [previousTerm, Nat.add_one_ne_zero, if_false, Nat.add_sub_cancel, hp, if_true, h]
  · cases h

theorem drop_of_no_current {input : List Nat} {pos : Nat} (h : currentTerm input pos = none) : input.drop pos = [] := by
  rw [currentTerm_eq] at h
  simpa using h

/-- What one round says about the machine without rounds. -/
def Round (A : Selector σ) (input : List Nat) (pos : Nat) (st : List Sym) (c : σ) : LRes σ → Prop
  | .timeout => True
  | .ill => Ends A (previousTerm input pos) (input.drop pos) st c .ill
  | .res r =>
    match r.decision with
    | .accept => r.position = pos ∧ Ends A (previousTerm input pos) (input.drop pos) st c (.accept r.subject)
    | .reject => r.position = pos ∧ Ends A (previousTerm input pos) (input.drop pos) st c (.reject (input.drop pos))
    | .undecided => r.position = pos + 1 ∧ pos < input.length ∧
        parseCost (input.length - r.position) r.stack ≤ parseCost (input.length - pos) st ∧
        ∀ g, Ends A (previousTerm input r.position) (input.drop r.position) r.stack r.subject g →
          Ends A (previousTerm input pos) (input.drop pos) st c g

theorem Round.mono {A : Selector σ} {input : List Nat} {pos : Nat} {st st' : List Sym} {c c' : σ} {r : LRes σ}
    (h : ∀ g, Ends A (previousTerm input pos) (input.drop pos) st' c' g → Ends A (previousTerm input pos) (input.drop pos) st c g)
    (hc : parseCost (input.length - pos) st' ≤ parseCost (input.length - pos) st)
    (hr : Round A input pos st' c' r) : Round A input pos st c r := by
  cases r with
  | timeout => trivial
  | ill => exact h _ hr
  | res r =>
    simp only [Round] at hr ⊢
    split <;> simp_all
    · rename_i hd
      rw [← hr.1]; exact Nat.le_trans hr.2.2.1 hc

theorem decideAt_terminal (A : Selector σ) (input : List Nat) (n pos : Nat) {s : Sym} (ht : s.terminal = true) (st : List Sym) (c : σ) :
    decideAt A input (n + 1) pos (s :: st) c = match currentTerm input pos with
      | some v => if s.reads v then .res ⟨pos + 1, st, c, .undecided⟩ else .res ⟨pos, st, c, .reject⟩
      | none => .res ⟨pos, st, c, .reject⟩ := by
  cases s with
  | nt x => cases ht
  | act a => cases ht
  | any => simp only [decideAt, pops_reads]; cases currentTerm input pos <;> rfl
  | term t => simp only [decideAt, pops_reads]; cases currentTerm input pos <;> rfl
  | set l => simp only [decideAt, pops_reads]; cases currentTerm input pos <;> rfl

/-- A rule of a nonterminal: the shortcut for a character, or the symbols are put on the stack. -/
theorem decideAt_nt (A : Selector σ) (input : List Nat) (n pos : Nat) (x : NT) (st : List Sym) (c : σ) :
    (pushOf x (currentTerm input pos) = none ∧ decideAt A input (n + 1) pos (.nt x :: st) c = .res ⟨pos, st, c, .reject⟩) ∨
    ∃ l, pushOf x (currentTerm input pos) = some l ∧
      (decideAt A input (n + 1) pos (.nt x :: st) c = decideAt A input n pos (l ++ st) c ∨
       ∃ t l', l = .term t :: l' ∧ currentTerm input pos = some t ∧
        decideAt A input (n + 1) pos (.nt x :: st) c = .res ⟨pos + 1, l' ++ st, c, .undecided⟩) := by
  simp only [decideAt, pushOf]
  cases hr : rule x (currentTerm input pos) with
  | eps => exact .inr ⟨[], rfl, .inl rfl⟩
  | reject => exact .inl ⟨rfl, rfl⟩
  | push l =>
    refine .inr ⟨l, rfl, ?_⟩
    cases l with
    | nil => exact .inl rfl
    | cons s l =>
      cases s with
      | term t =>
        simp only
        split
        · rename_i ht; exact .inr ⟨t, l, rfl, ht, rfl⟩
        · exact .inl rfl
      | _ => exact .inl rfl

theorem parseCost_pushOf {x : NT} {inp : List Nat} {l st : List Sym} (h : pushOf x inp.head? = some l) :
    parseCost inp.length (l ++ st) < parseCost inp.length (.nt x :: st) := by
  unfold pushOf at h
  split at h
  · rename_i m hm; cases h; exact parseCost_push hm
  · cases h; exact parseCost_eps inp.length x st
  · cases h

theorem decideAt_round (A : Selector σ) (input : List Nat) : ∀ n pos st c, pos ≤ input.length →
    Round A input pos st c (decideAt A input n pos st c) ∧
    (parseCost (input.length - pos) st < n → decideAt A input n pos st c ≠ .timeout) := by
  intro n
  induction n with
  | zero => intro pos st c _; exact ⟨trivial, fun h => absurd h (by omega)⟩
  | succ n ih =>
    intro pos st c hp
    cases st with
    | nil =>
      simp only [decideAt]
      split
      · rename_i h
        exact ⟨⟨rfl, by simp, 1, by simp [direct, drop_of_no_current h]⟩, by simp⟩
      · rename_i v h
        obtain ⟨h1, h2, _⟩ := drop_of_current h
        exact ⟨⟨rfl, by simp, 1, by simp [direct, h2]⟩, by simp⟩
    | cons s st =>
      rcases terminal_cases s with ⟨x, rfl⟩ | ⟨a, rfl⟩ | ht
      · have hcur := currentTerm_eq input pos
        rcases decideAt_nt A input n pos x st c with ⟨h1, h2⟩ | ⟨l, h1, h2⟩
        · rw [h2]
          refine ⟨⟨rfl, by simp, 1, ?_⟩, by simp⟩
          rw [hcur] at h1
          simp only [direct, h1]
        · rw [hcur] at h1
          have hcost := parseCost_pushOf (st := st) h1
          rw [List.length_drop] at hcost
          rcases h2 with h2 | ⟨t, l', rfl, h3, h2⟩
          · rw [h2]
            obtain ⟨i1, i2⟩ := ih pos (l ++ st) c hp
            refine ⟨i1.mono (fun g hg => hg.nt h1) (by omega), fun h => i2 (by omega)⟩
          · rw [h2]
            obtain ⟨h4, h5, h6⟩ := drop_of_current h3
            refine ⟨⟨rfl, h4, ?_, fun g hg => ?_⟩, by simp⟩
            · have := parseCost_read (input.length - (pos + 1)) (.term t) (l' ++ st) rfl
              rw [show input.length - (pos + 1) + 1 = input.length - pos by omega] at this
              simp only [List.cons_append] at hcost
              simp only
              omega
            · refine Ends.nt h1 ?_
              rw [h5]
              simp only at hg
              rw [h6] at hg
              exact Ends.read rfl (by simp [Sym.reads]) hg
      · simp only [decideAt]
        have hcost := parseCost_drop (input.length - pos) (.act a) st rfl
        cases ha : A (previousTerm input pos) c a with
        | ok c' =>
          obtain ⟨i1, i2⟩ := ih pos st c' hp
          exact ⟨i1.mono (fun g hg => hg.act ha) (by omega), fun h => i2 (by omega)⟩
        | reject => exact ⟨⟨rfl, by simp, 1, by simp only [direct, ha]⟩, by simp⟩
        | ill => exact ⟨⟨by simp, 1, by simp only [direct, ha]⟩, by simp⟩
      · rw [decideAt_terminal A input n pos ht]
        cases hcur : currentTerm input pos with
        | none =>
          refine ⟨⟨rfl, by simp, 1, ?_⟩, by simp⟩
          rw [drop_of_no_current hcur, direct_terminal A 0 _ ht]
        | some v =>
          obtain ⟨h4, h5, h6⟩ := drop_of_current hcur
          simp only
          split
          · rename_i hr
            refine ⟨⟨rfl, h4, ?_, fun g hg => ?_⟩, by simp⟩
            · have := parseCost_read (input.length - (pos + 1)) s st (by cases s <;> first | rfl | cases ht)
              rw [show input.length - (pos + 1) + 1 = input.length - pos by omega] at this
              simp only
              omega
            · rw [h5]
              simp only at hg
              rw [h6] at hg
              exact Ends.read ht hr hg
          · rename_i hr
            refine ⟨⟨rfl, by simp, 1, ?_⟩, by simp⟩
            rw [h5, direct_terminal A 0 _ ht]
            simp only [hr]
            rfl

/-- The answer of the machine without rounds that a result stands for. -/
def LRes.answer (input : List Nat) : LRes σ → GRes σ
  | .res r =>
    match r.decision with
    | .accept => .accept r.subject
    | .reject => .reject (input.drop r.position)
    | .undecided => .timeout
  | .ill => .ill
  | .timeout => .timeout

/-- After `k` rounds: decided, or `k` characters are read. -/
def After (A : Selector σ) (input : List Nat) (c : σ) (k : Nat) : LRes σ → Prop
  | .res r => r.position ≤ input.length ∧ match r.decision with
    | .undecided => r.position = k ∧ parseCost (input.length - r.position) r.stack < parseFuel input.length ∧
        ∀ g, Ends A (previousTerm input r.position) (input.drop r.position) r.stack r.subject g →
          Ends A none input [.nt .s] c g
    | _ => Ends A none input [.nt .s] c (LRes.answer input (.res r))
  | .ill => Ends A none input [.nt .s] c .ill
  | .timeout => False

theorem after_decide (A : Selector σ) (input : List Nat) (c0 : σ) {k pos : Nat} {st : List Sym} {c : σ} (hp : pos ≤ input.length)
    (hk : pos = k) (hc : parseCost (input.length - pos) st < parseFuel input.length)
    (h : ∀ g, Ends A (previousTerm input pos) (input.drop pos) st c g → Ends A none input [.nt .s] c0 g) :
    After A input c0 (k + 1) (decideAt A input (parseFuel input.length) pos st c) := by
  obtain ⟨h1, h2⟩ := decideAt_round A input (parseFuel input.length) pos st c hp
  have h2 := h2 hc
  cases hr : decideAt A input (parseFuel input.length) pos st c with
  | timeout => exact h2 hr
  | ill => rw [hr] at h1; exact h _ h1
  | res r =>
    rw [hr] at h1
    obtain ⟨rp, rs, rc, rd⟩ := r
    cases rd with
    | accept =>
      obtain ⟨h3, h4⟩ := h1
      simp only at h3
      subst h3
      exact ⟨hp, h _ h4⟩
    | reject =>
      obtain ⟨h3, h4⟩ := h1
      simp only at h3
      subst h3
      exact ⟨hp, h _ h4⟩
    | undecided =>
      obtain ⟨h3, h4, h5, h6⟩ := h1
      simp only at h3 h5 h6
      subst h3
      refine ⟨h4, by simp only; omega, by simp only; omega, fun g hg => h g (h6 g hg)⟩

theorem after_round {A : Selector σ} {input : List Nat} {c : σ} {k : Nat} {r : LRes σ} (h : After A input c k r) :
    After A input c (k + 1) (r.round A input (parseFuel input.length)) := by
  cases r with
  | timeout => exact h
  | ill => exact h
  | res r =>
    obtain ⟨rp, rs, rc, rd⟩ := r
    cases rd with
    | accept => exact h
    | reject => exact h
    | undecided => exact after_decide A input c h.1 h.2.1 h.2.2.1 h.2.2.2

theorem after_rounds {A : Selector σ} {input : List Nat} {c : σ} : ∀ {n k : Nat} {r : LRes σ}, After A input c k r →
    After A input c (k + n) (r.rounds A input (parseFuel input.length) n) := by
  intro n
  induction n with
  | zero => intro k r h; exact h
  | succ n ih =>
    intro k r h
    have := ih (after_round h)
    rwa [show k + 1 + n = k + (n + 1) by omega] at this

/-- The trampoline ends decided, with the answer of the machine without rounds. -/
theorem trampoline_ends (A : Selector σ) (input : List Nat) (c : σ) :
    Ends A none input [.nt .s] c ((trampoline A input c).answer input) ∧
    ∀ r, trampoline A input c = .res r → r.decision ≠ .undecided ∧ r.position ≤ input.length := by
  have h0 : After A input c 1 (decideAt A input (parseFuel input.length) 0 [.nt .s] c) := by
    refine after_decide A input c (Nat.zero_le _) rfl ?_ (fun g hg => hg)
    simp [parseCost, parseFuel, eager, weightSyms, Sym.weight, NT.weight]
    omega
  have h := after_rounds (n := input.length) h0
  change After A input c (1 + input.length) (trampoline A input c) at h
  cases hr : trampoline A input c with
  | timeout => rw [hr] at h; exact h.elim
  | ill => rw [hr] at h; exact ⟨h, by simp⟩
  | res r =>
    rw [hr] at h
    obtain ⟨rp, rs, rc, rd⟩ := r
    cases rd with
    | accept => exact ⟨h.2, by rintro r ⟨⟩; exact ⟨by simp, h.1⟩⟩
    | reject => exact ⟨h.2, by rintro r ⟨⟩; exact ⟨by simp, h.1⟩⟩
    | undecided =>
      have h1 := h.1
      have h2 := h.2.1
      simp only at h1 h2
      omega

/-! ### The actions of patterns -/

def GRes.toPRes : GRes Ctx → PRes
  | .accept c => .accept c
  | .reject l => .reject l
  | .ill => .ill
  | .timeout => .timeout

theorem decide_direct (P : PropTable) : ∀ n prev inp st c,
    decide P n prev inp st c = (direct (pcreActions P) n prev inp st c).toPRes := by
  intro n
  induction n with
  | zero => intros; simp [decide, direct, GRes.toPRes]
  | succ n ih =>
    intro prev inp st c
    cases st with
    | nil => cases inp <;> rfl
    | cons s st =>
      rcases terminal_cases s with ⟨x, rfl⟩ | ⟨a, rfl⟩ | ht
      · rw [decide_nt]
        simp only [direct]
        cases pushOf x inp.head? with
        | none => rfl
        | some l => exact ih _ _ _ _
      · rw [decide_act]
        simp only [direct, pcreActions]
        cases apply P prev c a with
        | ok c' => exact ih _ _ _ _
        | reject => rfl
        | ill => rfl
      · rw [decide_terminal P n prev ht, direct_terminal _ n prev ht]
        cases inp with
        | nil => rfl
        | cons v inp =>
          simp only
          split
          · exact ih _ _ _ _
          · rfl

theorem trampoline_pcre (P : PropTable) (input : List Nat) :
    parse P input = ((trampoline (pcreActions P) input {}).answer input).toPRes := by
  have h1 := (trampoline_ends (pcreActions P) input {}).1
  have h2 : Ends (pcreActions P) none input [.nt .s] {} (direct (pcreActions P) (parseFuel input.length) none input [.nt .s] {}) := by
    refine ⟨fun h => ?_, _, rfl⟩
    have := parse_terminates P input (n := parseFuel input.length) (by simp [parseFuel]; omega)
    rw [decide_direct, h] at this
    exact this rfl
  rw [← h2.unique h1, ← decide_direct]
  rfl

/-! ### No actions -/

theorem direct_of_run : ∀ {n inp st y}, run n inp st = .done y → ∀ prev, direct emptyActions n prev inp st () = .accept () := by
  intro n
  induction n with
  | zero => intro inp st y h; cases h
  | succ n ih =>
    intro inp st y h prev
    cases st with
    | nil =>
      simp only [run] at h
      split at h
      · rename_i hi; simp only [direct, if_pos hi]
      · cases h
    | cons s st =>
      rcases terminal_cases s with ⟨x, rfl⟩ | ⟨a, rfl⟩ | ht
      · simp only [run] at h
        simp only [direct]
        cases hl : pushOf x inp.head? with
        | none => rw [hl] at h; cases h
        | some l => rw [hl] at h; exact ih h prev
      · simp only [run] at h
        obtain ⟨z, h1, rfl⟩ := GRun.cons_done h
        simp only [direct, emptyActions]
        exact ih h1 prev
      · rw [direct_terminal _ n prev ht]
        rw [run_terminal n ht] at h
        cases inp with
        | nil => cases h
        | cons v inp =>
          simp only at h ⊢
          split at h
          · rename_i hr
            obtain ⟨z, h1, rfl⟩ := GRun.cons_done h
            rw [if_pos hr]
            exact ih h1 (some v)
          · cases h

theorem run_of_direct (A : Selector σ) : ∀ {n prev inp st c c'}, direct A n prev inp st c = .accept c' → ∃ y, run n inp st = .done y := by
  intro n
  induction n with
  | zero => intro prev inp st c c' h; cases h
  | succ n ih =>
    intro prev inp st c c' h
    cases st with
    | nil =>
      simp only [direct] at h
      split at h
      · rename_i hi; exact ⟨[], by simp only [run, if_pos hi]⟩
      · cases h
    | cons s st =>
      rcases terminal_cases s with ⟨x, rfl⟩ | ⟨a, rfl⟩ | ht
      · simp only [direct] at h
        simp only [run]
        cases hl : pushOf x inp.head? with
        | none => rw [hl] at h; cases h
        | some l => rw [hl] at h; exact ih h
      · simp only [direct] at h
        simp only [run]
        cases ha : A prev c a with
        | ok c1 =>
          rw [ha] at h
          obtain ⟨y, hy⟩ := ih h
          exact ⟨.act a :: y, by rw [hy]; rfl⟩
        | reject => rw [ha] at h; cases h
        | ill => rw [ha] at h; cases h
      · rw [direct_terminal A n prev ht] at h
        rw [run_terminal n ht]
        cases inp with
        | nil => cases h
        | cons v inp =>
          simp only at h ⊢
          split at h
          · rename_i hr
            obtain ⟨y, hy⟩ := ih h
            exact ⟨.ch v :: y, by rw [if_pos hr, hy]; rfl⟩
          · cases h

theorem direct_empty_not_ill : ∀ n prev inp st, direct emptyActions n prev inp st () ≠ .ill := by
  intro n
  induction n with
  | zero => intros; simp [direct]
  | succ n ih =>
    intro prev inp st
    cases st with
    | nil => simp only [direct]; split <;> simp
    | cons s st =>
      rcases terminal_cases s with ⟨x, rfl⟩ | ⟨a, rfl⟩ | ht
      · simp only [direct]; split
        · exact ih _ _ _
        · simp
      · simp only [direct, emptyActions]; exact ih _ _ _
      · rw [direct_terminal _ n prev ht]
        cases inp with
        | nil => simp
        | cons v inp => simp only; split <;> simp [ih]

end Ctre.Parse

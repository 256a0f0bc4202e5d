import Verif.Lemmas.Ctll
import Verif.Lemmas.ParserFuel

/-
The grammar of patterns as a grammar of the parser library.
-/
namespace Ctre.Ctll
open Parse (NT Act Pat Rhs AOut Decision currentTerm previousTerm parseFuel)

def pcreSym : Parse.Sym → Sym NT Act
  | .nt x => .nt x
  | .act a => .act a
  | .any => .anything
  | .term c => .term c
  | .set l => .set l

def pcreLook : Pat → Look
  | .term c => .term c
  | .set l => .set l
  | .others => .negSet Parse.notOthers
  | .eps => .eps

def pcreRule : Rhs → Rule NT Act
  | .push l => .push (l.map pcreSym)
  | .eps => .epsilon
  | .reject => .reject

/-- The rules of /repo/include/ctre/pcre.hpp as a grammar. -/
def pcreGrammar : Grammar NT Act where
  start := .nt .s
  rules := fun x => (Parse.rules x).map fun d => (pcreLook d.1, pcreRule d.2)

theorem pcreLook_admits (p : Pat) (v : Option Nat) : (pcreLook p).Admits v ↔ p.accepts v = true := by
  cases p <;> cases v <;> simp [pcreLook, Look.Admits, Pat.accepts]
  exact ⟨fun h => h.symm, fun h => h.symm⟩

theorem disjoint_others {v : Option Nat} {d : Pat × Rhs} {l2 : List (Pat × Rhs)} : ∀ {l1 : List (Pat × Rhs)},
    Parse.disjointRules (l1 ++ d :: l2) = true → d.1.accepts v = true → ∀ e ∈ l1 ++ l2, ¬ e.1.accepts v = true := by
  intro l1
  induction l1 with
  | nil =>
    intro h ha e he hv
    simp only [List.nil_append, Parse.disjointRules, Bool.and_eq_true, List.all_eq_true] at h
    exact Pat.disjoint_spec (h.1 e (by simpa using he)) v ⟨ha, hv⟩
  | cons q l1 ih =>
    intro h ha e he hv
    simp only [List.cons_append, Parse.disjointRules, Bool.and_eq_true, List.all_eq_true] at h
    rw [List.cons_append, List.mem_cons] at he
    rcases he with rfl | he
    · exact Pat.disjoint_spec (h.1 d (by simp)) v ⟨hv, ha⟩
    · exact ih h.2 ha e he hv

theorem choose_pcre (x : NT) (v : Option Nat) : choose (pcreGrammar.rules x) v = some (pcreRule (Parse.rule x v)) := by
  have hd := Parse.rules_disjoint x
  by_cases h : ∃ d ∈ Parse.rules x, d.1.accepts v = true
  · obtain ⟨⟨p, r⟩, hm, ha⟩ := h
    rw [Parse.rule_of_mem hm ha]
    obtain ⟨l1, l2, hl⟩ := List.append_of_mem hm
    refine choose_of_best (d := (pcreLook p, pcreRule r)) ⟨l1.map fun d => (pcreLook d.1, pcreRule d.2),
      l2.map fun d => (pcreLook d.1, pcreRule d.2), by simp [pcreGrammar, hl], (pcreLook_admits p v).2 ha, fun e he => ?_⟩
    rw [← List.map_append] at he
    obtain ⟨q, hq, rfl⟩ := List.mem_map.1 he
    rw [hl] at hd
    exact .inl fun hv => disjoint_others hd ha q hq ((pcreLook_admits _ _).1 hv)
  · rw [choose_none_admits fun d hd ha => ?_]
    · rcases Parse.lookup_cases (v := v) (l := Parse.rules x) with h1 | ⟨p, r, h1, h2, _⟩
      · rw [Parse.rule, h1]; rfl
      · exact (h ⟨_, h1, h2⟩).elim
    · obtain ⟨q, hq, rfl⟩ := List.mem_map.1 hd
      exact h ⟨q, hq, (pcreLook_admits _ _).1 ha⟩

variable {σ : Type}

def pcreRes : Parse.LRes σ → LRes NT Act σ
  | .res r => .res ⟨r.position, r.stack.map pcreSym, r.subject, r.decision⟩
  | .ill => .ill
  | .timeout => .timeout

theorem decide_pcre (S : Parse.Selector σ) (input : List Nat) : ∀ n pos st c,
    decide S pcreGrammar input n pos (st.map pcreSym) c = pcreRes (Parse.decideAt S input n pos st c) := by
  intro n
  induction n with
  | zero => intro pos st c; rfl
  | succ n ih =>
    intro pos st c
    cases st with
    | nil => rw [decide, Parse.decideAt]; cases h : currentTerm input pos <;> simp [Grammar.rule, pcreRes]
    | cons s st =>
      have hc := contains_iff
      cases s with
      | act a =>
        simp only [decide, Parse.decideAt, List.map_cons, pcreSym, List.head?_cons, List.tail_cons]
        cases S (previousTerm input pos) c a with
        | ok c' => exact ih pos st c'
        | reject => rfl
        | ill => rfl
      | nt x =>
        simp only [decide, Parse.decideAt, List.map_cons, pcreSym, List.head?_cons, List.tail_cons, Grammar.rule, choose_pcre]
        cases hr : Parse.rule x (currentTerm input pos) with
        | eps => exact ih pos st c
        | reject => rfl
        | push l =>
          cases l with
          | nil => exact ih pos st c
          | cons s l =>
            have hi := ih pos (s :: l ++ st) c
            simp only [List.map_append] at hi
            cases s with
            | term t =>
              simp only [pcreRule, List.map_cons, pcreSym]
              by_cases hv : currentTerm input pos = some t
              · simp [if_pos hv, pcreRes]
              · simp only [if_neg hv]
                exact hi
            | _ => exact hi
      | any =>
        simp only [decide, Parse.decideAt, List.map_cons, pcreSym, List.head?_cons, List.tail_cons]
        cases currentTerm input pos <;> simp [Grammar.rule, Sym.constructible, Parse.Sym.pops, pcreRes]
      | term t =>
        simp only [decide, Parse.decideAt, List.map_cons, pcreSym, List.head?_cons, List.tail_cons]
        cases currentTerm input pos with
        | none => simp [Grammar.rule, pcreRes]
        | some v => by_cases h : t = v <;> simp [Grammar.rule, Sym.constructible, Parse.Sym.pops, pcreRes, h]
      | set l =>
        simp only [decide, Parse.decideAt, List.map_cons, pcreSym, List.head?_cons, List.tail_cons]
        cases currentTerm input pos with
        | none => simp [Grammar.rule, pcreRes]
        | some v =>
          have hb : contains l v = l.contains v := by
            rw [Bool.eq_iff_iff, hc]; simp
          by_cases h : v ∈ l <;> simp [Grammar.rule, Sym.constructible, Parse.Sym.pops, pcreRes, hb, h]

theorem rounds_pcre (S : Parse.Selector σ) (input : List Nat) (fuel : Nat) : ∀ k r,
    LRes.rounds S pcreGrammar input fuel k (pcreRes r) = pcreRes (Parse.LRes.rounds S input fuel k r) := by
  intro k
  induction k with
  | zero => intro r; rfl
  | succ k ih =>
    intro r
    rw [LRes.rounds, Parse.LRes.rounds, ← ih]
    congr 1
    cases r with
    | res r =>
      obtain ⟨p, st, c, d⟩ := r
      cases d with
      | undecided => exact decide_pcre S input fuel p st c
      | _ => rfl
    | _ => rfl

end Ctre.Ctll

import Verif.Spec.Conjoin
import Verif.Spec.Blind
import Verif.Lemmas.SurfaceFirm

/-
Texts without groups and back references: they capture nothing, and nothing around them matters to them.
-/
namespace Ctre.Parse
open Surface
variable {E : Env} {once : Bool}

/-! ### Nothing is captured -/

theorem item_sameCap {a : Atom} {q : Quant} {s : List Ch} (ha : ∀ {σ τ : MState}, τ ∈ a.ways once E s σ → τ.cap = σ.cap) {σ τ : MState}
    (h : τ ∈ (Cat.one a q).ways once E s σ) : τ.cap = σ.cap := by
  by_cases hq : q = .none
  · subst hq; simp only [Cat.ways] at h; exact ha h
  · rw [one_ways hq] at h
    obtain ⟨i, _, h⟩ := mem_quantWays h
    refine Iterate.inv (P := fun x : MState => x.cap = σ.cap) ?_ h rfl
    intro u v huv hu
    obtain ⟨z, hz, rfl⟩ := mem_iteration huv
    exact (ha hz).trans hu

mutual
theorem atom_sameCap {s : List Ch} : ∀ {a : Atom} {σ τ : MState}, a.groups = 0 → τ ∈ a.ways once E s σ → τ.cap = σ.cap
  | .ch _, _, _, _, h | .cls _, _, _, _, h | .set _ _, _, _, _, h | .dot, _, _, _, h => by
    simp only [Atom.ways] at h
    obtain ⟨_, _, _, rfl⟩ := stepIf_mem h
    rfl
  | .unknown _ _, _, _, _, h => by simp [Atom.ways] at h
  | .bol, _, _, _, h | .eol, _, _, _, h | .subjectBegin, _, _, _, h | .subjectEnd, _, _, _, h | .subjectEndLine, _, _, _, h
  | .wordBoundary, _, _, _, h | .notWordBoundary, _, _, _, h | .behind _ _, _, _, _, h => by
    simp only [Atom.ways] at h
    obtain ⟨_, rfl⟩ := stayIf_iff.1 h
    rfl
  | .ref _, _, _, _, h | .refNumber _, _, _, _, h | .refRelative _ _, _, _, _, h => by
    simp only [Atom.ways] at h
    obtain ⟨b, e, _, h1, h2, _, rfl⟩ := mem_waysAgain h
    rfl
  | .refName n, _, _, _, h => by
    simp only [Atom.ways] at h
    split at h
    · simp at h
    · obtain ⟨b, e, _, h1, h2, _, rfl⟩ := mem_waysAgain h
      rfl
  | .cap _ b, _, _, hg, _ | .named _ _ b, _, _, hg, _ => by simp [Atom.groups] at hg
  | .group b, _, _, hg, h => by simp only [Atom.ways] at h; simp only [Atom.groups] at hg; exact body_sameCap hg h
  | .ahead pos b, _, _, hg, h => by
    simp only [Atom.groups] at hg
    simp only [Atom.ways] at h
    split at h <;> split at h <;> simp at h
    · subst h; rfl
    · rename_i e _
      subst h
      exact (body_sameCap (b := b) hg (e ▸ List.mem_cons_self) :)
  | .atomic b, _, _, hg, h => by
    simp only [Atom.groups] at hg
    simp only [Atom.ways] at h
    obtain ⟨z, hz, rfl⟩ := mem_iteration (List.mem_of_mem_take h)
    exact (body_sameCap hg hz :)
  | .mode m, _, _, _, h => by
    simp only [Atom.ways, List.mem_singleton] at h
    subst h; cases m <;> rfl

theorem cat_sameCap {s : List Ch} : ∀ {c : Cat} {σ τ : MState}, c.groups = 0 → τ ∈ c.ways once E s σ → τ.cap = σ.cap
  | .one a q, _, _, hg, h => item_sameCap (fun h => atom_sameCap (a := a) (by simpa only [Cat.groups] using hg) h) h
  | .cons a q l, σ, _, hg, h => by
    simp only [Cat.groups, Nat.add_eq_zero_iff] at hg
    rw [cons_ways] at h
    obtain ⟨ρ, h1, h2⟩ := List.mem_flatMap.1 h
    exact (cat_sameCap (c := l) hg.2 h2).trans (item_sameCap (a := a) (fun h => atom_sameCap hg.1 h) h1)

theorem alt_sameCap {s : List Ch} : ∀ {l : Alt} {σ τ : MState}, l.groups = 0 → τ ∈ l.ways once E s σ → τ.cap = σ.cap
  | .empty, _, _, _, h => by simp only [Alt.ways, List.mem_singleton] at h; subst h; rfl
  | .one c, _, _, hg, h => by simp only [Alt.ways] at h; simp only [Alt.groups] at hg; exact cat_sameCap hg h
  | .bar c l, _, _, hg, h => by
    simp only [Alt.groups, Nat.add_eq_zero_iff] at hg
    simp only [Alt.ways, List.mem_append] at h
    rcases h with h | h
    · exact cat_sameCap hg.1 h
    · exact alt_sameCap hg.2 h

theorem body_sameCap {s : List Ch} : ∀ {b : Body} {σ τ : MState}, b.groups = 0 → τ ∈ b.ways once E s σ → τ.cap = σ.cap
  | .alt l, _, _, hg, h => by simp only [Body.groups] at hg; simp only [Body.ways] at h; exact alt_sameCap hg h
  | .lead l, _, _, hg, h => by
    simp only [Body.groups] at hg
    simp only [Body.ways, List.mem_cons] at h
    rcases h with rfl | h
    · rfl
    · exact alt_sameCap hg h
end

/-! ### Names of groups do not matter -/

variable {E' : Env}

mutual
theorem atom_env (hE : E.uni = E'.uni) {s : List Ch} : ∀ (a : Atom) {σ : MState}, a.refers = false → a.ways once E s σ = a.ways once E' s σ
  | .ch _, _, _ | .cls _, _, _ | .set _ _, _, _ | .dot, _, _ | .unknown _ _, _, _ | .bol, _, _ | .eol, _, _ | .subjectBegin, _, _
  | .subjectEnd, _, _ | .subjectEndLine, _, _ | .wordBoundary, _, _ | .notWordBoundary, _, _ | .mode _, _, _ => by
    simp only [Atom.ways, hE]
  | .ref _, _, h | .refNumber _, _, h | .refRelative _ _, _, h | .refName n, _, h => by simp [Atom.refers] at h
  | .cap _ b, _, h | .named _ _ b, _, h | .group b, _, h | .ahead _ b, _, h => by
    simp only [Atom.refers] at h
    simp only [Atom.ways, body_env hE b h]
  | .behind _ b, _, h => by
    simp only [Atom.refers] at h
    simp only [Atom.ways, fun σ : MState => body_env hE (s := s) b (σ := σ) h]
  | .atomic b, _, h => by
    simp only [Atom.refers] at h
    simp only [Atom.ways, fun σ : MState => body_env hE (s := s) b (σ := σ) h]

theorem cat_env (hE : E.uni = E'.uni) {s : List Ch} : ∀ (c : Cat) {σ : MState}, c.refers = false → c.ways once E s σ = c.ways once E' s σ
  | .one a q, _, h => by
    simp only [Cat.refers] at h
    by_cases hq : q = .none
    · subst hq; simp only [Cat.ways, atom_env hE a h]
    · simp only [one_ways hq, fun σ : MState => atom_env hE (s := s) a (σ := σ) h]
  | .cons a q l, σ, h => by
    simp only [Cat.refers, Bool.or_eq_false_iff] at h
    rw [cons_ways, cons_ways, show (fun ρ => l.ways once E s ρ) = fun ρ => l.ways once E' s ρ from funext fun ρ => cat_env hE l h.2]
    congr 1
    by_cases hq : q = .none
    · subst hq; simp only [Cat.ways, atom_env hE a h.1]
    · simp only [one_ways hq, fun σ : MState => atom_env hE (s := s) a (σ := σ) h.1]

theorem alt_env (hE : E.uni = E'.uni) {s : List Ch} : ∀ (l : Alt) {σ : MState}, l.refers = false → l.ways once E s σ = l.ways once E' s σ
  | .empty, _, _ => by simp only [Alt.ways]
  | .one c, _, h => by simp only [Alt.refers] at h; simp only [Alt.ways, cat_env hE c h]
  | .bar c l, _, h => by
    simp only [Alt.refers, Bool.or_eq_false_iff] at h
    simp only [Alt.ways, cat_env hE c h.1, alt_env hE l h.2]

theorem body_env (hE : E.uni = E'.uni) {s : List Ch} : ∀ (b : Body) {σ : MState}, b.refers = false → b.ways once E s σ = b.ways once E' s σ
  | .alt l, _, h => by simp only [Body.refers] at h; simp only [Body.ways, alt_env hE l h]
  | .lead l, _, h => by simp only [Body.refers] at h; simp only [Body.ways, alt_env hE l h]
end

/-! ### Conditions -/

mutual
theorem atom_visible0 : ∀ (a : Atom), a.groups = 0 → a.visible = []
  | .cap _ _, h | .named _ _ _, h => by simp [Atom.groups] at h
  | .group b, h | .ahead _ b, h => by simp only [Atom.groups] at h; simp only [Atom.visible, body_visible0 b h]
  | .behind _ _, _ | .atomic _, _ | .ch _, _ | .cls _, _ | .set _ _, _ | .dot, _ | .unknown _ _, _ | .bol, _ | .eol, _ | .subjectBegin, _
  | .subjectEnd, _ | .subjectEndLine, _ | .wordBoundary, _ | .notWordBoundary, _ | .mode _, _ | .ref _, _ | .refNumber _, _
  | .refRelative _ _, _ | .refName _, _ => by simp only [Atom.visible]

theorem cat_visible0 : ∀ (c : Cat), c.groups = 0 → c.visible = []
  | .one a _, h => by simp only [Cat.groups] at h; simp only [Cat.visible, atom_visible0 a h]
  | .cons a _ l, h => by
    simp only [Cat.groups, Nat.add_eq_zero_iff] at h
    simp only [Cat.visible, atom_visible0 a h.1, cat_visible0 l h.2, List.append_nil]

theorem alt_visible0 : ∀ (l : Alt), l.groups = 0 → l.visible = []
  | .empty, _ => by simp only [Alt.visible]
  | .one c, h => by simp only [Alt.groups] at h; simp only [Alt.visible, cat_visible0 c h]
  | .bar c l, h => by
    simp only [Alt.groups, Nat.add_eq_zero_iff] at h
    simp only [Alt.visible, cat_visible0 c h.1, alt_visible0 l h.2, List.append_nil]

theorem body_visible0 : ∀ (b : Body), b.groups = 0 → b.visible = []
  | .alt l, h | .lead l, h => by simp only [Body.groups] at h; simp only [Body.visible, alt_visible0 l h]
end

mutual
theorem atom_known0 (gs : List (Nat × Option (List Nat))) : ∀ (a : Atom), a.groups = 0 → a.refers = false → a.known gs = true
  | .cap _ _, h, _ | .named _ _ _, h, _ => by simp [Atom.groups] at h
  | .group b, h, k | .ahead _ b, h, k | .atomic b, h, k => by
    simp only [Atom.groups] at h; simp only [Atom.refers] at k; simp only [Atom.known, body_known0 gs b h k]
  | .behind _ _, _, _ | .ch _, _, _ | .cls _, _, _ | .set _ _, _, _ | .dot, _, _ | .unknown _ _, _, _ | .bol, _, _ | .eol, _, _
  | .subjectBegin, _, _ | .subjectEnd, _, _ | .subjectEndLine, _, _ | .wordBoundary, _, _ | .notWordBoundary, _, _ | .mode _, _, _ => by
    simp only [Atom.known]
  | .ref _, _, k | .refNumber _, _, k | .refRelative _ _, _, k | .refName _, _, k => by simp [Atom.refers] at k

theorem cat_known0 (gs : List (Nat × Option (List Nat))) : ∀ (c : Cat), c.groups = 0 → c.refers = false → c.known gs = true
  | .one a _, h, k => by simp only [Cat.groups] at h; simp only [Cat.refers] at k; simp only [Cat.known, atom_known0 gs a h k]
  | .cons a _ l, h, k => by
    simp only [Cat.groups, Nat.add_eq_zero_iff] at h
    simp only [Cat.refers, Bool.or_eq_false_iff] at k
    simp only [Cat.known, atom_known0 gs a h.1 k.1, cat_known0 gs l h.2 k.2, Bool.and_self]

theorem alt_known0 (gs : List (Nat × Option (List Nat))) : ∀ (l : Alt), l.groups = 0 → l.refers = false → l.known gs = true
  | .empty, _, _ => by simp only [Alt.known]
  | .one c, h, k => by simp only [Alt.groups] at h; simp only [Alt.refers] at k; simp only [Alt.known, cat_known0 gs c h k]
  | .bar c l, h, k => by
    simp only [Alt.groups, Nat.add_eq_zero_iff] at h
    simp only [Alt.refers, Bool.or_eq_false_iff] at k
    simp only [Alt.known, cat_known0 gs c h.1 k.1, alt_known0 gs l h.2 k.2, Bool.and_self]

theorem body_known0 (gs : List (Nat × Option (List Nat))) : ∀ (b : Body), b.groups = 0 → b.refers = false → b.known gs = true
  | .alt l, h, k | .lead l, h, k => by
    simp only [Body.groups] at h; simp only [Body.refers] at k; simp only [Body.known, alt_known0 gs l h k]
end

mutual
theorem atom_selfFree0 (num : List Nat → Option Nat) : ∀ (a : Atom) {O : List Nat}, a.refers = false → a.selfFree num O
  | .cap _ b, _, k | .named _ _ b, _, k | .group b, _, k | .ahead _ b, _, k | .atomic b, _, k | .behind _ b, _, k => by
    simp only [Atom.refers] at k; simp only [Atom.selfFree]; exact body_selfFree0 num b k
  | .ch _, _, _ | .cls _, _, _ | .set _ _, _, _ | .dot, _, _ | .unknown _ _, _, _ | .bol, _, _ | .eol, _, _
  | .subjectBegin, _, _ | .subjectEnd, _, _ | .subjectEndLine, _, _ | .wordBoundary, _, _ | .notWordBoundary, _, _ | .mode _, _, _ => by
    simp only [Atom.selfFree]
  | .ref _, _, k | .refNumber _, _, k | .refRelative _ _, _, k | .refName _, _, k => by simp [Atom.refers] at k

theorem cat_selfFree0 (num : List Nat → Option Nat) : ∀ (c : Cat) {O : List Nat}, c.refers = false → c.selfFree num O
  | .one a _, _, k => by simp only [Cat.refers] at k; simp only [Cat.selfFree]; exact atom_selfFree0 num a k
  | .cons a _ l, _, k => by
    simp only [Cat.refers, Bool.or_eq_false_iff] at k
    simp only [Cat.selfFree]; exact ⟨atom_selfFree0 num a k.1, cat_selfFree0 num l k.2⟩

theorem alt_selfFree0 (num : List Nat → Option Nat) : ∀ (l : Alt) {O : List Nat}, l.refers = false → l.selfFree num O
  | .empty, _, _ => by simp only [Alt.selfFree]
  | .one c, _, k => by simp only [Alt.refers] at k; simp only [Alt.selfFree]; exact cat_selfFree0 num c k
  | .bar c l, _, k => by
    simp only [Alt.refers, Bool.or_eq_false_iff] at k
    simp only [Alt.selfFree]; exact ⟨cat_selfFree0 num c k.1, alt_selfFree0 num l k.2⟩

theorem body_selfFree0 (num : List Nat → Option Nat) : ∀ (b : Body) {O : List Nat}, b.refers = false → b.selfFree num O
  | .alt l, _, k | .lead l, _, k => by simp only [Body.refers] at k; simp only [Body.selfFree]; exact alt_selfFree0 num l k
end

/-! ### The ways of the guarded pattern -/

theorem guarded_ways {p : Body} (hg : p.groups = 0) (pos : Bool) (q : Body) {s : List Ch} {σ : MState} :
    (guarded pos p q).ways once E s σ = if (p.ways once E s σ).isEmpty = pos then [] else q.ways once E s σ := by
  simp only [guarded, Body.ways, Alt.ways, Cat.ways, Atom.ways]
  cases e : p.ways once E s σ with
  | nil => cases pos <;> simp
  | cons ρ L =>
    have : ρ.cap = σ.cap := body_sameCap hg (by rw [e]; simp)
    cases pos <;> simp [this]

end Ctre.Parse

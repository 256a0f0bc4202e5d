import Verif.Spec.Regroup
import Verif.Spec.SurfaceWays
import Verif.Lemmas.Respell
import Mathlib.Data.List.Forall2

/-
The ways of texts that differ in their groups correspond to each other.
-/
namespace Ctre
open Surface

/-- The states agree except for groups without a partner. -/
structure Partnered (ρ : Nat → Nat → Prop) (σ σ' : MState) : Prop where
  pos : σ.pos = σ'.pos
  multiline : σ.multiline = σ'.multiline
  caseless : σ.caseless = σ'.caseless
  cap : ∀ {i j}, ρ i j → σ.cap i = σ'.cap j

abbrev Partnereds (ρ : Nat → Nat → Prop) (L L' : List MState) : Prop := List.Forall₂ (Partnered ρ) L L'

variable {ρ : Nat → Nat → Prop} {σ σ' : MState} {L L' : List MState}

theorem Partnereds.flatMap {α α' β β' : Type} {R : α → α' → Prop} {S : β → β' → Prop} {L : List α} {L' : List α'} (h : List.Forall₂ R L L')
    {g : α → List β} {g' : α' → List β'} (hg : ∀ {x x'}, R x x' → List.Forall₂ S (g x) (g' x')) :
    List.Forall₂ S (L.flatMap g) (L'.flatMap g') := by
  induction h with
  | nil => exact .nil
  | cons h _ ih => simp only [List.flatMap_cons]; exact List.rel_append (hg h) ih

theorem forall2_take {α β : Type} {R : α → β → Prop} {L : List α} {L' : List β} (h : List.Forall₂ R L L') : ∀ n, List.Forall₂ R (L.take n) (L'.take n) := by
  induction h with
  | nil => intro n; simp
  | cons h _ ih => intro n; cases n with
    | zero => simp
    | succ n => exact .cons h (ih n)

theorem forall2_filter {α β : Type} {R : α → β → Prop} {L : List α} {L' : List β} (h : List.Forall₂ R L L') {p : α → Bool} {q : β → Bool}
    (hpq : ∀ {x y}, R x y → p x = q y) : List.Forall₂ R (L.filter p) (L'.filter q) := by
  induction h with
  | nil => exact .nil
  | cons h _ ih =>
    simp only [List.filter_cons, hpq h]
    split
    · exact .cons h ih
    · exact ih

theorem forall2_any {α β : Type} {R : α → β → Prop} {L : List α} {L' : List β} (h : List.Forall₂ R L L') {p : α → Bool} {q : β → Bool}
    (hpq : ∀ {x y}, R x y → p x = q y) : L.any p = L'.any q := by
  induction h with
  | nil => rfl
  | cons h _ ih => simp only [List.any_cons, hpq h, ih]

theorem forall2_map {α α' β β' : Type} {R : α → α' → Prop} {S : β → β' → Prop} {L : List α} {L' : List α'} (h : List.Forall₂ R L L')
    {g : α → β} {g' : α' → β'} (hg : ∀ {x x'}, R x x' → S (g x) (g' x')) : List.Forall₂ S (L.map g) (L'.map g') := by
  induction h with
  | nil => exact .nil
  | cons h _ ih => exact .cons (hg h) ih

section loops
variable {α α' : Type} {R : α → α' → Prop} {it : α → List α} {it' : α' → List α'} (hit : ∀ {x x'}, R x x' → List.Forall₂ R (it x) (it' x'))
include hit

theorem times_agree : ∀ n {x x'}, R x x' → List.Forall₂ R (times it n x) (times it' n x')
  | 0, _, _, h => .cons h .nil
  | n + 1, _, _, h => Partnereds.flatMap (hit h) fun h => times_agree n h

theorem most_agree : ∀ n {x x'}, R x x' → List.Forall₂ R (most it n x) (most it' n x')
  | 0, _, _, h => .cons h .nil
  | n + 1, _, _, h => List.rel_append (Partnereds.flatMap (hit h) fun h => most_agree n h) (.cons h .nil)

theorem fewest_agree : ∀ n {x x'}, R x x' → List.Forall₂ R (fewest it n x) (fewest it' n x')
  | 0, _, _, h => .cons h .nil
  | n + 1, _, _, h => .cons h (Partnereds.flatMap (hit h) fun h => fewest_agree n h)
end loops

theorem quant_agree {it it' : MState → List MState} (hit : ∀ {x x'}, Partnered ρ x x' → Partnereds ρ (it x) (it' x')) (q : Quant) (room : Nat)
    (h : Partnered ρ σ σ') : Partnereds ρ (q.ways it room σ) (q.ways it' room σ') := by
  unfold Quant.ways
  cases q.kind
  · exact Partnereds.flatMap (times_agree hit _ h) fun h => most_agree hit _ h
  · exact Partnereds.flatMap (times_agree hit _ h) fun h => fewest_agree hit _ h
  · exact forall2_take (Partnereds.flatMap (times_agree hit _ h) fun h => most_agree hit _ h) 1

theorem iteration_agree {once : Bool} {ct ct' : MState → List MState} (hit : ∀ {x x'}, Partnered ρ x x' → Partnereds ρ (ct x) (ct' x'))
    (h : Partnered ρ σ σ') : Partnereds ρ (iteration once ct σ) (iteration once ct' σ') := by
  unfold iteration
  refine forall2_map (R := Partnered ρ) ?_ fun {x x'} hx => ⟨hx.pos, h.multiline, h.caseless, hx.cap⟩
  split
  · exact forall2_take (forall2_filter (hit h) fun {x y} hx => by rw [hx.pos, h.pos]) 1
  · exact hit h

theorem stepIf_agree {p p' : Ch → Bool} (hp : p = p') (h : Partnered ρ σ σ') (s : List Ch) : Partnereds ρ (stepIf p s σ) (stepIf p' s σ') := by
  subst hp
  unfold stepIf
  rw [h.pos]
  cases s[σ'.pos]? with
  | none => exact .nil
  | some v =>
    simp only
    split
    · exact .cons ⟨rfl, h.multiline, h.caseless, h.cap⟩ .nil
    · exact .nil

theorem stayIf_agree {p p' : Bool} (hp : p = p') (h : Partnered ρ σ σ') : Partnereds ρ (stayIf p σ) (stayIf p' σ') := by
  subst hp
  unfold stayIf
  split
  · exact .cons h .nil
  · exact .nil

theorem again_agree {i j : Nat} (hij : ρ i j) (h : Partnered ρ σ σ') (s : List Ch) : Partnereds ρ (waysAgain s σ i) (waysAgain s σ' j) := by
  unfold waysAgain
  rw [h.cap hij, h.pos]
  cases σ'.cap j with
  | none => exact .nil
  | some x =>
    obtain ⟨b, e⟩ := x
    simp only
    split
    · exact .cons ⟨rfl, h.multiline, h.caseless, h.cap⟩ .nil
    · exact .nil

theorem setCap_cap (σ : MState) (i b e k : Nat) : (σ.setCap i b e).cap k = if k = i then some (b, e) else σ.cap k := rfl

theorem leaf_agree {once : Bool} {E E' : Env} (hU : E.uni = E'.uni) {a : Atom} (ha : a.leaf = true) {s : List Ch} (h : Partnered ρ σ σ') :
    Partnereds ρ (a.ways once E s σ) (a.ways once E' s σ') := by
  cases a <;> simp only [Atom.leaf, Bool.false_eq_true] at ha <;> simp only [Atom.ways]
  case mode m =>
    refine .cons ⟨?_, ?_, ?_, ?_⟩ .nil <;> cases m <;> first | exact h.pos | exact h.multiline | exact h.caseless | rfl | exact h.cap
  case unknown => exact .nil
  all_goals first
    | exact stepIf_agree (by simp only [hU, h.caseless, h.multiline]) h s
    | exact stayIf_agree (by simp only [hU, h.caseless, h.multiline, h.pos]) h

theorem ref_ways {once : Bool} {E : Env} {a : Atom} {i : Nat} (h : a.target E.number = some i) (s : List Ch) (σ : MState) :
    a.ways once E s σ = waysAgain s σ i := by
  cases a <;> simp only [Atom.target, reduceCtorEq, Option.some.injEq] at h <;> simp only [Atom.ways]
  case refName n => rw [h]
  all_goals rw [h]

/-- Setting partners, or groups without partners. -/
def record (o : Option Nat) (p : Nat) (τ : MState) : MState := match o with
  | some i => τ.setCap i p τ.pos
  | none => τ

theorem enclosed_ways {once : Bool} {E : Env} {a : Atom} {o : Option Nat} {b : Body} (h : a.enclosed = some (o, b)) (s : List Ch) (σ : MState) :
    a.ways once E s σ = (b.ways once E s σ).map (record o σ.pos) := by
  cases a <;> simp only [Atom.enclosed, reduceCtorEq, Option.some.injEq, Prod.mk.injEq] at h <;> obtain ⟨rfl, rfl⟩ := h <;> simp only [Atom.ways]
  case group => rw [show record none σ.pos = id from rfl, List.map_id]
  all_goals rfl

theorem record_agree (hρ : OneToOne ρ) {o o' : Option Nat} (ho : Partners ρ o o') {p p' : Nat} (hp : p = p') (h : Partnered ρ σ σ') :
    Partnered ρ (record o p σ) (record o' p' σ') := by
  subst hp
  rcases ho with ⟨i, j, rfl, rfl, hij⟩ | ⟨h1, h2⟩
  · refine ⟨h.pos, h.multiline, h.caseless, fun {k l} hkl => ?_⟩
    simp only [record, setCap_cap, h.pos]
    by_cases hk : k = i
    · subst hk; simp [hρ.right hij hkl]
    · have : l ≠ j := fun e => hk (hρ.left (e ▸ hkl) hij)
      simp only [hk, this, if_false]; exact h.cap hkl
  · have e1 : ∀ {k l}, ρ k l → (record o p σ).cap k = σ.cap k := by
      intro k l hkl
      cases o with
      | none => rfl
      | some i =>
        have : k ≠ i := fun e => h1 i rfl l (e ▸ hkl)
        simp only [record, setCap_cap, this, if_false]
    have e2 : ∀ {k l}, ρ k l → (record o' p σ').cap l = σ'.cap l := by
      intro k l hkl
      cases o' with
      | none => rfl
      | some i =>
        have : l ≠ i := fun e => h2 i rfl k (e ▸ hkl)
        simp only [record, setCap_cap, this, if_false]
    have e3 : (record o p σ).pos = σ.pos ∧ (record o p σ).multiline = σ.multiline ∧ (record o p σ).caseless = σ.caseless := by
      cases o <;> exact ⟨rfl, rfl, rfl⟩
    have e4 : (record o' p σ').pos = σ'.pos ∧ (record o' p σ').multiline = σ'.multiline ∧ (record o' p σ').caseless = σ'.caseless := by
      cases o' <;> exact ⟨rfl, rfl, rfl⟩
    exact ⟨by rw [e3.1, e4.1, h.pos], by rw [e3.2.1, e4.2.1, h.multiline], by rw [e3.2.2, e4.2.2, h.caseless],
      fun hkl => by rw [e1 hkl, e2 hkl]; exact h.cap hkl⟩

/-- All ways of a piece; as `Piece.ways`, for both rules. -/
def Surface.Piece.all (once : Bool) (E : Env) (s : List Ch) : Piece → MState → List MState
  | .atom a => a.ways once E s
  | .cat c => c.ways once E s
  | .alt l => l.ways once E s
  | .body b => b.ways once E s

theorem catOne_ways {once : Bool} {E : Env} (a : Atom) (q : Quant) (s : List Ch) (σ : MState) : (Cat.one a q).ways once E s σ =
    if q = .none then a.ways once E s σ else q.ways (iteration once fun σ => a.ways once E s σ) s.length σ := by
  cases q <;> simp [Cat.ways]

theorem catCons_ways {once : Bool} {E : Env} (a : Atom) (q : Quant) (l : Cat) (s : List Ch) (σ : MState) : (Cat.cons a q l).ways once E s σ =
    ((Cat.one a q).ways once E s σ).flatMap fun ρ => l.ways once E s ρ := by
  cases q <;> simp [Cat.ways]

theorem regroup_ways (hρ : OneToOne ρ) {once : Bool} {E E' : Env} (hU : E.uni = E'.uni) {x x' : Piece}
    (h : Regroup ρ E.number E'.number x x') {s : List Ch} : ∀ {σ σ' : MState}, Partnered ρ σ σ' →
      Partnereds ρ (x.all once E s σ) (x'.all once E' s σ') := by
  induction h with
  | leaf ha => exact fun h => leaf_agree hU ha h
  | ref h1 h2 hij =>
    intro σ σ' h
    simp only [Piece.all, ref_ways h1, ref_ways h2]
    exact again_agree hij h s
  | group h1 h2 ho _ ih =>
    intro σ σ' h
    simp only [Piece.all, enclosed_ways h1, enclosed_ways h2]
    exact forall2_map (ih h) fun hx => record_agree hρ ho h.pos hx
  | @ahead pos b b' _ ih =>
    intro σ σ' h
    have := ih h
    simp only [Piece.all, Atom.ways] at this ⊢
    revert this
    cases b.ways once E s σ <;> cases b'.ways once E' s σ' <;> intro this
    · cases pos
      · exact .cons h .nil
      · exact .nil
    · cases this
    · cases this
    · cases this with
      | cons hx _ =>
        cases pos
        · exact .nil
        · exact .cons ⟨h.pos, h.multiline, h.caseless, hx.cap⟩ .nil
  | @behind pos b b' _ ih =>
    intro σ σ' h
    simp only [Piece.all, Atom.ways] at ih ⊢
    refine stayIf_agree ?_ h
    rw [h.pos]
    congr 2
    funext p
    exact forall2_any (ih (σ := { σ with pos := p }) (σ' := { σ' with pos := p }) ⟨rfl, h.multiline, h.caseless, h.cap⟩) fun hx => by rw [hx.pos]
  | atomic _ ih =>
    intro σ σ' h
    simp only [Piece.all, Atom.ways] at ih ⊢
    exact forall2_take (iteration_agree (fun h => ih h) h) 1
  | one _ ih =>
    intro σ σ' h
    simp only [Piece.all, catOne_ways] at ih ⊢
    split
    · exact ih h
    · exact quant_agree (fun h => iteration_agree (fun h => ih h) h) _ _ h
  | cons _ _ ih ih2 =>
    intro σ σ' h
    simp only [Piece.all, catCons_ways, catOne_ways] at ih ih2 ⊢
    refine Partnereds.flatMap ?_ fun h => ih2 h
    split
    · exact ih h
    · exact quant_agree (fun h => iteration_agree (fun h => ih h) h) _ _ h
  | altEmpty => exact fun h => .cons h .nil
  | altOne _ ih => exact fun h => by simpa only [Piece.all, Alt.ways] using ih h
  | altBar _ _ ih ih2 =>
    intro σ σ' h
    simp only [Piece.all, Alt.ways] at ih ih2 ⊢
    exact List.rel_append (ih h) (ih2 h)
  | bodyAlt _ ih => exact fun h => by simpa only [Piece.all, Body.ways] using ih h
  | bodyLead _ ih =>
    intro σ σ' h
    simp only [Piece.all, Body.ways] at ih ⊢
    exact .cons h (ih h)

end Ctre

import Verif.Spec.Language
import Verif.Spec.Shapes
import Verif.Model.Wrapper
/-
The matches of a regular pattern are the words of its language.
-/
namespace Ctre

theorem stretch_append {s : List Ch} {a b c : Nat} (h1 : a ≤ b) (h2 : b ≤ c) : text s a b ++ text s b c = text s a c := by
  unfold text
  have h3 : (s.drop b) = (s.drop a).drop (b - a) := by rw [List.drop_drop]; congr 1; omega
  rw [h3, show c - a = (b - a) + (c - b) by omega, List.take_add]

theorem stretch_length {s : List Ch} {a b : Nat} (h1 : a ≤ b) (h2 : b ≤ s.length) : (text s a b).length = b - a := by
  unfold text
  rw [List.length_take, List.length_drop]
  omega

theorem stretch_nil {s : List Ch} {a : Nat} : text s a a = [] := by unfold text; simp

/-- A stretch split in two. -/
theorem stretch_split {s : List Ch} {a c : Nat} {u v : List Ch} (h1 : a ≤ c) (h2 : c ≤ s.length) (h : u ++ v = text s a c) :
    a + u.length ≤ c ∧ u = text s a (a + u.length) ∧ v = text s (a + u.length) c := by
  have hl := congrArg List.length h
  rw [stretch_length h1 h2, List.length_append] at hl
  have h3 : a + u.length ≤ c := by omega
  refine ⟨h3, ?_⟩
  rw [← stretch_append (b := a + u.length) (by omega) h3] at h
  exact List.append_inj h (by rw [stretch_length (by omega) (by omega)]; omega)

theorem stretch_single {s : List Ch} {a : Nat} {v : Ch} (h : s[a]? = some v) : text s a (a + 1) = [v] := by
  have h' : a < s.length := (List.getElem?_eq_some_iff.1 h).1
  unfold text
  rw [List.drop_eq_getElem_cons h', show a + 1 - a = 1 by omega, List.take_succ_cons, List.take_zero]
  rw [List.getElem?_eq_getElem h'] at h
  simpa using h

theorem stretch_eq_single {s : List Ch} {a e : Nat} {v : Ch} (h1 : a ≤ e) (h2 : e ≤ s.length) (h : text s a e = [v]) :
    e = a + 1 ∧ s[a]? = some v := by
  have hl := congrArg List.length h
  rw [stretch_length h1 h2] at hl
  have he : e = a + 1 := by simp at hl; omega
  subst he
  have h3 := stretch_single (List.getElem?_eq_getElem (l := s) (i := a) (by omega))
  rw [h] at h3
  refine ⟨rfl, ?_⟩
  rw [List.getElem?_eq_getElem (by omega)]
  simpa using h3.symm

/-- Same modes. -/
def MState.sameModes (σ τ : MState) : Prop := τ.multiline = σ.multiline ∧ τ.caseless = σ.caseless

theorem forall2_text {U : Uni} {ci : Bool} {s : List Ch} : ∀ {cs : List Nat} {a : Nat},
    (∀ (i : Nat) (h : i < cs.length), inClass U ci s (a + i) (.chr cs[i])) →
    (cs ≠ [] → a + cs.length ≤ s.length) ∧ List.Forall₂ (fun c v => (CC.chr c).matchChar U ci v = true) cs (text s a (a + cs.length)) := by
  intro cs
  induction cs with
  | nil => intro a _; simp [stretch_nil]
  | cons c cs ih =>
    intro a h
    obtain ⟨v, hv, hc⟩ := h 0 (by simp)
    have h' := ih (a := a + 1) (fun i hi => by
      have := h (i + 1) (by simpa using hi)
      rw [show a + 1 + i = a + (i + 1) by omega]
      simpa using this)
    have ha : a < s.length := (List.getElem?_eq_some_iff.1 hv).1
    constructor
    · intro _
      by_cases he : cs = []
      · subst he; simp; omega
      · have := h'.1 he
        simp only [List.length_cons]
        omega
    · rw [← stretch_append (b := a + 1) (by omega) (by simp), stretch_single (by simpa using hv)]
      have h2 := h'.2
      rw [show a + 1 + cs.length = a + (c :: cs).length by simp; omega] at h2
      exact .cons (by simpa using hc) h2

theorem stretch_forall2 {U : Uni} {ci : Bool} {s : List Ch} {cs : List Nat} {w : List Ch}
    (h : List.Forall₂ (fun c v => (CC.chr c).matchChar U ci v = true) cs w) : ∀ {a e : Nat}, a ≤ e → e ≤ s.length → w = text s a e →
    e = a + cs.length ∧ ∀ (i : Nat) (h : i < cs.length), inClass U ci s (a + i) (.chr cs[i]) := by
  induction h with
  | nil =>
    intro a e h1 h2 h3
    have := congrArg List.length h3
    rw [stretch_length h1 h2] at this
    simp at this
    exact ⟨by simp; omega, by intro i h; simp at h⟩
  | @cons c v cs w h1 h2 ih =>
    intro a e h3 h4 h5
    obtain ⟨h6, h7, h8⟩ := stretch_split (u := [v]) (v := w) h3 h4 h5
    simp only [List.length_cons, List.length_nil, Nat.zero_add] at h6 h7 h8
    obtain ⟨h9, h10⟩ := stretch_eq_single (by omega) (by omega) h7.symm
    obtain ⟨h11, h12⟩ := ih h6 h4 h8
    refine ⟨by simp; omega, ?_⟩
    intro i hi
    cases i with
    | zero => exact ⟨v, by simpa using h10, by simpa using h1⟩
    | succ i =>
      have := h12 i (by simpa using hi)
      rw [show a + 1 + i = a + (i + 1) by omega] at this
      simpa using this

/-- Matching the relation `R` consumes exactly the words of `L`. -/
structure Consumes (s : List Ch) (R : MState → MState → Prop) (L : Bool → Bool → Language Ch) : Prop where
  sound : ∀ σ τ, σ.pos ≤ s.length → R σ τ → σ.pos ≤ τ.pos ∧ τ.pos ≤ s.length ∧ σ.sameModes τ ∧
    text s σ.pos τ.pos ∈ L σ.multiline σ.caseless
  complete : ∀ σ e, σ.pos ≤ e → e ≤ s.length → text s σ.pos e ∈ L σ.multiline σ.caseless →
    ∃ τ, R σ τ ∧ τ.pos = e

theorem Consumes.one {s : List Ch} {R : MState → MState → Prop} (h : ∀ σ τ, R σ τ ↔ τ = σ) : Consumes s R fun _ _ => 1 where
  sound σ τ hσ hr := by
    rw [h] at hr
    subst hr
    exact ⟨Nat.le_refl _, hσ, ⟨rfl, rfl⟩, by rw [stretch_nil]; rfl⟩
  complete σ e h1 h2 h3 := by
    rw [Language.mem_one] at h3
    have := congrArg List.length h3
    rw [stretch_length h1 h2] at this
    refine ⟨σ, (h _ _).2 rfl, ?_⟩
    simp at this
    omega

theorem Consumes.mul {s : List Ch} {R S : MState → MState → Prop} {L M : Bool → Bool → Language Ch} (hR : Consumes s R L)
    (hS : Consumes s S M) : Consumes s (fun σ τ => ∃ ρ, R σ ρ ∧ S ρ τ) fun ml ci => L ml ci * M ml ci where
  sound := by
    rintro σ τ hσ ⟨ρ, h1, h2⟩
    obtain ⟨a1, a2, a3, a4⟩ := hR.sound σ ρ hσ h1
    obtain ⟨b1, b2, b3, b4⟩ := hS.sound ρ τ a2 h2
    refine ⟨by omega, b2, ⟨b3.1.trans a3.1, b3.2.trans a3.2⟩, ?_⟩
    rw [← stretch_append a1 b1]
    rw [a3.1, a3.2] at b4
    exact Language.append_mem_mul a4 b4
  complete := by
    intro σ e h1 h2 h3
    obtain ⟨u, hu, v, hv, huv⟩ := Language.mem_mul.1 h3
    obtain ⟨k1, k2, k3⟩ := stretch_split h1 h2 huv
    rw [k2] at hu
    rw [k3] at hv
    obtain ⟨ρ, r1, r2⟩ := hR.complete σ (σ.pos + u.length) (by omega) (by omega) hu
    obtain ⟨a1, a2, a3, a4⟩ := hR.sound σ ρ (by omega) r1
    rw [← r2, ← a3.1, ← a3.2] at hv
    obtain ⟨τ, t1, t2⟩ := hS.complete ρ e (by omega) h2 hv
    exact ⟨τ, ⟨ρ, r1, t1⟩, t2⟩

theorem Consumes.congr {s : List Ch} {R S : MState → MState → Prop} {L M : Bool → Bool → Language Ch} (hR : Consumes s R L)
    (h : ∀ σ τ, S σ τ ↔ R σ τ) (hL : ∀ ml ci, L ml ci = M ml ci) : Consumes s S M where
  sound σ τ hσ hr := by rw [← hL]; exact hR.sound σ τ hσ ((h _ _).1 hr)
  complete σ e h1 h2 h3 := by
    rw [← hL] at h3
    obtain ⟨τ, h4, h5⟩ := hR.complete σ e h1 h2 h3
    exact ⟨τ, (h _ _).2 h4, h5⟩

/-- What happens to the captures does not matter. -/
theorem Consumes.after {s : List Ch} {R S : MState → MState → Prop} {L : Bool → Bool → Language Ch} (hR : Consumes s R L)
    {g : MState → MState → MState} (hg : ∀ σ ρ, σ.sameModes ρ → (g σ ρ).pos = ρ.pos ∧ σ.sameModes (g σ ρ))
    (h : ∀ σ τ, S σ τ ↔ ∃ ρ, R σ ρ ∧ τ = g σ ρ) : Consumes s S L where
  sound σ τ hσ hr := by
    obtain ⟨ρ, h1, rfl⟩ := (h _ _).1 hr
    obtain ⟨a1, a2, a3, a4⟩ := hR.sound σ ρ hσ h1
    rw [(hg σ ρ a3).1]
    exact ⟨a1, a2, (hg σ ρ a3).2, a4⟩
  complete σ e h1 h2 h3 := by
    obtain ⟨ρ, h4, h5⟩ := hR.complete σ e h1 h2 h3
    refine ⟨g σ ρ, (h _ _).2 ⟨ρ, h4, rfl⟩, ?_⟩
    rw [(hg σ ρ (hR.sound σ ρ (by omega) h4).2.2.1).1]
    exact h5

theorem Consumes.pow {s : List Ch} {R : MState → MState → Prop} {L : Bool → Bool → Language Ch} (hR : Consumes s R L) :
    ∀ k, Consumes s (Iterate R k) fun ml ci => L ml ci ^ k
  | 0 => (Consumes.one (s := s) (R := Iterate R 0) (by
      intro σ τ
      constructor
      · intro h; cases h; rfl
      · rintro rfl; exact .zero _)).congr (fun _ _ => Iff.rfl) (fun _ _ => (pow_zero _).symm)
  | k + 1 => (hR.mul (hR.pow k)).congr (by
      intro σ τ
      constructor
      · intro h; cases h with | succ h1 h2 => exact ⟨_, h1, h2⟩
      · rintro ⟨ρ, h1, h2⟩; exact .succ h1 h2) (fun _ _ => (pow_succ' _ _).symm)

mutual
theorem Re.speaks (E : Env) (s : List Ch) : (r : Re) → r.regular = true → Consumes s (r.Match E s) (fun ml ci => r.lang E.uni ml ci)
  | .cc c, _ => {
      sound := by
        rintro σ τ hσ ⟨⟨v, hv, hc⟩, rfl⟩
        have hlt := (List.getElem?_eq_some_iff.1 hv).1
        refine ⟨by simp, hlt, ⟨rfl, rfl⟩, ?_⟩
        exact ⟨v, stretch_single hv, hc⟩
      complete := by
        rintro σ e h1 h2 ⟨v, hv, hc⟩
        obtain ⟨rfl, h3⟩ := stretch_eq_single h1 h2 hv
        exact ⟨_, ⟨⟨v, h3, hc⟩, rfl⟩, rfl⟩ }
  | .any, _ => {
      sound := by
        rintro σ τ hσ ⟨hv, hc, rfl⟩
        refine ⟨by simp, hv, ⟨rfl, rfl⟩, ?_⟩
        refine ⟨s[σ.pos], stretch_single (List.getElem?_eq_getElem hv), ?_⟩
        rintro ⟨h1, h2⟩
        exact hc ⟨h1, by unfold newlineAt; rw [List.getElem?_eq_getElem hv, h2]⟩
      complete := by
        rintro σ e h1 h2 ⟨v, hv, hc⟩
        obtain ⟨rfl, h3⟩ := stretch_eq_single h1 h2 hv
        refine ⟨_, ⟨by omega, ?_, rfl⟩, rfl⟩
        rintro ⟨h4, h5⟩
        unfold newlineAt at h5
        rw [h3] at h5
        exact hc ⟨h4, by simpa using h5⟩ }
  | .str cs, _ => {
      sound := by
        rintro σ τ hσ ⟨h, rfl⟩
        obtain ⟨h1, h2⟩ := forall2_text h
        refine ⟨by simp, ?_, ⟨rfl, rfl⟩, h2⟩
        by_cases he : cs = []
        · subst he; simpa using hσ
        · exact h1 he
      complete := by
        rintro σ e h1 h2 h3
        obtain ⟨rfl, h4⟩ := stretch_forall2 h3 h1 h2 rfl
        exact ⟨_, ⟨h4, rfl⟩, rfl⟩ }
  | .empty, _ => Consumes.one fun _ _ => Iff.rfl
  | .reject _, _ => { sound := by rintro σ τ _ h; exact h.elim, complete := by rintro σ e _ _ h; exact h.elim }
  | .sel l, h => speaksAny E s l (by simp [Re.regular] at h; exact h.2)
  | .seq l, h => speaksAll E s l h
  | .cap id _ l, h => (speaksAll E s l h).after (g := fun σ ρ => ρ.setCap id σ.pos ρ.pos) (fun _ _ h => ⟨rfl, h⟩) (fun _ _ => Iff.rfl)
  | .atomic l, h => (speaksAll E s l h).after (g := fun σ ρ => { ρ with multiline := σ.multiline, caseless := σ.caseless })
      (fun _ _ _ => ⟨rfl, rfl, rfl⟩) (fun _ _ => Iff.rfl)
  | .rep _ a b l, h => by
    have h1 : Consumes s (fun σ τ => ∃ ρ, MatchAll E l s σ ρ ∧ τ = { ρ with multiline := σ.multiline, caseless := σ.caseless })
        (fun ml ci => langProd E.uni ml ci l) := (speaksAll E s l h).after
          (g := fun σ ρ => { ρ with multiline := σ.multiline, caseless := σ.caseless }) (fun _ _ _ => ⟨rfl, rfl, rfl⟩) (fun _ _ => Iff.rfl)
    refine ⟨?_, ?_⟩
    · rintro σ τ hσ ⟨k, h2, h3, h4⟩
      obtain ⟨a1, a2, a3, a4⟩ := (h1.pow k).sound σ τ hσ h4
      exact ⟨a1, a2, a3, k, h2, h3, a4⟩
    · rintro σ e h2 h3 ⟨k, h4, h5, h6⟩
      obtain ⟨τ, h7, h8⟩ := (h1.pow k).complete σ e h2 h3 h6
      exact ⟨τ, ⟨k, h4, h5, h7⟩, h8⟩
  | .mode _, h | .bref _, h | .brefName _, h | .ahead _ _, h | .behind _ _, h | .boundary _, h | .notBoundary _, h | .sBegin, h
  | .sEnd, h | .sEndLine, h | .lBegin, h | .lEnd, h => by cases h

theorem speaksAll (E : Env) (s : List Ch) : (l : List Re) → regularList l = true →
    Consumes s (MatchAll E l s) (fun ml ci => langProd E.uni ml ci l)
  | [], _ => Consumes.one fun _ _ => Iff.rfl
  | r :: l, h => by
    have h' : r.regular = true ∧ regularList l = true := by simpa [regularList] using h
    exact ((Re.speaks E s r h'.1).mul (speaksAll E s l h'.2)).congr (fun _ _ => Iff.rfl) (fun _ _ => rfl)

theorem speaksAny (E : Env) (s : List Ch) : (l : List Re) → regularList l = true →
    Consumes s (MatchAny E l s) (fun ml ci => langSum E.uni ml ci l)
  | [], _ => { sound := by rintro σ τ _ h; exact h.elim, complete := by rintro σ e _ _ h; exact h.elim }
  | r :: l, h => by
    have h' : r.regular = true ∧ regularList l = true := by simpa [regularList] using h
    have h1 := Re.speaks E s r h'.1
    have h2 := speaksAny E s l h'.2
    refine ⟨?_, ?_⟩
    · rintro σ τ hσ (h | h)
      · obtain ⟨a1, a2, a3, a4⟩ := h1.sound σ τ hσ h
        exact ⟨a1, a2, a3, .inl a4⟩
      · obtain ⟨a1, a2, a3, a4⟩ := h2.sound σ τ hσ h
        exact ⟨a1, a2, a3, .inr a4⟩
    · rintro σ e h3 h4 (h | h)
      · obtain ⟨τ, h5, h6⟩ := h1.complete σ e h3 h4 h
        exact ⟨τ, .inl h5, h6⟩
      · obtain ⟨τ, h5, h6⟩ := h2.complete σ e h3 h4 h
        exact ⟨τ, .inr h5, h6⟩
end

mutual
theorem Re.regular_anchor (f : Flags) : (r : Re) → r.regular = true → anchorRe f false r = false
  | .cc _, _ | .any, _ | .str _, _ | .empty, _ | .reject _, _ | .atomic _, _ => rfl
  | .sel l, h => by
    simp only [Re.regular, Bool.and_eq_true, Bool.not_eq_true', List.isEmpty_eq_false_iff] at h
    exact anchorSel_regular f l h.1 h.2
  | .seq l, h => regularList_anchor f l h
  | .rep k a b l, h => by simp only [anchorRe]; split <;> simp [regularList_anchor f l h]
  | .cap _ none l, h => regularList_anchor f l h
  | .cap _ (some _) _, _ => rfl
  | .mode _, h | .bref _, h | .brefName _, h | .ahead _ _, h | .behind _ _, h | .boundary _, h | .notBoundary _, h | .sBegin, h
  | .sEnd, h | .sEndLine, h | .lBegin, h | .lEnd, h => by cases h

theorem regularList_anchor (f : Flags) : (l : List Re) → regularList l = true → anchorSeq f false l = false
  | [], _ => rfl
  | r :: l, h => by
    have h' : r.regular = true ∧ regularList l = true := by simpa [regularList] using h
    simp only [anchorSeq]
    rw [regularList_anchor f l h'.2]
    exact Re.regular_anchor f r h'.1

theorem anchorSel_regular (f : Flags) : (l : List Re) → l ≠ [] → regularList l = true → anchorSel f false l = false
  | [], h, _ => (h rfl).elim
  | r :: l, _, h => by
    have h' : r.regular = true ∧ regularList l = true := by simpa [regularList] using h
    simp [anchorSel, Re.regular_anchor f r h'.1]
end

mutual
theorem Re.regular_noNegLook : (r : Re) → r.regular = true → r.noNegLook = true
  | .cc _, _ | .any, _ | .str _, _ | .empty, _ | .reject _, _ => rfl
  | .sel l, h => by
    simp only [Re.regular, Bool.and_eq_true] at h
    exact regularList_noNegLook l h.2
  | .seq l, h | .rep _ _ _ l, h | .cap _ _ l, h | .atomic l, h => regularList_noNegLook l h
  | .mode _, h | .bref _, h | .brefName _, h | .ahead _ _, h | .behind _ _, h | .boundary _, h | .notBoundary _, h | .sBegin, h
  | .sEnd, h | .sEndLine, h | .lBegin, h | .lEnd, h => by cases h

theorem regularList_noNegLook : (l : List Re) → regularList l = true → noNegLookList l = true
  | [], _ => rfl
  | r :: l, h => by
    have h' : r.regular = true ∧ regularList l = true := by simpa [regularList] using h
    simp [noNegLookList, Re.regular_noNegLook r h'.1, regularList_noNegLook l h'.2]
end

end Ctre

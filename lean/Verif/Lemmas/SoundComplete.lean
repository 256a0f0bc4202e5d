import Verif.Lemmas.LoopSem

/-
Soundness and completeness of the machine with respect to `StackSem`, by induction on the fuel.
-/
namespace Ctre

/-- The slot of the whole match is not set and the groups are those of the pattern. -/
def Good (sh : Shape) (c : Caps) : Prop := c.whole.matched = false ∧ shape c.groups = sh

/-- Repeated content that matches in at most one way and always consumes. -/
def DetProg (U : Uni) (sh : Shape) (l : List Re) : Prop :=
  ∀ s x y y', x.pos ≤ s.length → shape x.gs = sh → SemSeq U l s x y → SemSeq U l s x y' → y = y' ∧ x.pos < y.pos

/-- All ways to match give the same captures. -/
def DetCaps (U : Uni) (sh : Shape) (l : List Re) : Prop :=
  ∀ s x y y', x.pos ≤ s.length → shape x.gs = sh → SemSeq U l s x y → SemSeq U l s x y' → y.gs = y'.gs

mutual
/-- Patterns on which the machine misses no match. -/
def Re.CplOK (C : Cfg) (sh : Shape) : Re → Prop
  | .sel l => CplOKList C sh l
  | .seq l => l ≠ [] ∧ CplOKList C sh l
  | .rep k a b l => (k = .poss → a = b ∧ 0 < b) ∧ (k = .greedy → C.greedyOpt = false) ∧
      DetProg C.uni sh l ∧ CplOKList C sh l
  | .cap id _ l => id ≠ 0 ∧ l ≠ [] ∧ CplOKList C sh l
  | .ahead pos l => (pos = true → DetCaps C.uni sh l) ∧ l ≠ [] ∧ CplOKList C sh l
  | .behind pos l => (pos = true → DetCaps C.uni sh l) ∧ l ≠ [] ∧ CplOKList C sh l
  | .atomic l => DetProg C.uni sh l ∧ CplOKList C sh l
  | _ => True

def CplOKList (C : Cfg) (sh : Shape) : List Re → Prop
  | [] => True
  | r :: l => Re.CplOK C sh r ∧ CplOKList C sh l
end

mutual
/-- Patterns on which every reported match is a match. -/
def Re.SndOK (C : Cfg) (sh : Shape) : Re → Prop
  | .sel l => SndOKList C sh l
  | .seq l => SndOKList C sh l
  | .rep _ _ _ l => SndOKList C sh l
  | .cap id _ l => id ≠ 0 ∧ SndOKList C sh l
  | .ahead pos l => SndOKList C sh l ∧ (pos = false → l ≠ [] ∧ CplOKList C sh l)
  | .behind pos l => SndOKList C sh l ∧ (pos = false → l ≠ [] ∧ CplOKList C sh l)
  | .atomic l => SndOKList C sh l
  | _ => True

def SndOKList (C : Cfg) (sh : Shape) : List Re → Prop
  | [] => True
  | r :: l => Re.SndOK C sh r ∧ SndOKList C sh l
end

mutual
theorem Re.CplOK.snd {C : Cfg} {sh : Shape} : ∀ {r : Re}, r.CplOK C sh → r.SndOK C sh
  | .sel l, h => by simp only [Re.CplOK] at h; simp only [Re.SndOK]; exact CplOKList.snd h
  | .seq l, h => by simp only [Re.CplOK] at h; simp only [Re.SndOK]; exact CplOKList.snd h.2
  | .rep k a b l, h => by simp only [Re.CplOK] at h; simp only [Re.SndOK]; exact CplOKList.snd h.2.2.2
  | .cap id n l, h => by
    simp only [Re.CplOK] at h; simp only [Re.SndOK]; exact ⟨h.1, CplOKList.snd h.2.2⟩
  | .ahead pos l, h => by
    simp only [Re.CplOK] at h; simp only [Re.SndOK]; exact ⟨CplOKList.snd h.2.2, fun _ => h.2⟩
  | .behind pos l, h => by
    simp only [Re.CplOK] at h; simp only [Re.SndOK]; exact ⟨CplOKList.snd h.2.2, fun _ => h.2⟩
  | .atomic l, h => by simp only [Re.CplOK] at h; simp only [Re.SndOK]; exact CplOKList.snd h.2
  | .cc _, _ | .any, _ | .str _, _ | .empty, _ | .bref _, _ | .brefName _, _ | .boundary _, _
  | .notBoundary _, _ | .sBegin, _ | .sEnd, _ | .sEndLine, _ | .lBegin, _ | .lEnd, _ | .mode _, _
  | .reject _, _ => by simp [Re.SndOK]

theorem CplOKList.snd {C : Cfg} {sh : Shape} : ∀ {l : List Re}, CplOKList C sh l → SndOKList C sh l
  | [], _ => by simp [SndOKList]
  | r :: l, h => by
    simp only [CplOKList] at h; simp only [SndOKList]; exact ⟨Re.CplOK.snd h.1, CplOKList.snd h.2⟩
end

def Item.SndOK (C : Cfg) (sh : Shape) : Item → Prop
  | .re r => r.SndOK C sh
  | .numMark id => id ≠ 0
  | _ => True

def Item.CplOK (C : Cfg) (sh : Shape) : Item → Prop
  | .re r => r.CplOK C sh
  | .numMark id => id ≠ 0
  | _ => True

def StkSnd (C : Cfg) (sh : Shape) (st : Stack) : Prop := ∀ i ∈ st, i.SndOK C sh
def StkCpl (C : Cfg) (sh : Shape) (st : Stack) : Prop := ∀ i ∈ st, i.CplOK C sh

theorem StkCpl.snd {C : Cfg} {sh : Shape} {st : Stack} (h : StkCpl C sh st) : StkSnd C sh st := by
  intro i hi
  have := h i hi
  cases i <;> simp_all [Item.SndOK, Item.CplOK, Re.CplOK.snd]

theorem SndOKList_mem {C : Cfg} {sh : Shape} {l : List Re} : SndOKList C sh l ↔ ∀ r ∈ l, r.SndOK C sh := by
  induction l with
  | nil => simp [SndOKList]
  | cons r l ih => simp [SndOKList, ih]

theorem CplOKList_mem {C : Cfg} {sh : Shape} {l : List Re} : CplOKList C sh l ↔ ∀ r ∈ l, r.CplOK C sh := by
  induction l with
  | nil => simp [CplOKList]
  | cons r l ih => simp [CplOKList, ih]

theorem StkSnd_cons {C : Cfg} {sh : Shape} {i : Item} {t : Stack} : StkSnd C sh (i :: t) ↔ i.SndOK C sh ∧ StkSnd C sh t := by
  simp [StkSnd]

theorem StkCpl_cons {C : Cfg} {sh : Shape} {i : Item} {t : Stack} : StkCpl C sh (i :: t) ↔ i.CplOK C sh ∧ StkCpl C sh t := by
  simp [StkCpl]

theorem StkSnd_items {C : Cfg} {sh : Shape} {l : List Re} {t : Stack} :
    StkSnd C sh (items l t) ↔ SndOKList C sh l ∧ StkSnd C sh t := by
  induction l with
  | nil => simp [items, SndOKList]
  | cons r l ih =>
    have : items (r :: l) t = .re r :: items l t := rfl
    rw [this, StkSnd_cons, ih]; simp [SndOKList, Item.SndOK, and_assoc]

theorem StkCpl_items {C : Cfg} {sh : Shape} {l : List Re} {t : Stack} :
    StkCpl C sh (items l t) ↔ CplOKList C sh l ∧ StkCpl C sh t := by
  induction l with
  | nil => simp [items, CplOKList]
  | cons r l ih =>
    have : items (r :: l) t = .re r :: items l t := rfl
    rw [this, StkCpl_cons, ih]; simp [CplOKList, Item.CplOK, and_assoc]

/-- The end of the whole match is recorded where the stack ends. -/
def endsPos : Stack → Prop
  | [] => False
  | [.endCycle] => True
  | [.endMark, .accept] => True
  | _ :: t => endsPos t

/-- The last item is the end of a loop body. -/
def endsCycle : Stack → Prop
  | [] => False
  | [.endCycle] => True
  | _ :: t => endsCycle t

theorem endsPos_cons {i : Item} {t : Stack} (h : endsPos t) : endsPos (i :: t) := by
  cases t with
  | nil => simp [endsPos] at h
  | cons j t => 
    unfold endsPos
    split <;> simp_all

theorem endsCycle_cons {i : Item} {t : Stack} (h : endsCycle t) : endsCycle (i :: t) := by
  cases t with
  | nil => simp [endsCycle] at h
  | cons j t => 
    unfold endsCycle
    split <;> simp_all

theorem endsPos_of_cons_re {r : Re} {t : Stack} (h : endsPos (.re r :: t)) : endsPos t := h

theorem endsPos_of_cons_num {id : Nat} {t : Stack} (h : endsPos (.numMark id :: t)) : endsPos t := h

theorem endsPos_of_cons_start {t : Stack} (h : endsPos (.startMark :: t)) : endsPos t := h

theorem endsPos_items {l : List Re} {t : Stack} (h : endsPos t) : endsPos (items l t) := by
  induction l with
  | nil => exact h
  | cons r l ih => exact endsPos_cons ih

@[simp] theorem sst_consumed (cur : Nat) (f : Flags) (b : Bool) (c : Caps) :
    sst cur (f.consumed b) c = sst cur f c := by
  cases b <;> rfl

@[simp] theorem sst_notEmpty (cur : Nat) (f : Flags) (c : Caps) :
    sst cur f.notEmpty c = sst cur f c := rfl

theorem testAt_flags (U : Uni) (s : List Ch) (cur : Nat) (f : Flags) (c : Caps) (r : Re) :
    testAt U s cur f r = testAt U s (sst cur f c).pos (sst cur f c).flags r := by
  cases r <;> rfl

/-- What a successful run means. -/
structure OkSpec (U : Uni) (s : List Ch) (st : Stack) (cur : Nat) (f : Flags) (c c' : Caps)
    (y : SSt) : Prop where
  sem : StackSem U st s (sst cur f c) y
  posLe : y.pos ≤ s.length
  groups : c'.groups = y.gs
  matched : c'.whole.matched = true
  endPos : endsPos st → c'.whole.e = some y.pos
  start : .startMark ∉ st → c'.whole.b = c.whole.b

/-- Soundness for one amount of fuel. -/
def SndAt (C : Cfg) (sh : Shape) (n : Nat) : Prop :=
  ∀ s lb cur f c st c', cur ≤ s.length → StkSnd C sh st → Good sh c → eval C n s lb cur f c st = .ok c' →
    ∃ y, OkSpec C.uni s st cur f c c' y

/-- Completeness for one amount of fuel. -/
def CplAt (C : Cfg) (sh : Shape) (n : Nat) : Prop :=
  ∀ s lb cur f c st, cur ≤ s.length → StkCpl C sh st → Good sh c → eval C n s lb cur f c st = .fail →
    ∀ y, StackSem C.uni st s (sst cur f c) y → endsCycle st ∧ f.blk = true ∧ y.pos = cur

theorem StackSem.shape {U : Uni} : ∀ {st : Stack} {s : List Ch} {x y : SSt}, StackSem U st s x y →
    Ctre.shape y.gs = Ctre.shape x.gs
  | [], s, x, y, h => h.elim
  | .accept :: t, s, x, y, h | .endCycle :: t, s, x, y, h | .endAhead :: t, s, x, y, h
  | .endBehind :: t, s, x, y, h => by simp only [StackSem] at h; rw [h.2]
  | .startMark :: t, s, x, y, h | .endMark :: t, s, x, y, h => by
    simp only [StackSem] at h; exact StackSem.shape h
  | .numMark id :: t, s, x, y, h => by
    simp only [StackSem] at h; rw [StackSem.shape h.2, shape_modifyId]
  | .re r :: t, s, x, y, h => by
    simp only [StackSem] at h
    obtain ⟨z, h1, h2⟩ := h
    rw [StackSem.shape h2, h1.shape]

theorem OkSpec.good {U : Uni} {s : List Ch} {st : Stack} {cur : Nat} {f : Flags} {c c' : Caps}
    {y : SSt} {sh : Shape} (h : OkSpec U s st cur f c c' y) (hc : Good sh c) : Good sh c'.unmatch :=
  ⟨rfl, by
    show shape c'.groups = sh
    rw [h.groups, h.sem.shape]; exact hc.2⟩

section loops
variable {C : Cfg} {sh : Shape} {n : Nat}

/-- The abstraction used for loops. -/
abbrev bodyOf (C : Cfg) (n : Nat) (s : List Ch) (lb : Bool) (f : Flags) (m : List Re) : Nat → Caps → Out :=
  fun p c' => eval C n s lb p f.notEmpty c' (items m [.endCycle])

theorem stepSound_of (hS : SndAt C sh n) {s : List Ch} {lb : Bool} {f : Flags} {m : List Re}
    (hm : SndOKList C sh m) (b0 : Option Nat) :
    StepSound (BodyR C.uni m s) (fun p c => sst p f c)
      (fun p c => Good sh c ∧ c.whole.b = b0 ∧ p ≤ s.length) (bodyOf C n s lb f m) := by
  intro p c p' c' hi h
  unfold step at h
  split at h
  · rename_i d hd
    split at h
    · rename_i q hq
      simp only [Loop.go.injEq] at h
      obtain ⟨rfl, rfl⟩ := h
      have hst : StkSnd C sh (items m [.endCycle]) := by
        rw [StkSnd_items]; exact ⟨hm, by simp [StkSnd, Item.SndOK]⟩
      obtain ⟨y, hy⟩ := hS _ _ _ _ _ _ _ hi.2.2 hst hi.1 hd
      have h1 := hy.sem
      rw [StackSem_items] at h1
      obtain ⟨z, hz, hzy⟩ := h1
      simp only [StackSem, true_and] at hzy
      subst hzy
      have h2 := hy.endPos (endsPos_items (by simp [endsPos]))
      rw [hq] at h2
      simp only [Option.some.injEq] at h2
      refine ⟨⟨y, hz, ?_⟩, hy.good hi.1, ?_, ?_⟩
      · simp only [sst, Caps.unmatch, hy.groups, h2]
      · have := hy.start (by simp [items])
        simp only [Caps.unmatch, this, hi.2.1]
      · rw [h2]; exact hy.posLe
    · simp at h
  · simp at h

theorem stepComplete_of (hS : SndAt C sh n) (hC : CplAt C sh n) {s : List Ch} {lb : Bool} {f : Flags}
    {m : List Re} (hm : CplOKList C sh m) (hd : DetProg C.uni sh m) (b0 : Option Nat) :
    StepComplete (BodyR C.uni m s) (fun p c => sst p f c)
      (fun p c => Good sh c ∧ c.whole.b = b0 ∧ p ≤ s.length) (bodyOf C n s lb f m) := by
  intro p c hi
  refine ⟨?_, ?_⟩
  · intro h y hy
    obtain ⟨z, hz, rfl⟩ := hy
    unfold step at h
    split at h
    · split at h <;> simp at h
    · rename_i o hne
      simp only [Loop.stop.injEq] at h
      have hst : StkCpl C sh (items m [.endCycle]) := by
        rw [StkCpl_items]; exact ⟨hm, by simp [StkCpl, Item.CplOK]⟩
      have := hC _ _ _ _ _ _ hi.2.2 hst hi.1 h z
        (by rw [StackSem_items]; exact ⟨z, hz, by simp [StackSem]⟩)
      have h2 := (hd _ _ _ _ hi.2.2 hi.1.2 hz hz).2
      simp only [sst] at h2
      omega
  · intro p' c' h y hy
    have h1 := (stepSound_of hS (CplOKList.snd hm) b0 p c p' c' hi h).1
    obtain ⟨z, hz, hz'⟩ := h1
    obtain ⟨w, hw, rfl⟩ := hy
    have := (hd _ _ _ _ hi.2.2 hi.1.2 hw hz).1
    subst this
    exact hz'.symm
end loops

theorem OkSpec.of {U : Uni} {s : List Ch} {st st' : Stack} {cur cur' : Nat} {f f' : Flags}
    {c c1 c' : Caps} {y : SSt}
    (h : OkSpec U s st' cur' f' c1 c' y)
    (hsem : StackSem U st' s (sst cur' f' c1) y → StackSem U st s (sst cur f c) y)
    (hend : endsPos st → endsPos st') (hst : .startMark ∉ st → .startMark ∉ st')
    (hb : c1.whole.b = c.whole.b) : OkSpec U s st cur f c c' y :=
  ⟨hsem h.sem, h.posLe, h.groups, h.matched, fun e => h.endPos (hend e), fun hn => (h.start (hst hn)).trans hb⟩

theorem OkSpec.cons {U : Uni} {s : List Ch} {t : Stack} {r : Re} {cur cur' : Nat} {f f' : Flags}
    {c c1 c' : Caps} {y : SSt} (h : OkSpec U s t cur' f' c1 c' y)
    (hr : r.Sem U s (sst cur f c) (sst cur' f' c1)) (hb : c1.whole.b = c.whole.b) :
    OkSpec U s (.re r :: t) cur f c c' y :=
  h.of (fun hs => ⟨_, hr, hs⟩) endsPos_of_cons_re (by simp) hb

theorem startCapture_spec {id : Nat} (hid : id ≠ 0) {c c' : Caps} {p : Nat} (h : c.startCapture id p = some c') :
    hasId id c.groups = true ∧ c'.whole = c.whole ∧
      c'.groups = modifyId id (fun sl => { sl with b := some p }) c.groups := by
  unfold Caps.startCapture at h
  rw [if_neg hid] at h
  split at h
  · rename_i hh
    simp only [Option.some.injEq] at h
    subst h
    exact ⟨hh, rfl, rfl⟩
  · simp at h

theorem endCapture_spec {id : Nat} (hid : id ≠ 0) {c c' : Caps} {p : Nat} (h : c.endCapture id p = some c') :
    hasId id c.groups = true ∧ c'.whole = c.whole ∧
      c'.groups = modifyId id (fun sl => { sl with e := some p, matched := true }) c.groups := by
  unfold Caps.endCapture at h
  rw [if_neg hid] at h
  split at h
  · rename_i hh
    simp only [Option.some.injEq] at h
    subst h
    exact ⟨hh, rfl, rfl⟩
  · simp at h

theorem brefCmp_ref {s : List Ch} {cur : Nat} {c : Caps} {id : Nat} (hm : c.whole.matched = false) :
    brefCmp s cur (c.get id) = brefCmp s cur (refSlot c.groups id) := by
  unfold Caps.get refSlot
  split
  · simp [brefCmp, hm]
  · rfl

theorem Good.unmatch {sh : Shape} {c : Caps} (h : shape c.groups = sh) : Good sh c.unmatch := ⟨rfl, h⟩

theorem Good.modify {sh : Shape} {c c1 : Caps} {id : Nat} {g : Slot → Slot} (h : Good sh c)
    (h2 : c1.whole = c.whole) (h3 : c1.groups = modifyId id g c.groups) : Good sh c1 :=
  ⟨by rw [h2]; exact h.1, by rw [h3, shape_modifyId]; exact h.2⟩

/-- The relation iterated by a repetition. -/
theorem Sem_rep {U : Uni} {k : RepKind} {a b : Nat} {l : List Re} {s : List Ch} {x y : SSt} :
    Re.Sem U (.rep k a b l) s x y ↔ ∃ k, a ≤ k ∧ (b = 0 ∨ k ≤ b) ∧ Iterate (BodyR U l s) k x y := by
  simp only [Re.Sem]; exact Iff.rfl

theorem Iterate.add {α : Type} {R : α → α → Prop} {i j : Nat} {x y z : α} (h : Iterate R i x y)
    (h' : Iterate R j y z) : Iterate R (i + j) x z := by
  induction h with
  | zero => simpa using h'
  | succ h1 _ ih => rw [Nat.succ_add]; exact .succ h1 (ih h')

theorem Iterate.split {α : Type} {R : α → α → Prop} {i : Nat} : ∀ {j : Nat} {x z : α}, Iterate R (i + j) x z →
    ∃ y, Iterate R i x y ∧ Iterate R j y z := by
  induction i with
  | zero => intro j x z h; rw [Nat.zero_add] at h; exact ⟨x, .zero _, h⟩
  | succ i ih =>
    intro j x z h
    rw [Nat.succ_add] at h
    cases h with
    | succ h1 h2 =>
      obtain ⟨y, h3, h4⟩ := ih h2
      exact ⟨y, .succ h1 h3, h4⟩

theorem snd_step {C : Cfg} {sh : Shape} {n : Nat} (ih : SndAt C sh n) (ihC : CplAt C sh n) : SndAt C sh (n+1) := by
  intro s lb cur f c st c' hcur hst hm h
  rcases st with _ | ⟨it, t⟩
  · simp [eval_nil] at h
  rw [StkSnd_cons] at hst
  obtain ⟨hit, ht⟩ := hst
  cases it with
  | accept =>
    rcases t with _ | ⟨x, t⟩
    · rw [eval_accept] at h
      simp only [Out.ok.injEq] at h
      subst h
      exact ⟨sst cur f c, by simp [StackSem], hcur, rfl, rfl, by simp [endsPos], fun _ => rfl⟩
    · simp [eval_accept_cons] at h
  | endAhead =>
    rcases t with _ | ⟨x, t⟩
    · rw [eval_endAhead] at h
      simp only [Out.ok.injEq] at h
      subst h
      exact ⟨sst cur f c, by simp [StackSem], hcur, rfl, rfl, by simp [endsPos], fun _ => rfl⟩
    · simp [eval_endAhead_cons] at h
  | endBehind =>
    rcases t with _ | ⟨x, t⟩
    · rw [eval_endBehind] at h
      simp only [Out.ok.injEq] at h
      subst h
      exact ⟨sst cur f c, by simp [StackSem], hcur, rfl, rfl, by simp [endsPos], fun _ => rfl⟩
    · simp [eval_endBehind_cons] at h
  | endCycle =>
    rcases t with _ | ⟨x, t⟩
    · rw [eval_endCycle] at h
      split at h
      · simp at h
      · split at h
        · simp at h
        · simp only [Out.ok.injEq] at h
          subst h
          exact ⟨sst cur f c, by simp [StackSem], hcur, rfl, rfl, fun _ => rfl, fun _ => rfl⟩
    · simp [eval_endCycle_cons] at h
  | startMark =>
    rw [eval_startMark] at h
    split at h
    · simp at h
    · obtain ⟨y, hy⟩ := ih _ _ _ _ _ _ _ hcur ht (by exact hm) h
      exact ⟨y, hy.sem, hy.posLe, hy.groups, hy.matched, fun e => hy.endPos e, fun hn => absurd (by simp) hn⟩
  | endMark =>
    rw [eval_endMark] at h
    split at h
    · simp at h
    · obtain ⟨y, hy⟩ := ih _ _ _ _ _ _ _ hcur ht (by exact hm) h
      refine ⟨y, hy.sem, hy.posLe, hy.groups, hy.matched, ?_, fun hn => hy.start (by simp_all)⟩
      intro he
      unfold endsPos at he
      split at he
      · rename_i h1; simp at h1
      · rename_i h1; simp at h1
      · rename_i h1
        simp only [List.cons.injEq, true_and] at h1
        subst h1
        cases n with
        | zero => simp [eval_zero] at h
        | succ n =>
          rw [eval_accept] at h
          simp only [Out.ok.injEq] at h
          subst h
          have := hy.sem
          simp only [StackSem, true_and] at this
          subst this
          rfl
      · rename_i h1
        simp only [List.cons.injEq] at h1
        obtain ⟨_, rfl⟩ := h1
        exact hy.endPos he
  | numMark id =>
    rw [eval_numMark] at h
    split at h
    · simp at h
    · split at h
      · simp at h
      · rename_i c1 hc
        obtain ⟨h1, h2, h3⟩ := endCapture_spec hit hc
        obtain ⟨y, hy⟩ := ih _ _ _ _ _ _ _ hcur ht (hm.modify h2 h3) h
        refine ⟨y, hy.of ?_ endsPos_of_cons_num (by simp) (by rw [h2])⟩
        intro hs
        refine ⟨h1, ?_⟩
        simpa only [sst, h3] using hs
  | re r =>
    simp only [Item.SndOK] at hit
    cases r with
    | cc cl =>
      rw [eval_cc] at h
      split at h
      · simp at h
      · split at h
        · simp at h
        · rename_i v hv
          split at h
          · rename_i hmc
            have := (List.getElem?_eq_some_iff.1 hv).1
            obtain ⟨y, hy⟩ := ih _ _ _ _ _ _ _ (by omega) ht hm h
            refine ⟨y, hy.cons ?_ rfl⟩
            rw [sst_consumed]
            simp only [Re.Sem]
            exact ⟨v, hv, hmc, rfl⟩
          · simp at h
    | any =>
      rw [eval_any] at h
      split at h
      · simp at h
      · rename_i hne
        split at h
        · split at h
          · simp at h
          · rename_i v hv
            split at h
            · simp at h
            · rename_i hv10
              obtain ⟨y, hy⟩ := ih _ _ _ _ _ _ _ (by omega) ht hm h
              refine ⟨y, hy.cons ?_ rfl⟩
              rw [sst_consumed]
              simp only [Re.Sem]
              exact ⟨v, hv, fun _ => hv10, rfl⟩
        · rename_i hml
          obtain ⟨y, hy⟩ := ih _ _ _ _ _ _ _ (by omega) ht hm h
          refine ⟨y, hy.cons ?_ rfl⟩
          rw [sst_consumed]
          simp only [Re.Sem]
          have hlt : cur < s.length := by omega
          exact ⟨s[cur], List.getElem?_eq_getElem hlt, fun hh => absurd hh hml, rfl⟩
    | str cs =>
      rw [eval_str] at h
      split at h
      · simp at h
      · simp at h
      · rename_i p hp
        obtain ⟨y, hy⟩ := ih _ _ _ _ _ _ _ ((matchString_yes hp).2 hcur) ht hm h
        refine ⟨y, hy.cons ?_ rfl⟩
        rw [sst_consumed]
        simp only [Re.Sem]
        exact ⟨p, hp, rfl⟩
    | sel l =>
      simp only [Re.SndOK] at hit
      cases l with
      | nil => simp [eval_sel_nil] at h
      | cons r opts =>
        simp only [SndOKList] at hit
        rw [eval_sel_cons, Out.orElse_eq_ok] at h
        rcases h with h | ⟨_, h⟩
        · obtain ⟨y, hy⟩ := ih _ _ _ _ _ _ _ hcur (StkSnd_cons.2 ⟨by exact hit.1, ht⟩) hm h
          refine ⟨y, hy.of ?_ (fun e => e) (by simp) rfl⟩
          rintro ⟨z, hz, hz'⟩
          exact ⟨z, by simp only [Re.Sem, SemSel]; exact .inl hz, hz'⟩
        · obtain ⟨y, hy⟩ := ih _ _ _ _ _ _ _ hcur (StkSnd_cons.2 ⟨by simp only [Item.SndOK, Re.SndOK]; exact hit.2, ht⟩) hm h
          refine ⟨y, hy.of ?_ (fun e => e) (by simp) rfl⟩
          rintro ⟨z, hz, hz'⟩
          simp only [Re.Sem] at hz
          exact ⟨z, by simp only [Re.Sem, SemSel]; exact .inr hz, hz'⟩
    | seq l =>
      simp only [Re.SndOK] at hit
      rcases l with _ | ⟨r, _ | ⟨r', m⟩⟩
      · simp [eval_seq_nil] at h
      · rw [eval_seq_one] at h
        simp only [SndOKList] at hit
        obtain ⟨y, hy⟩ := ih _ _ _ _ _ _ _ hcur (StkSnd_cons.2 ⟨by exact hit.1, ht⟩) hm h
        refine ⟨y, hy.of ?_ (fun e => e) (by simp) rfl⟩
        rintro ⟨z, hz, hz'⟩
        exact ⟨z, by simp only [Re.Sem, SemSeq]; exact ⟨z, hz, rfl⟩, hz'⟩
      · rw [eval_seq_cons] at h
        rw [SndOKList] at hit
        obtain ⟨y, hy⟩ := ih _ _ _ _ _ _ _ hcur (StkSnd_cons.2 ⟨by exact hit.1, StkSnd_cons.2 ⟨by simpa only [Item.SndOK, Re.SndOK] using hit.2, ht⟩⟩) hm h
        refine ⟨y, hy.of ?_ (fun e => e) (by simp) rfl⟩
        rintro ⟨z, hz, w, hw, hw'⟩
        exact ⟨w, by simp only [Re.Sem] at hw ⊢; rw [SemSeq]; exact ⟨z, hz, hw⟩, hw'⟩
    | empty =>
      rw [eval_empty] at h
      obtain ⟨y, hy⟩ := ih _ _ _ _ _ _ _ hcur ht hm h
      exact ⟨y, hy.cons (by simp [Re.Sem]) rfl⟩
    | rep k a b m =>
      simp only [Re.SndOK] at hit
      have hS := stepSound_of (s := s) (lb := lb) (f := f) ih hit c.whole.b
      have hI : Good sh c ∧ c.whole.b = c.whole.b ∧ cur ≤ s.length := ⟨hm, rfl, hcur⟩
      cases k with
      | lazy =>
        rw [eval_lazy] at h
        split at h
        · simp at h
        rename_i hab
        split at h
        · simp at h
        split at h
        · rename_i o ho
          subst h
          exact absurd ho (mandLoop_ne_ok _ _ _)
        · rename_i p c1 hp
          obtain ⟨hit1, hI1⟩ := mandLoop_sound hS a _ _ _ _ hI hp
          rw [Out.orElse_eq_ok] at h
          rcases h with h | ⟨_, h⟩
          · obtain ⟨y, hy⟩ := ih _ _ _ _ _ _ _ hI1.2.2 ht hI1.1 h
            refine ⟨y, hy.cons ?_ hI1.2.1⟩
            rw [sst_consumed, Sem_rep]
            exact ⟨a, Nat.le_refl _, by omega, hit1⟩
          · obtain ⟨k, p', c2, h1, h2, h3, h4, h5⟩ :=
              lazyLoop_sound hS (a := a) n a p c1 c' (Nat.le_refl _) (by omega) hI1 h
            obtain ⟨y, hy⟩ := ih _ _ _ _ _ _ _ h4.2.2 ht h4.1 h5
            refine ⟨y, hy.cons ?_ h4.2.1⟩
            rw [sst_consumed, Sem_rep]
            exact ⟨a + k, by omega, by omega, hit1.add h3⟩
      | poss =>
        rw [eval_poss] at h
        split at h
        · simp at h
        rename_i hab
        split at h
        · simp at h
        split at h
        · rename_i o ho
          subst h
          exact absurd ho (possLoop_ne_ok _ _ _ _)
        · rename_i p c1 hp
          obtain ⟨k, h1, h2, h3, h4⟩ := possLoop_sound hS (by omega) n 0 _ _ _ _ (by omega) hI hp
          obtain ⟨y, hy⟩ := ih _ _ _ _ _ _ _ h4.2.2 ht h4.1 h
          refine ⟨y, hy.cons ?_ h4.2.1⟩
          rw [sst_consumed, Sem_rep]
          exact ⟨k, by omega, by omega, h3⟩
      | greedy =>
        rw [eval_greedy] at h
        simp only [greedyRecRef_eq, ite_self] at h
        split at h
        · simp at h
        rename_i hab
        split at h
        · simp at h
        generalize (if C.greedyOpt = true then loopCollides m t else some true) = g at h
        rcases g with _ | _ | _
        · simp at h
        · simp only at h
          obtain ⟨y, hy⟩ := ih _ _ _ _ _ _ _ hcur (StkSnd_cons.2 ⟨by simpa [Item.SndOK, Re.SndOK] using hit, ht⟩) hm h
          exact ⟨y, hy.of (fun hs => by simpa only [StackSem, Re.Sem] using hs) (fun e => e) (by simp) rfl⟩
        · simp only at h
          split at h
          · rename_i o ho
            subst h
            exact absurd ho (mandLoop_ne_ok _ _ _)
          · rename_i p c1 hp
            obtain ⟨hit1, hI1⟩ := mandLoop_sound hS a _ _ _ _ hI hp
            obtain ⟨k, p', c2, h1, h2, h3, h4, h5⟩ :=
              greedyRec_sound hS (a := a) n a p c1 c' (Nat.le_refl _) (by omega) hI1 h
            obtain ⟨y, hy⟩ := ih _ _ _ _ _ _ _ h4.2.2 ht h4.1 h5
            refine ⟨y, hy.cons ?_ h4.2.1⟩
            rw [sst_consumed, Sem_rep]
            exact ⟨a + k, by omega, by omega, hit1.add h3⟩
    | cap id name m =>
      simp only [Re.SndOK] at hit
      rw [eval_cap] at h
      split at h
      · simp at h
      split at h
      · simp at h
      · rename_i c1 hc
        obtain ⟨h1, h2, h3⟩ := startCapture_spec hit.1 hc
        obtain ⟨y, hy⟩ := ih _ _ _ _ _ _ _ hcur
          (StkSnd_cons.2 ⟨by simpa only [Item.SndOK, Re.SndOK] using hit.2, StkSnd_cons.2 ⟨by exact hit.1, ht⟩⟩)
          (hm.modify h2 h3) h
        refine ⟨y, hy.of ?_ (fun e => endsPos_cons (endsPos_cons e)) (by simp) (by rw [h2])⟩
        rintro ⟨z, hz, h4, h5⟩
        refine ⟨_, ?_, h5⟩
        simp only [Re.Sem] at hz ⊢
        refine ⟨h1, z, ?_, rfl⟩
        simpa only [sst, h3] using hz
    | bref id =>
      rw [eval_bref, brefCmp_ref hm.1] at h
      split at h
      · simp at h
      split at h
      · simp at h
      · simp at h
      · simp at h
      · rename_i p q hp
        obtain ⟨y, hy⟩ := ih _ _ _ _ _ _ _ (brefCmp_yes hp hcur).2.1 ht hm h
        refine ⟨y, hy.cons ?_ rfl⟩
        rw [sst_consumed]
        simp only [Re.Sem]
        exact ⟨p, q, hp, rfl⟩
    | brefName id =>
      rw [eval_brefName] at h
      split at h
      · simp at h
      split at h
      · simp at h
      · simp at h
      · simp at h
      · rename_i p q hp
        obtain ⟨y, hy⟩ := ih _ _ _ _ _ _ _ (brefCmp_yes hp hcur).2.1 ht hm h
        refine ⟨y, hy.cons ?_ rfl⟩
        rw [sst_consumed]
        simp only [Re.Sem]
        exact ⟨p, q, hp, rfl⟩
    | ahead pos m =>
      simp only [Re.SndOK] at hit
      rw [eval_ahead] at h
      have hin : StkSnd C sh [.re (.seq m), .endAhead] := by
        simp only [StkSnd_cons, Item.SndOK, Re.SndOK]; exact ⟨hit.1, trivial, by simp [StkSnd]⟩
      split at h
      · rename_i c1 hc
        split at h
        · rename_i hpos
          subst hpos
          obtain ⟨z, hz⟩ := ih _ _ _ _ _ _ _ hcur hin hm hc
          obtain ⟨y, hy⟩ := ih _ _ _ _ _ _ _ hcur ht (hz.good hm) h
          refine ⟨y, hy.cons ?_ (hz.start (by simp))⟩
          have h1 := hz.sem
          simp only [StackSem, Re.Sem, true_and] at h1 ⊢
          obtain ⟨w, hw, rfl⟩ := h1
          refine ⟨z, hw, ?_⟩
          simp only [sst, Caps.unmatch, hz.groups]
        · simp at h
      · rename_i hc
        split at h
        · simp at h
        · rename_i hpos
          have hpos : pos = false := by simpa using hpos
          subst hpos
          obtain ⟨y, hy⟩ := ih _ _ _ _ _ _ _ hcur ht hm h
          refine ⟨y, hy.cons ?_ rfl⟩
          simp only [Re.Sem]
          refine ⟨?_, trivial⟩
          rintro ⟨z, hz⟩
          have h2 := hit.2 rfl
          have := ihC _ _ _ _ _ [.re (.seq m), .endAhead] hcur
            (by simp only [StkCpl_cons, Item.CplOK, Re.CplOK]; exact ⟨h2, trivial, by simp [StkCpl]⟩) hm hc z
            (by simp only [StackSem, Re.Sem, true_and]; exact ⟨z, hz, by simp⟩)
          simp [endsCycle] at this
      · rename_i h1 h2
        exact absurd h (h1 _)
    | behind pos m =>
      simp only [Re.SndOK] at hit
      rw [eval_behind] at h
      have hin : StkSnd C sh [.re (.seq m), .endBehind] := by
        simp only [StkSnd_cons, Item.SndOK, Re.SndOK]; exact ⟨hit.1, trivial, by simp [StkSnd]⟩
      split at h
      · rename_i c1 hc
        split at h
        · rename_i hpos
          subst hpos
          obtain ⟨z, hz⟩ := ih _ _ _ _ _ _ _ (by simp) hin hm hc
          obtain ⟨y, hy⟩ := ih _ _ _ _ _ _ _ hcur ht (hz.good hm) h
          refine ⟨y, hy.cons ?_ (hz.start (by simp))⟩
          have h1 := hz.sem
          simp only [StackSem, Re.Sem, true_and] at h1 ⊢
          obtain ⟨w, hw, rfl⟩ := h1
          refine ⟨z, hw, ?_⟩
          simp only [sst, Caps.unmatch, hz.groups]
        · simp at h
      · rename_i hc
        split at h
        · simp at h
        · rename_i hpos
          have hpos : pos = false := by simpa using hpos
          subst hpos
          obtain ⟨y, hy⟩ := ih _ _ _ _ _ _ _ hcur ht hm h
          refine ⟨y, hy.cons ?_ rfl⟩
          simp only [Re.Sem]
          refine ⟨?_, trivial⟩
          rintro ⟨z, hz⟩
          have h2 := hit.2 rfl
          have := ihC _ _ _ _ _ [.re (.seq m), .endBehind] (by simp)
            (by simp only [StkCpl_cons, Item.CplOK, Re.CplOK]; exact ⟨h2, trivial, by simp [StkCpl]⟩) hm hc z
            (by simp only [StackSem, Re.Sem, true_and]; exact ⟨z, hz, by simp⟩)
          simp [endsCycle] at this
      · rename_i h1 h2
        exact absurd h (h1 _)
    | atomic m =>
      simp only [Re.SndOK] at hit
      rw [eval_atomic] at h
      obtain ⟨y, hy⟩ := ih _ _ _ _ _ _ _ hcur (StkSnd_cons.2 ⟨by simpa [Item.SndOK, Re.SndOK] using hit, ht⟩) hm h
      refine ⟨y, hy.of ?_ (fun e => e) (by simp) rfl⟩
      rintro ⟨z, hz, hz'⟩
      refine ⟨z, ?_, hz'⟩
      rw [Sem_rep] at hz
      obtain ⟨k, h1, h2, h3⟩ := hz
      have : k = 1 := by omega
      subst this
      cases h3 with
      | succ h4 h5 => cases h5; simp only [Re.Sem]; exact h4
    | mode md =>
      rw [eval_mode] at h
      obtain ⟨y, hy⟩ := ih _ _ _ _ _ _ _ hcur ht hm h
      refine ⟨y, hy.cons ?_ rfl⟩
      simp only [Re.Sem]
      cases md <;> rfl
    | reject => simp [eval_reject] at h
    | boundary _ | notBoundary _ | sBegin | sEnd | sEndLine | lBegin | lEnd =>
      rw [eval_test (h := rfl)] at h
      split at h
      · simp at h
      · simp at h
      · rename_i hy
        obtain ⟨y, hy'⟩ := ih _ _ _ _ _ _ _ hcur ht hm h
        refine ⟨y, hy'.cons ?_ rfl⟩
        rw [Re.Sem_test rfl]
        exact ⟨by rw [← hy]; rfl, rfl⟩

theorem cpl_step {C : Cfg} {sh : Shape} {n : Nat} (ih : SndAt C sh n) (ihC : CplAt C sh n) : CplAt C sh (n+1) := by
  intro s lb cur f c st hcur hst hm h y hy
  rcases st with _ | ⟨it, t⟩
  · simp [StackSem] at hy
  rw [StkCpl_cons] at hst
  obtain ⟨hit, ht⟩ := hst
  cases it with
  | accept =>
    rcases t with _ | ⟨x, t⟩
    · simp [eval_accept] at h
    · simp [StackSem] at hy
  | endAhead =>
    rcases t with _ | ⟨x, t⟩
    · simp [eval_endAhead] at h
    · simp [StackSem] at hy
  | endBehind =>
    rcases t with _ | ⟨x, t⟩
    · simp [eval_endBehind] at h
    · simp [StackSem] at hy
  | endCycle =>
    rcases t with _ | ⟨x, t⟩
    · rw [eval_endCycle] at h
      split at h
      · simp at h
      · split at h
        · simp only [StackSem, true_and] at hy
          subst hy
          exact ⟨by simp [endsCycle], by assumption, rfl⟩
        · simp at h
    · simp [StackSem] at hy
  | startMark =>
    rw [eval_startMark] at h
    split at h
    · simp at h
    · have := ihC _ _ _ _ _ _ hcur ht (by exact hm) h y hy
      exact ⟨endsCycle_cons this.1, this.2⟩
  | endMark =>
    rw [eval_endMark] at h
    split at h
    · simp at h
    · have := ihC _ _ _ _ _ _ hcur ht (by exact hm) h y hy
      exact ⟨endsCycle_cons this.1, this.2⟩
  | numMark id =>
    rw [eval_numMark] at h
    split at h
    · simp at h
    · split at h
      · simp at h
      · rename_i c1 hc
        obtain ⟨h1, h2, h3⟩ := endCapture_spec hit hc
        have := ihC _ _ _ _ _ _ hcur ht (hm.modify h2 h3) h y
          (by simpa only [sst, h3] using hy.2)
        exact ⟨endsCycle_cons this.1, this.2⟩
  | re r =>
    simp only [Item.CplOK] at hit
    obtain ⟨z, hz, hzy⟩ := hy
    cases r with
    | cc cl =>
      simp only [Re.Sem] at hz
      obtain ⟨v, hv, hmc, rfl⟩ := hz
      have hlt := (List.getElem?_eq_some_iff.1 hv).1
      simp only [sst] at hv hmc hlt
      rw [eval_cc, if_neg (by omega), hv] at h
      simp only [hmc, if_true] at h
      have := ihC _ _ _ _ _ _ (by omega) ht hm h y (by rw [sst_consumed]; exact hzy)
      simp [Flags.consumed] at this
    | any =>
      simp only [Re.Sem] at hz
      obtain ⟨v, hv, hmc, rfl⟩ := hz
      have hlt := (List.getElem?_eq_some_iff.1 hv).1
      simp only [sst] at hv hmc hlt
      rw [eval_any, if_neg (by omega), hv] at h
      have h' : eval C n s lb (cur + 1) (f.consumed true) c t = .fail := by
        split at h
        · rename_i hml
          simp only at h
          rw [if_neg (hmc hml)] at h
          exact h
        · exact h
      have := ihC _ _ _ _ _ _ (by omega) ht hm h' y (by rw [sst_consumed]; exact hzy)
      simp [Flags.consumed] at this
    | str cs =>
      simp only [Re.Sem] at hz
      obtain ⟨p, hp, rfl⟩ := hz
      simp only [sst] at hp
      rw [eval_str, hp] at h
      have hp' := matchString_yes hp
      have := ihC _ _ _ _ _ _ (hp'.2 hcur) ht hm h y (by rw [sst_consumed]; exact hzy)
      refine ⟨endsCycle_cons this.1, ?_⟩
      cases cs with
      | nil => simp [Flags.consumed] at this hp'; exact ⟨this.2.1, by omega⟩
      | cons c cs => simp [Flags.consumed] at this
    | sel l =>
      simp only [Re.CplOK] at hit
      cases l with
      | nil => simp [Re.Sem, SemSel] at hz
      | cons r opts =>
        simp only [CplOKList] at hit
        rw [eval_sel_cons, Out.orElse_eq_fail] at h
        simp only [Re.Sem, SemSel] at hz
        rcases hz with hz | hz
        · have := ihC _ _ _ _ _ _ hcur (StkCpl_cons.2 ⟨by exact hit.1, ht⟩) hm h.1 y ⟨z, hz, hzy⟩
          exact this
        · have := ihC _ _ _ _ _ _ hcur
            (StkCpl_cons.2 ⟨by simpa only [Item.CplOK, Re.CplOK] using hit.2, ht⟩) hm h.2 y
            ⟨z, by simpa only [Re.Sem] using hz, hzy⟩
          exact this
    | seq l =>
      simp only [Re.CplOK] at hit
      simp only [Re.Sem] at hz
      rcases l with _ | ⟨r, _ | ⟨r', m⟩⟩
      · simp at hit
      · rw [eval_seq_one] at h
        simp only [CplOKList] at hit
        simp only [SemSeq] at hz
        obtain ⟨w, hw, rfl⟩ := hz
        exact ihC _ _ _ _ _ _ hcur (StkCpl_cons.2 ⟨by exact hit.2.1, ht⟩) hm h y ⟨_, hw, hzy⟩
      · rw [eval_seq_cons] at h
        rw [CplOKList] at hit
        rw [SemSeq] at hz
        obtain ⟨w, hw, hw'⟩ := hz
        exact ihC _ _ _ _ _ _ hcur (StkCpl_cons.2 ⟨by exact hit.2.1,
          StkCpl_cons.2 ⟨by simp only [Item.CplOK, Re.CplOK]; exact ⟨by simp, hit.2.2⟩, ht⟩⟩) hm h y
          ⟨w, hw, z, by simpa only [Re.Sem] using hw', hzy⟩
    | empty =>
      rw [eval_empty] at h
      simp only [Re.Sem] at hz
      subst hz
      have := ihC _ _ _ _ _ _ hcur ht hm h y hzy
      exact ⟨endsCycle_cons this.1, this.2⟩
    | rep kd a b m =>
      simp only [Re.CplOK] at hit
      obtain ⟨hposs, hgr, hdet, hml⟩ := hit
      have hS := stepSound_of (s := s) (lb := lb) (f := f) ih (CplOKList.snd hml) c.whole.b
      have hC := stepComplete_of (s := s) (lb := lb) (f := f) ih ihC hml hdet c.whole.b
      have hI : Good sh c ∧ c.whole.b = c.whole.b ∧ cur ≤ s.length := ⟨hm, rfl, hcur⟩
      rw [Sem_rep] at hz
      obtain ⟨k, hak, hkb, hit⟩ := hz
      obtain ⟨j, rfl⟩ : ∃ j, k = a + j := ⟨k - a, by omega⟩
      obtain ⟨w, hw1, hw2⟩ := hit.split
      have hT : ∀ p c', (Good sh c' ∧ c'.whole.b = c.whole.b ∧ p ≤ s.length) →
          eval C n s lb p (f.consumed true) c' t = .fail → ¬ StackSem C.uni t s (sst p f c') y := by
        intro p c' hi' ht' hs
        have := ihC _ _ _ _ _ _ hi'.2.2 ht hi'.1 ht' y (by rw [sst_consumed]; exact hs)
        simp [Flags.consumed] at this
      cases kd with
      | lazy =>
        rw [eval_lazy, if_neg (by omega)] at h
        split at h
        · simp at h
        split at h
        · rename_i o ho
          subst h
          exact absurd hw1 ((mandLoop_complete hS hC a _ _ hI).1 ho _)
        · rename_i p c1 hp
          have hI1 := (mandLoop_sound hS a _ _ _ _ hI hp).2
          have := (mandLoop_complete hS hC a _ _ hI).2 _ _ hp _ hw1
          subst this
          rw [Out.orElse_eq_fail] at h
          have hj := lazyLoop_complete hS hC n (T := fun x => StackSem C.uni t s x y)
            (tail := fun p c' => eval C n s lb p (f.consumed true) c' t) hT a p c1 hI1 h.2 j z (by omega) hw2 hzy
          subst hj
          cases hw2
          have := ihC _ _ _ _ _ _ hI1.2.2 ht hI1.1 h.1 y (by rw [sst_consumed]; exact hzy)
          refine ⟨endsCycle_cons this.1, ?_⟩
          by_cases hpc : cur = p
          · subst hpc
            simpa [Flags.consumed] using this.2
          · simp [Flags.consumed, hpc] at this
      | poss =>
        obtain ⟨rfl, hpos⟩ := hposs rfl
        rw [eval_poss, if_neg (by omega)] at h
        have : j = 0 := by omega
        subst this
        cases hw2
        split at h
        · simp at h
        split at h
        · rename_i o ho
          subst h
          exact absurd hw1 ((possLoop_complete hS hC hpos n 0 _ _ (by omega) hI).1 ho _)
        · rename_i p c1 hp
          obtain ⟨_, _, _, _, hI1⟩ := possLoop_sound hS (by omega) n 0 _ _ _ _ (by omega) hI hp
          have := (possLoop_complete hS hC hpos n 0 _ _ (by omega) hI).2 _ _ hp _ hw1
          subst this
          have := ihC _ _ _ _ _ _ hI1.2.2 ht hI1.1 h y (by rw [sst_consumed]; exact hzy)
          refine ⟨endsCycle_cons this.1, ?_⟩
          by_cases hpc : cur = p
          · subst hpc
            simpa [Flags.consumed] using this.2
          · simp [Flags.consumed, hpc] at this
      | greedy =>
        rw [eval_greedy, if_neg (by omega), hgr rfl] at h
        simp only [greedyRecRef_eq, ite_self] at h
        split at h
        · simp at h
        simp only [Bool.false_eq_true, if_false] at h
        split at h
        · rename_i o ho
          subst h
          exact absurd hw1 ((mandLoop_complete hS hC a _ _ hI).1 ho _)
        · rename_i p c1 hp
          have hI1 := (mandLoop_sound hS a _ _ _ _ hI hp).2
          have := (mandLoop_complete hS hC a _ _ hI).2 _ _ hp _ hw1
          subst this
          exact absurd hzy (greedyRec_complete hS hC n (T := fun x => StackSem C.uni t s x y)
            (tail := fun p c' => eval C n s lb p (f.consumed true) c' t) hT a p c1 hI1 h j z (by omega) hw2)
    | cap id name m =>
      simp only [Re.CplOK] at hit
      simp only [Re.Sem] at hz
      obtain ⟨h1, w, hw, rfl⟩ := hz
      rw [eval_cap] at h
      split at h
      · simp at h
      split at h
      · simp at h
      · rename_i c1 hc
        obtain ⟨_, h2, h3⟩ := startCapture_spec hit.1 hc
        by_cases hid : hasId id w.gs = true
        · have := ihC _ _ _ _ _ _ hcur
            (StkCpl_cons.2 ⟨by simp only [Item.CplOK, Re.CplOK]; exact hit.2, StkCpl_cons.2 ⟨by exact hit.1, ht⟩⟩)
            (hm.modify h2 h3) h y
            ⟨w, by simpa only [Re.Sem, sst, h3] using hw, hid, hzy⟩
          refine ⟨endsCycle_cons ?_, this.2⟩
          have := this.1
          rcases t with _ | ⟨i, t⟩
          · simp [endsCycle] at this
          · exact this
        · exact absurd ((hasId_shape (by have := hw.shape; simpa [shape_modifyId] using this)).trans h1) hid
    | bref id =>
      simp only [Re.Sem] at hz
      obtain ⟨p, q, hp, rfl⟩ := hz
      rw [eval_bref, brefCmp_ref hm.1] at h
      simp only [sst] at hp
      rw [hp] at h
      split at h
      · simp at h
      have hp' := brefCmp_yes hp hcur
      have := ihC _ _ _ _ _ _ hp'.2.1 ht hm h y (by rw [sst_consumed]; exact hzy)
      refine ⟨endsCycle_cons this.1, ?_⟩
      rw [hp'.2.2] at this
      by_cases hpc : cur = p
      · subst hpc
        simpa [Flags.consumed] using this.2
      · simp [Flags.consumed, hpc] at this
    | brefName id =>
      simp only [Re.Sem] at hz
      obtain ⟨p, q, hp, rfl⟩ := hz
      rw [eval_brefName] at h
      simp only [sst] at hp
      simp only [Caps.getName] at h
      rw [hp] at h
      split at h
      · simp at h
      have hp' := brefCmp_yes hp hcur
      have := ihC _ _ _ _ _ _ hp'.2.1 ht hm h y (by rw [sst_consumed]; exact hzy)
      refine ⟨endsCycle_cons this.1, ?_⟩
      rw [hp'.2.2] at this
      by_cases hpc : cur = p
      · subst hpc
        simpa [Flags.consumed] using this.2
      · simp [Flags.consumed, hpc] at this
    | ahead pos m =>
      simp only [Re.CplOK] at hit
      have hin : StkCpl C sh [.re (.seq m), .endAhead] := by
        simp only [StkCpl_cons, Item.CplOK, Re.CplOK]; exact ⟨hit.2, trivial, by simp [StkCpl]⟩
      rw [eval_ahead] at h
      cases pos with
      | true =>
        simp only [Re.Sem] at hz
        obtain ⟨w, hw, rfl⟩ := hz
        split at h
        · rename_i c1 hc
          obtain ⟨w', hw'⟩ := ih _ _ _ _ _ _ _ hcur hin.snd hm hc
          have h1 := hw'.sem
          simp only [StackSem, Re.Sem, true_and] at h1
          obtain ⟨v, hv, rfl⟩ := h1
          have hg := hit.1 rfl _ _ _ _ hcur hm.2 hw hv
          have := ihC _ _ _ _ _ _ hcur ht (hw'.good hm) h y
            (by simpa only [sst, Caps.unmatch, hw'.groups, ← hg] using hzy)
          exact ⟨endsCycle_cons this.1, this.2⟩
        · rename_i hc
          have := ihC _ _ _ _ _ _ hcur hin hm hc w
            (by simp only [StackSem, Re.Sem, true_and]; exact ⟨w, hw, by simp⟩)
          simp [endsCycle] at this
        · rename_i h1 h2; exact absurd h h2
      | false =>
        simp only [Re.Sem] at hz
        obtain ⟨hz, rfl⟩ := hz
        split at h
        · rename_i c1 hc
          obtain ⟨w', hw'⟩ := ih _ _ _ _ _ _ _ hcur hin.snd hm hc
          have h1 := hw'.sem
          simp only [StackSem, Re.Sem, true_and] at h1
          obtain ⟨v, hv, rfl⟩ := h1
          exact absurd ⟨_, hv⟩ hz
        · have := ihC _ _ _ _ _ _ hcur ht hm h y hzy
          exact ⟨endsCycle_cons this.1, this.2⟩
        · rename_i h1 h2; exact absurd h h2
    | behind pos m =>
      simp only [Re.CplOK] at hit
      have hin : StkCpl C sh [.re (.seq m), .endBehind] := by
        simp only [StkCpl_cons, Item.CplOK, Re.CplOK]; exact ⟨hit.2, trivial, by simp [StkCpl]⟩
      rw [eval_behind] at h
      have hlen : s.length - cur ≤ s.reverse.length := by simp
      cases pos with
      | true =>
        simp only [Re.Sem] at hz
        obtain ⟨w, hw, rfl⟩ := hz
        split at h
        · rename_i c1 hc
          obtain ⟨w', hw'⟩ := ih _ _ _ _ _ _ _ hlen hin.snd hm hc
          have h1 := hw'.sem
          simp only [StackSem, Re.Sem, true_and] at h1
          obtain ⟨v, hv, rfl⟩ := h1
          have hg := hit.1 rfl _ _ _ _ hlen hm.2 hw hv
          have := ihC _ _ _ _ _ _ hcur ht (hw'.good hm) h y
            (by simpa only [sst, Caps.unmatch, hw'.groups, ← hg] using hzy)
          exact ⟨endsCycle_cons this.1, this.2⟩
        · rename_i hc
          have := ihC _ _ _ _ _ _ hlen hin hm hc w
            (by simp only [StackSem, Re.Sem, true_and]; exact ⟨w, hw, by simp⟩)
          simp [endsCycle] at this
        · rename_i h1 h2; exact absurd h h2
      | false =>
        simp only [Re.Sem] at hz
        obtain ⟨hz, rfl⟩ := hz
        split at h
        · rename_i c1 hc
          obtain ⟨w', hw'⟩ := ih _ _ _ _ _ _ _ hlen hin.snd hm hc
          have h1 := hw'.sem
          simp only [StackSem, Re.Sem, true_and] at h1
          obtain ⟨v, hv, rfl⟩ := h1
          exact absurd ⟨_, hv⟩ hz
        · have := ihC _ _ _ _ _ _ hcur ht hm h y hzy
          exact ⟨endsCycle_cons this.1, this.2⟩
        · rename_i h1 h2; exact absurd h h2
    | atomic m =>
      simp only [Re.CplOK] at hit
      rw [eval_atomic] at h
      simp only [Re.Sem] at hz
      refine ihC _ _ _ _ _ _ hcur (StkCpl_cons.2 ⟨?_, ht⟩) hm h y ⟨z, ?_, hzy⟩
      · simp only [Item.CplOK, Re.CplOK]; exact ⟨by simp, by simp, hit⟩
      · rw [Sem_rep]
        exact ⟨1, by omega, by omega, .succ hz (.zero _)⟩
    | mode md =>
      rw [eval_mode] at h
      simp only [Re.Sem] at hz
      subst hz
      have := ihC _ _ _ _ _ _ hcur ht hm h y (by cases md <;> exact hzy)
      refine ⟨endsCycle_cons this.1, ?_⟩
      cases md <;> simpa [Flags.add] using this.2
    | reject => simp [Re.Sem] at hz
    | boundary _ | notBoundary _ | sBegin | sEnd | sEndLine | lBegin | lEnd =>
      rw [eval_test (h := rfl)] at h
      rw [Re.Sem_test rfl] at hz
      obtain ⟨h1, rfl⟩ := hz
      rw [testAt_flags _ _ _ _ c, h1] at h
      have := ihC _ _ _ _ _ _ hcur ht hm h y hzy
      exact ⟨endsCycle_cons this.1, this.2⟩

theorem snd_cpl (C : Cfg) (sh : Shape) : ∀ n, SndAt C sh n ∧ CplAt C sh n := by
  intro n
  induction n with
  | zero => exact ⟨by intro s lb cur f c st c' _ _ _ h; simp [eval_zero] at h,
                   by intro s lb cur f c st _ _ _ h; simp [eval_zero] at h⟩
  | succ n ih => exact ⟨snd_step ih.1 ih.2, cpl_step ih.1 ih.2⟩

end Ctre

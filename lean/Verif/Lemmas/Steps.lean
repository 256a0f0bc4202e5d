import Verif.Model.Steps
import Verif.Lemmas.EvalEqs

/-
An upper bound on the work, from the pattern and the fuel.
-/
namespace Ctre

theorem compared_le (ci : Bool) (s : List Ch) : ∀ cs cur, compared ci s cs cur ≤ cs.length
  | [], _ => by simp [compared]
  | c :: cs, cur => by
    have := compared_le ci s cs (cur + 1)
    simp only [compared, List.length_cons]
    split
    · omega
    · split <;> omega

theorem comparedBack_le (s : List Ch) : ∀ n cur rc re, comparedBack s n cur rc re ≤ n + 1
  | 0, cur, rc, re => by
    unfold comparedBack
    split
    · omega
    · split
      · split <;> simp
      · omega
  | n + 1, cur, rc, re => by
    have := comparedBack_le s n (cur + 1) (rc + 1) re
    unfold comparedBack
    split
    · omega
    · split
      · split
        · simp only; omega
        · omega
      · omega

theorem brefSteps_le (s : List Ch) (cur : Nat) (sl : Option Slot) : brefSteps s cur sl ≤ s.length + 1 := by
  unfold brefSteps
  split
  · omega
  · split
    · split
      · have := comparedBack_le s (s.length - cur) cur
        rename_i b e _ _
        have := this b e
        omega
      · omega
    · omega

theorem ifFail_le (o : Out) (w : Nat) : o.ifFail w ≤ w := by cases o <;> simp [Out.ifFail]

/-! ### Loops -/

section
variable {body tail : Nat → Caps → Out} {work workT : Nat → Caps → Nat} {W T : Nat}

theorem mandSteps_le (hW : ∀ p c, work p c ≤ W) : ∀ a cur c, mandSteps body work a cur c ≤ a * W
  | 0, _, _ => by simp [mandSteps]
  | a + 1, cur, c => by
    have h1 := hW cur c
    simp only [mandSteps, Nat.succ_mul]
    cases step body cur c with
    | stop o => simp only; omega
    | go p c' => have := mandSteps_le hW a p c'; simp only; omega

/-- Iterations left: at most the fuel, and at most the bound. -/
def room (b m i : Nat) : Nat := if b = 0 then m else b - i

theorem lessInf_room {b m i : Nat} (h : lessInf b i = true) : 1 + room b m (i + 1) ≤ room b (m + 1) i := by
  unfold lessInf at h
  unfold room
  split at h
  · rename_i hb; simp [hb]; omega
  · rename_i hb
    simp only [decide_eq_true_eq] at h
    simp only [hb, if_false]
    omega

theorem possSteps_le (hW : ∀ p c, work p c ≤ W) (b : Nat) : ∀ m i cur c, possSteps body work b m i cur c ≤ room b m i * W
  | 0, _, _, _ => by simp [possSteps]
  | m + 1, i, cur, c => by
    have h1 := hW cur c
    simp only [possSteps]
    split
    · rename_i h
      have h2 := Nat.mul_le_mul_right W (lessInf_room (m := m) h)
      rw [Nat.add_mul] at h2
      cases step body cur c with
      | stop o => simp only; omega
      | go p c' => have := possSteps_le hW b m (i + 1) p c'; simp only; omega
    · omega

theorem lazySteps_le (hW : ∀ p c, work p c ≤ W) (hT : ∀ p c, workT p c ≤ T) (b : Nat) :
    ∀ m i cur c, lazySteps body tail work workT b m i cur c ≤ room b m i * (W + T) + T
  | 0, _, _, _ => by simp [lazySteps]
  | m + 1, i, cur, c => by
    have h1 := hW cur c
    have h2 := hT cur c
    simp only [lazySteps]
    split
    · rename_i h
      have h3 := Nat.mul_le_mul_right (W + T) (lessInf_room (m := m) h)
      rw [Nat.add_mul] at h3
      cases step body cur c with
      | stop o => simp only; omega
      | go p c' =>
        have h4 := lazySteps_le hW hT b m (i + 1) p c'
        have h5 := hT p c'
        have h6 := ifFail_le (tail p c') (lazySteps body tail work workT b m (i + 1) p c')
        simp only; omega
    · omega

theorem greedySteps_le (hW : ∀ p c, work p c ≤ W) (hT : ∀ p c, workT p c ≤ T) (b : Nat) :
    ∀ m i cur c, greedySteps body tail work workT b m i cur c ≤ (room b m i + 1) * (1 + W + T)
  | 0, _, _, _ => by simp [greedySteps]
  | m + 1, i, cur, c => by
    have h1 := hW cur c
    have h2 := hT cur c
    simp only [greedySteps]
    rw [Nat.succ_mul]
    split
    · rename_i h
      have h3 := Nat.mul_le_mul_right (1 + W + T) (lessInf_room (m := m) h)
      cases step body cur c with
      | stop o =>
        have := ifFail_le o (workT cur c)
        simp only; omega
      | go p c' =>
        have h4 := greedySteps_le hW hT b m (i + 1) p c'
        have h6 := ifFail_le (greedyRec body tail b m (i + 1) p c') (workT cur c)
        rw [Nat.add_comm 1 (room b m (i + 1))] at h3
        simp only; omega
    · omega
end

/-! ### Patterns -/

mutual
/-- Bound for a stack beginning with a pattern; `t` is the rest of the stack, `k` the bound for it, `N` a bound for the
fuel and the length of the subject. -/
def Re.most (C : Cfg) (N : Nat) (t : Stack) (k : Nat) : Re → Nat
  | .reject _ => 1
  | .str cs => 1 + cs.length + k
  | .sel l => mostSel C N t k l
  | .seq l => mostSeq C N t k l
  | .rep .lazy a b m =>
    let B := mostItems C N [.endCycle] 1 m
    1 + a * B + k + ((if b = 0 then N else b) * (B + k) + k)
  | .rep .poss _ b m =>
    let B := mostItems C N [.endCycle] 1 m
    1 + (if b = 0 then N else b) * B + k
  | .rep .greedy a b m =>
    let B := mostItems C N [.endCycle] 1 m
    match (if C.greedyOpt then loopCollides m t else some true) with
    | none => 1
    | some false => 2 + (if b = 0 then N else b) * B + k
    | some true => 1 + a * B + ((if b = 0 then N else b) + 1) * (1 + B + k)
  | .cap id _ m => 1 + mostSeq C N (.numMark id :: t) (1 + k) m
  | .bref _ | .brefName _ => 2 + N + k
  | .ahead _ m => 1 + mostSeq C N [.endAhead] 1 m + k
  | .behind _ m => 1 + mostSeq C N [.endBehind] 1 m + k
  | .atomic m => 2 + mostItems C N [.endCycle] 1 m + k
  | _ => 1 + k

/-- Alternatives. -/
def mostSel (C : Cfg) (N : Nat) (t : Stack) (k : Nat) : List Re → Nat
  | [] => 1
  | r :: l => 1 + r.most C N t k + mostSel C N t k l

/-- A sequence. -/
def mostSeq (C : Cfg) (N : Nat) (t : Stack) (k : Nat) : List Re → Nat
  | [] => 1
  | r :: m => 1 + r.most C N (if m.isEmpty then t else .re (.seq m) :: t) (if m.isEmpty then k else mostSeq C N t k m)

/-- The parts of the body of a repetition. -/
def mostItems (C : Cfg) (N : Nat) (t : Stack) (k : Nat) : List Re → Nat
  | [] => k
  | r :: m => r.most C N (items m t) (mostItems C N t k m)
end

/-- The same for a stack. -/
def mostSt (C : Cfg) (N : Nat) : Stack → Nat
  | [] => 1
  | .re r :: t => r.most C N t (mostSt C N t)
  | .accept :: _ | .endCycle :: _ | .endAhead :: _ | .endBehind :: _ => 1
  | _ :: t => 1 + mostSt C N t

theorem mostSt_items (C : Cfg) (N : Nat) (t : Stack) : ∀ m, mostSt C N (items m t) = mostItems C N t (mostSt C N t) m
  | [] => by simp [items, mostItems]
  | r :: m => by
    have := mostSt_items C N t m
    simp only [items, List.map_cons, List.cons_append, mostSt, mostItems] at *
    rw [this]

theorem steps_le (C : Cfg) (N : Nat) : ∀ n s lb cur f c st, n ≤ N → s.length ≤ N →
    steps C n s lb cur f c st ≤ mostSt C N st := by
  intro n
  induction n with
  | zero => intro s lb cur f c st _ _; simp [steps]
  | succ n ih =>
    intro s lb cur f c st hn hs
    have ih' := fun s' (hs' : s'.length ≤ N) lb' cur' f' c' st' => ih s' lb' cur' f' c' st' (by omega) hs'
    have rest := fun lb' cur' f' c' st' => ih' s hs lb' cur' f' c' st'
    have body : ∀ m p c', steps C n s lb p f.notEmpty c' (items m [.endCycle]) ≤ mostItems C N [.endCycle] 1 m := by
      intro m p c'
      have := rest lb p f.notEmpty c' (items m [.endCycle])
      rw [mostSt_items] at this
      exact this
    have rm : ∀ b i, room b n i ≤ (if b = 0 then N else b) := by
      intro b i; unfold room; split <;> omega
    rcases st with _ | ⟨it, t⟩
    · simp [steps, mostSt]
    · cases it with
      | accept => simp [steps, mostSt]
      | endCycle => simp [steps, mostSt]
      | endAhead => simp [steps, mostSt]
      | endBehind => simp [steps, mostSt]
      | startMark =>
        have := rest lb cur f (c.setStart cur) t
        simp only [steps, mostSt]; split <;> omega
      | endMark =>
        have := rest lb cur f (c.setEnd cur) t
        simp only [steps, mostSt]; split <;> omega
      | numMark id =>
        simp only [steps, mostSt]
        split
        · omega
        · split
          · omega
          · rename_i c' _; have := rest lb cur f c' t; omega
      | re r =>
        cases r with
        | cc cl =>
          have := rest lb (cur + 1) (f.consumed true) c t
          simp only [steps, mostSt, Re.most]
          split
          · omega
          · split
            · omega
            · split <;> omega
        | any =>
          have := rest lb (cur + 1) (f.consumed true) c t
          simp only [steps, mostSt, Re.most]
          split
          · omega
          · split
            · split
              · omega
              · split <;> omega
            · omega
        | str cs =>
          have h1 := compared_le f.ci s cs cur
          simp only [steps, mostSt, Re.most]
          split
          · omega
          · omega
          · rename_i p _
            have := rest lb p (f.consumed (decide (0 < cs.length))) c t
            omega
        | sel l =>
          cases l with
          | nil => simp [steps, mostSt, Re.most, mostSel]
          | cons r opts =>
            have h1 := rest lb cur f c (.re r :: t)
            have h2 := rest lb cur f c (.re (.sel opts) :: t)
            have h3 := ifFail_le (eval C n s lb cur f c (.re r :: t)) (steps C n s lb cur f c (.re (.sel opts) :: t))
            simp only [steps, mostSt, Re.most, mostSel] at *
            omega
        | seq l =>
          rcases l with _ | ⟨r, _ | ⟨r', m⟩⟩
          · simp [steps, mostSt, Re.most, mostSeq]
          · have h1 := rest lb cur f c (.re r :: t)
            simp only [steps, mostSt, Re.most, mostSeq, List.isEmpty_nil, if_true] at *
            omega
          · have h1 := rest lb cur f c (.re r :: .re (.seq (r' :: m)) :: t)
            simp only [steps, mostSt] at *
            rw [Re.most, mostSeq]
            simp only [List.isEmpty_cons, Bool.false_eq_true, if_false]
            simp only [Re.most] at h1
            omega
        | empty =>
          have := rest lb cur f c t
          simp only [steps, mostSt, Re.most]; omega
        | rep kd a b m =>
          have hb := body m
          have mand := mandSteps_le (body := fun p c' => eval C n s lb p f.notEmpty c' (items m [.endCycle])) hb a cur c
          have hT := fun p c' => rest lb p (f.consumed true) c' t
          generalize hB : mostItems C N [.endCycle] 1 m = B at *
          cases kd with
          | lazy =>
            simp only [steps, mostSt, Re.most]
            rw [hB]
            split
            · omega
            · split
              · omega
              · cases mandLoop (fun p c' => eval C n s lb p f.notEmpty c' (items m [.endCycle])) a cur c with
                | stop o => simp only; omega
                | go p c' =>
                  have h1 := rest lb p (f.consumed (decide (cur ≠ p))) c' t
                  have h2 := lazySteps_le (body := fun p c' => eval C n s lb p f.notEmpty c' (items m [.endCycle]))
                    (tail := fun p c' => eval C n s lb p (f.consumed true) c' t) hb hT b n a p c'
                  have h3 := Nat.mul_le_mul_right (B + mostSt C N t) (rm b a)
                  have h4 := ifFail_le (eval C n s lb p (f.consumed (decide (cur ≠ p))) c' t)
                    (lazySteps (fun p c' => eval C n s lb p f.notEmpty c' (items m [.endCycle]))
                    (fun p c' => eval C n s lb p (f.consumed true) c' t)
                    (fun p c' => steps C n s lb p f.notEmpty c' (items m [.endCycle]))
                    (fun p c' => steps C n s lb p (f.consumed true) c' t) b n a p c')
                  simp only at *
                  omega
          | poss =>
            simp only [steps, mostSt, Re.most]
            rw [hB]
            split
            · omega
            · split
              · omega
              · have h2 := possSteps_le (body := fun p c' => eval C n s lb p f.notEmpty c' (items m [.endCycle])) hb b n 0 cur c
                have h3 := Nat.mul_le_mul_right B (rm b 0)
                cases possLoop (fun p c' => eval C n s lb p f.notEmpty c' (items m [.endCycle])) a b n 0 cur c with
                | stop o => simp only at *; omega
                | go p c' =>
                  have h1 := rest lb p (f.consumed (decide (cur ≠ p))) c' t
                  simp only at *
                  omega
          | greedy =>
            have hp := rest lb cur f c (.re (.rep .poss a b m) :: t)
            simp only [mostSt, Re.most] at hp
            rw [hB] at hp
            simp only [steps, mostSt, Re.most]
            rw [hB]
            generalize (if C.greedyOpt then loopCollides m t else some true) = g
            split
            · cases g with
              | none => simp only; omega
              | some x => cases x <;> simp only <;> omega
            · split
              · cases g with
                | none => simp only; omega
                | some x => cases x <;> simp only <;> omega
              · cases g with
                | none => simp only; omega
                | some x =>
                  cases x with
                  | false => simp only; omega
                  | true =>
                    simp only
                    cases mandLoop (fun p c' => eval C n s lb p f.notEmpty c' (items m [.endCycle])) a cur c with
                    | stop o => simp only; omega
                    | go p c' =>
                      have h2 := greedySteps_le (body := fun p c' => eval C n s lb p f.notEmpty c' (items m [.endCycle]))
                        (tail := fun p c' => eval C n s lb p (f.consumed true) c' t) hb hT b n a p c'
                      have h3 := Nat.mul_le_mul_right (1 + B + mostSt C N t) (Nat.add_le_add_right (rm b a) 1)
                      simp only at *
                      omega
        | cap id name m =>
          simp only [steps, mostSt, Re.most]
          split
          · omega
          · split
            · omega
            · rename_i c' _
              have := rest lb cur f c' (.re (.seq m) :: .numMark id :: t)
              simp only [mostSt, Re.most] at this
              omega
        | bref id =>
          have h1 := brefSteps_le s cur (c.get id)
          simp only [steps, mostSt, Re.most]
          split
          · omega
          · split
            · rename_i p ne _
              have := rest lb p (f.consumed ne) c t
              omega
            · omega
        | brefName id =>
          have h1 := brefSteps_le s cur (c.getName id)
          simp only [steps, mostSt, Re.most]
          split
          · omega
          · split
            · rename_i p ne _
              have := rest lb p (f.consumed ne) c t
              omega
            · omega
        | ahead pos m =>
          have h1 := rest lb cur f c [.re (.seq m), .endAhead]
          have h2 := rest lb cur f c t
          simp only [mostSt, Re.most] at h1
          simp only [steps, mostSt, Re.most]
          split
          · rename_i c' _
            have h3 := rest lb cur f c'.unmatch t
            split <;> omega
          · split <;> omega
          · omega
        | behind pos m =>
          have h1 := ih' s.reverse (by simpa using hs) true (s.length - cur) f c [.re (.seq m), .endBehind]
          have h2 := rest lb cur f c t
          simp only [mostSt, Re.most] at h1
          simp only [steps, mostSt, Re.most]
          split
          · rename_i c' _
            have h3 := rest lb cur f c'.unmatch t
            split <;> omega
          · split <;> omega
          · omega
        | atomic m =>
          have := rest lb cur f c (.re (.rep .poss 1 1 m) :: t)
          simp only [mostSt, Re.most] at this
          simp only [steps, mostSt, Re.most]
          simp at this
          omega
        | mode md =>
          have := rest lb cur (f.add md) c t
          simp only [steps, mostSt, Re.most]; omega
        | reject => simp [steps, mostSt, Re.most]
        | boundary _ | notBoundary _ | sBegin | sEnd | sEndLine | lBegin | lEnd =>
          have := rest lb cur f c t
          simp only [steps, mostSt, Re.most]
          split <;> omega

end Ctre

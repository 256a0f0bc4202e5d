import Verif.Lemmas.Modes

/-
C37: flags and inline modes.
-/
namespace Ctre
open Parse Surface

/-- C37: of several flags given with a pattern, matching is case-insensitive exactly if the last of the flags
`case_insensitive` and `case_sensitive` is `case_insensitive`. -/
theorem C37_flags_case (l : List Mode) : (Flags.ofList l).ci = true ↔ LastIs .caseInsensitive [.caseSensitive] l := by
  rw [Flags.ofList, fold_last (g := Flags.ci) (x := .caseInsensitive) (y := .caseSensitive) (by simp) ci_add]
  simp

/-- C37: matching is multiline exactly if the last of the flags `multiline` and `singleline` is `multiline`; flags
leave the internal demand for a nonempty match alone. -/
theorem C37_flags_line (l : List Mode) : ((Flags.ofList l).ml = true ↔ LastIs .multiline [.singleline] l) ∧
    (Flags.ofList l).blk = false := by
  refine ⟨?_, ?_⟩
  · rw [Flags.ofList, fold_last (g := Flags.ml) (x := .multiline) (y := .singleline) (by simp) add_ml]
    simp
  · have : ∀ (l : List Mode) (f : Flags), (l.foldl Flags.add f).blk = f.blk := by
      intro l
      induction l with
      | nil => intro f; rfl
      | cons m l ih => intro f; rw [List.foldl_cons, ih]; cases m <;> rfl
    exact this l {}

-- `multiline, case_insensitive, case_sensitive, case_insensitive, singleline`
example : LastIs .caseInsensitive [.caseSensitive] [.multiline, .caseInsensitive, .caseSensitive, .caseInsensitive, .singleline] ∧
    ¬ LastIs .multiline [.singleline] [.multiline, .caseInsensitive, .caseSensitive, .caseInsensitive, .singleline] := by
  rw [← C37_flags_case, ← (C37_flags_line _).1]
  decide

/-- C37: a mode at the beginning of a pattern (of its only alternative) has the effect of the flag: `match`,
`starts_with` and, unless the rest is treated as anchored, `search` return the same result, captures included, as for
the rest of the pattern with the flag added. -/
theorem C37_prefix (P : PropTable) (C : Cfg) (m : Mode) {l : Cat} (h : l.WF P.find 0) :
    ∃ r r', build P (modeText m ++ l.print) = .pattern r ∧ build P l.print = .pattern r' ∧
      ∀ (s : List Ch) (f : Flags) (e : Exec),
        (Returns (fun n => cMatch C n s f r) e ↔ Returns (fun n => cMatch C n s (f.add m) r') e) ∧
        (Returns (fun n => cStartsWith C n s f r) e ↔ Returns (fun n => cStartsWith C n s (f.add m) r') e) ∧
        (startsWithAnchor (f.add m) r' = false →
          (Returns (fun n => cSearch C n s f r) e ↔ Returns (fun n => cSearch C n s (f.add m) r') e)) := by
  have b1 := build_print (P := P) (b := .alt (.one (.cons (.mode m) .none l)))
    (by simpa [Body.WF, Alt.WF, Cat.WF, Atom.WF, Quant.WF, Atom.groups] using h)
  have b2 := build_print (P := P) (b := .alt (.one l)) (by simpa [Body.WF, Alt.WF] using h)
  refine ⟨makeSequence (catTree l) (.mode m), catTree l, ?_, ?_, fun s f e => ?_⟩
  · simpa [Body.print, Alt.print, Cat.print, Atom.print, Quant.print, modeText, bodyTree, altTree, catTree, quantTree, atomTree] using b1
  · simpa [Body.print, Alt.print, bodyTree, altTree] using b2
  have hb := cat_ne l
  have hc := captures_moded (m := m) hb
  have start : ∀ it o t (f : Flags) (c : Caps) (r : Re), Runs C s false it f c (.startMark :: .re r :: t) o ↔
      Runs C s false it f (c.setStart it) (.re r :: t) o :=
    fun it o t f c r => runs_of_step (fun n => by rw [eval_startMark]; simp)
  have H : SameAttempts C C s s f (f.add m) (makeSequence (catTree l) (.mode m)) (catTree l) :=
    ⟨hc, fun it o _ hr => by rw [start, runs_moded hb] at hr; rw [start, ← hc]; exact hr,
      fun it o _ hr => by rw [start, runs_moded hb] at hr; rw [start, ← hc]; exact hr⟩
  have H' : SameAttempts C C s s (f.add m) f (catTree l) (makeSequence (catTree l) (.mode m)) :=
    ⟨hc.symm, fun it o _ hr => by rw [start] at hr; rw [start, runs_moded hb, hc]; exact hr,
      fun it o _ hr => by rw [start] at hr; rw [start, runs_moded hb, hc]; exact hr⟩
  refine ⟨⟨H.matchAt (Nat.zero_le _), H'.matchAt (Nat.zero_le _)⟩, ⟨H.startsWithAt (Nat.zero_le _), H'.startsWithAt (Nat.zero_le _)⟩,
    fun ha => ?_⟩
  have ha' : startsWithAnchor f (makeSequence (catTree l) (.mode m)) = false := by
    unfold startsWithAnchor
    rw [← anchor_flat, mode_flat hb, anchor_flat]
    simp [anchorRe, anchorSeq]
  exact ⟨H.searchAt rfl (ha'.trans ha.symm) (Nat.zero_le _), H'.searchAt rfl (ha.trans ha'.symm) (Nat.zero_le _)⟩

-- `(?i)a*(b)` and `a*(b)` with the flag
example : let l : Cat := .cons (.ch (.plain 97)) (.star .greedy) (.one (.cap 1 (.alt (.one (.one (.ch (.plain 98)) .none)))) .none)
    l.WF (PropTable.find {}) 0 ∧ modeText .caseInsensitive ++ l.print = [40, 63, 105, 41, 97, 42, 40, 98, 41] ∧
    startsWithAnchor (Flags.add {} .caseInsensitive) (catTree l) = false := by
  refine ⟨?_, rfl, rfl⟩
  simp [Cat.WF, Atom.WF, Char1.WF, Quant.WF, Body.WF, Alt.WF, special, Atom.groups]

/-- C37 for `match`: in a text with a mode in the middle the mode applies to what is to its right and to nothing else. -/
theorem C37_text (P : PropTable) (m : Mode) {p q : List Nat} (hp0 : p ≠ []) (hq0 : q ≠ []) (hp : ∀ v ∈ p, v ∉ special)
    (hq : ∀ v ∈ q, v ∉ special) (hp' : ∀ v ∈ p, v < 2147483648) (hq' : ∀ v ∈ q, v < 2147483648) :
    ∃ r, build P (p ++ modeText m ++ q) = .pattern r ∧ ∀ (C : Cfg) (s : List Ch) (f : Flags), (∀ v ∈ s, IsCh v) →
      ∃ x, Returns (fun n => cMatch C n s f r) (.done x) ∧ (x.whole.matched = true ↔ ∃ t u, s = t ++ u ∧ IsText f.ci p t ∧
        IsText (if m = .caseInsensitive then true else if m = .caseSensitive then false else f.ci) q u) := by
  obtain ⟨v, vs, rfl⟩ := List.exists_cons_of_ne_nil hp0
  obtain ⟨w, ws, rfl⟩ := List.exists_cons_of_ne_nil hq0
  have b := build_print (P := P) (b := .alt (.one ((litCat v vs).inline m (litCat w ws)))) (by
    simp only [Body.WF, Alt.WF]
    exact inline_wf (litCat_wf _ v vs (hp v (by simp)) fun w hw => hp w (List.mem_cons_of_mem _ hw))
      (litCat_wf _ w ws (hq w (by simp)) fun w hw => hq w (List.mem_cons_of_mem _ hw)))
  simp only [Body.print, Alt.print, inline_print, litCat_print, bodyTree, altTree, litInline_tree] at b
  refine ⟨_, b, fun C s f hs => ?_⟩
  generalize hP : v :: vs = p at *
  generalize hQ : w :: ws = q at *
  have len : ∀ {ci : Bool} {p : List Nat} {t : List Ch}, IsText ci p t → t.length = p.length := by
    intro ci p t h
    unfold IsText at h
    split at h
    · have := congrArg List.length (show List.map lowerCase _ = List.map lowerCase _ from h)
      simpa using this
    · have := congrArg List.length h
      simpa using this
  have hi : initCaps (.seq [litTree p, .mode m, litTree q]) = {} := by
    have h1 := litTree_captures p
    have h2 := litTree_captures q
    simp only [initCaps] at h1 h2
    have h3 : (litTree p).captures = [] := congrArg Caps.groups h1
    have h4 : (litTree q).captures = [] := congrArg Caps.groups h2
    simp [initCaps, Re.captures, capturesList, h3, h4]
  have hno : ∀ (h : ∀ t u, s = t ++ u → IsText f.ci p t →
      IsText (if m = .caseInsensitive then true else if m = .caseSensitive then false else f.ci) q u → False),
      attemptFull C 10 s f (.seq [litTree p, .mode m, litTree q]) 0 = .fail →
      ∃ x, Returns (fun n => cMatch C n s f (.seq [litTree p, .mode m, litTree q])) (.done x) ∧ (x.whole.matched = true ↔ ∃ t u, s = t ++ u ∧
        IsText f.ci p t ∧ IsText (if m = .caseInsensitive then true else if m = .caseSensitive then false else f.ci) q u) := by
    intro h h'
    refine ⟨{}, ⟨by simp, 10, by simp only [cMatch, matchAt, h', Out.toExec, hi]⟩, ?_⟩
    constructor
    · intro h; simp at h
    · rintro ⟨t, u, h1, h2, h3⟩; exact (h t u h1 h2 h3).elim
  have hev : attemptFull C 10 s f (.seq [litTree p, .mode m, litTree q]) 0 =
      eval C 8 s false 0 f (({} : Caps).setStart 0) (.re (litTree p) :: .re (.seq [.mode m, litTree q]) :: [.re .sEnd, .endMark, .accept]) := by
    unfold attemptFull
    rw [hi, eval_startMark, eval_seq_cons]
    rfl
  rcases eval_lit (C := C) (n := 7) hs hp' (cur := 0) (by omega) (f := f) (c := ({} : Caps).setStart 0)
      (t := .re (.seq [.mode m, litTree q]) :: [.re .sEnd, .endMark, .accept]) with ⟨h1, f', hf', h2⟩ | ⟨h1, h2⟩
  case inr =>
    refine hno (fun t u hs' ht _ => h1 ?_) (by rw [hev, h2])
    subst hs'
    simp only [OccursAt, List.drop_zero]
    rw [List.take_append_of_le_length (by rw [len ht]; exact Nat.le_refl _), List.take_of_length_le (by rw [len ht]; exact Nat.le_refl _)]
    exact ht
  have hle := occursAt_length h1 (Nat.zero_le _)
  rw [Nat.zero_add] at hle
  have h1' : IsText f.ci p (s.take p.length) := by simpa [OccursAt] using h1
  have hciq : (f'.add m).ci = if m = .caseInsensitive then true else if m = .caseSensitive then false else f.ci := by
    rw [ci_add, hf']
  rw [eval_seq_cons, eval_mode, eval_seq_one, Nat.zero_add] at h2
  rcases eval_lit (C := C) (n := 3) hs hq' (cur := p.length) hle (f := f'.add m) (c := ({} : Caps).setStart 0)
      (t := [.re .sEnd, .endMark, .accept]) with ⟨h3, f'', _, h4⟩ | ⟨h3, h4⟩
  case inr =>
    refine hno (fun t u hs' ht hu => h3 ?_) (by rw [hev, h2, h4])
    rw [hciq]
    subst hs'
    simp only [OccursAt]
    rw [← len ht, List.drop_left, List.take_of_length_le (by rw [len hu]; exact Nat.le_refl _)]
    exact hu
  have hle' := occursAt_length h3 hle
  rw [eval_test (r := .sEnd) (h := rfl)] at h4
  simp only [testAt] at h4
  by_cases h5 : p.length + q.length = s.length
  · rw [if_pos h5.symm, eval_endMark, eval_accept] at h4
    refine ⟨_, ⟨by simp, 10, by simp only [cMatch, matchAt]; rw [hev, h2, h4]; rfl⟩, ?_⟩
    constructor
    · intro _
      refine ⟨s.take p.length, s.drop p.length, (List.take_append_drop _ _).symm, h1', ?_⟩
      rw [← hciq]
      have : (s.drop p.length).take q.length = s.drop p.length := List.take_of_length_le (by simp; omega)
      unfold OccursAt at h3
      rw [this] at h3
      exact h3
    · intro _; rfl
  · rw [if_neg (fun h => h5 h.symm)] at h4
    refine hno (fun t u hs' ht hu => h5 ?_) (by rw [hev, h2, h4])
    rw [hs', List.length_append, len ht, len hu]

-- `ab(?i)cd` on "abCd" and "Abcd"
example : (∃ t u, ([97, 98, 67, 100] : List Ch) = t ++ u ∧ IsText false [97, 98] t ∧ IsText true [99, 100] u) ∧
    ¬ (∃ t u, ([65, 98, 99, 100] : List Ch) = t ++ u ∧ IsText false [97, 98] t ∧ IsText true [99, 100] u) := by
  refine ⟨⟨[97, 98], [67, 100], rfl, by simp [IsText], by simp [IsText, SameLetters]; decide⟩, ?_⟩
  rintro ⟨t, u, h, h1, _⟩
  simp only [IsText, Bool.false_eq_true, if_false] at h1
  subst h1
  simp at h

/-- C37: in `pre(?m)post` the part `pre` is matched as if the mode were not there, and `post` from the state that `pre`
leaves, with the mode set. -/
theorem C37_inline (P : PropTable) (m : Mode) {pre post : Cat} (h1 : pre.WF P.find 0) (h2 : post.WF P.find pre.groups)
    (hf : (Body.alt (.one (pre.inline m post))).Faithful) (hn : (Body.alt (.one (pre.inline m post))).size < 2 ^ 64) :
    ∃ r, build P (pre.print ++ modeText m ++ post.print) = .pattern r ∧ ∀ (E : Env) (s : List Ch) (σ τ : MState), σ.pos ≤ s.length →
      (r.Match E s σ τ ↔ ∃ ρ, pre.Match E s σ ρ ∧ post.Match E s (ρ.setMode m) τ) := by
  have b := build_print (P := P) (b := .alt (.one (pre.inline m post))) (by
    simp only [Body.WF, Alt.WF]
    exact inline_wf h1 (by simpa using h2))
  rw [show (Body.alt (.one (pre.inline m post))).print = pre.print ++ modeText m ++ post.print by
    simp only [Body.print, Alt.print, inline_print]] at b
  refine ⟨_, b, fun E s σ τ hp => ?_⟩
  rw [body_sem _ hf (by simp only [szMod]; omega) hp]
  simp only [Body.Match, Alt.Match, inline_match]

/-- C37: the alternatives after the one that contains the mode are not affected by it. -/
theorem C37_alternative (P : PropTable) (m : Mode) {pre post : Cat} {rest : Alt} (h1 : pre.WF P.find 0)
    (h2 : post.WF P.find pre.groups) (h3 : rest.WF P.find (pre.inline m post).groups)
    (hf : (Body.alt (.bar (pre.inline m post) rest)).Faithful) (hn : (Body.alt (.bar (pre.inline m post) rest)).size < 2 ^ 64) :
    ∃ r, build P (pre.print ++ modeText m ++ post.print ++ [124] ++ rest.print) = .pattern r ∧
      ∀ (E : Env) (s : List Ch) (σ τ : MState), σ.pos ≤ s.length →
        (r.Match E s σ τ ↔ (∃ ρ, pre.Match E s σ ρ ∧ post.Match E s (ρ.setMode m) τ) ∨ rest.Match E s σ τ) := by
  have b := build_print (P := P) (b := .alt (.bar (pre.inline m post) rest)) (by
    simp only [Body.WF, Alt.WF]
    exact ⟨inline_wf h1 (by simpa using h2), by simpa using h3⟩)
  rw [show (Body.alt (.bar (pre.inline m post) rest)).print = pre.print ++ modeText m ++ post.print ++ [124] ++ rest.print by
    simp only [Body.print, Alt.print, inline_print]] at b
  refine ⟨_, b, fun E s σ τ hp => ?_⟩
  rw [body_sem _ hf (by simp only [szMod]; omega) hp]
  simp only [Body.Match, Alt.Match, inline_match]

-- `a(?i)b|c`
example : let pre : Cat := .one (.ch (.plain 97)) .none
    let post : Cat := .one (.ch (.plain 98)) .none
    let rest : Alt := .one (.one (.ch (.plain 99)) .none)
    pre.WF (PropTable.find {}) 0 ∧ post.WF (PropTable.find {}) pre.groups ∧
    rest.WF (PropTable.find {}) (pre.inline .caseInsensitive post).groups ∧
    (Body.alt (.bar (pre.inline .caseInsensitive post) rest)).Faithful ∧
    (Body.alt (.bar (pre.inline .caseInsensitive post) rest)).size < 2 ^ 64 := by
  simp [Cat.WF, Alt.WF, Atom.WF, Char1.WF, Quant.WF, special, Body.Faithful, Alt.Faithful, Cat.Faithful, Atom.Faithful, Char1.Faithful,
    Quant.Faithful, Cat.inline, Cat.andThen, Body.size, Alt.size, Cat.size, Atom.size, Quant.size, possessiveItem,
    Cat.leadsPossessive, Atom.leadsPossessive]

/-- C37: the mode survives the end of a group, `(?:(?i)a)b` matches "AB"; an iteration of a repetition restores it,
`(?:(?i)a)*b` matches "AAb" and not "AAB" (without the optimisation of greedy repetitions, with which it does not
compile). -/
theorem C37_groups :
    (∃ r, build {} [40, 63, 58, 40, 63, 105, 41, 97, 41, 98] = .pattern r ∧
      cMatch {} 40 [65, 66] {} r = .done { whole := ⟨some 0, some 2, true⟩ }) ∧
    (∃ r, build {} [40, 63, 58, 40, 63, 105, 41, 97, 41, 42, 98] = .pattern r ∧
      cMatch { greedyOpt := false } 40 [65, 65, 98] {} r = .done { whole := ⟨some 0, some 3, true⟩ } ∧
      cMatch { greedyOpt := false } 40 [65, 65, 66] {} r = .done {} ∧ cMatch {} 40 [65, 65, 98] {} r = .ill) := by
  refine ⟨⟨_, rfl, by decide +kernel⟩, ⟨_, rfl, ?_, ?_, ?_⟩⟩
  · decide +kernel
  · decide +kernel
  · decide +kernel

/-- C37 fails for several letters: `(?im)a` does not match "A", although the mode `i` is given; `x(?im)a` does not match
"xa" but "a". -/
theorem C37_fails_letters :
    (∃ r, build {} [40, 63, 105, 109, 41, 97] = .pattern r ∧ cMatch {} 40 [65] {} r = .done {}) ∧
    (∃ r, build {} [120, 40, 63, 105, 109, 41, 97] = .pattern r ∧ cMatch {} 40 [120, 97] {} r = .done {} ∧
      cMatch {} 40 [97] {} r = .done { whole := ⟨some 0, some 1, true⟩ }) := by
  refine ⟨⟨_, rfl, ?_⟩, ⟨_, rfl, ?_, ?_⟩⟩
  · decide +kernel
  · decide +kernel
  · decide +kernel

end Ctre

import Verif.Spec.Semantics
import Verif.Spec.Rigid
import Verif.Spec.Terminates

/-
Ordered meaning of patterns: all the ways in which a pattern matches from a state, the preferred way first.

This is the usual description of backtracking matchers: alternatives are tried from left to right, a greedy
repetition prefers another iteration, a lazy one prefers to stop, a possessive repetition, an atomic group and a
lookaround keep only their first way.  The file does not mention the evaluation machine.

The parameter `once` selects the rule for iterations of a repetition.  With `once = false` all the ways of the content
are ways of an iteration; this is the rule of Perl for content that cannot match the empty text.  With `once = true`
only the first non-empty way of the content is a way of an iteration; this is the rule of the library.
-/
namespace Ctre

instance inClass.dec (U : Uni) (ci : Bool) (s : List Ch) (i : Nat) (c : CC) : Decidable (inClass U ci s i c) :=
  match h : s[i]? with
  | none => isFalse (by rintro ⟨v, hv, _⟩; rw [h] at hv; cases hv)
  | some v =>
    if hc : c.matchChar U ci v = true then isTrue ⟨v, h, hc⟩
    else isFalse (by rintro ⟨w, hw, hc'⟩; rw [h] at hw; cases hw; exact hc hc')

instance newlineAt.dec (s : List Ch) (i : Nat) : Decidable (newlineAt s i) :=
  inferInstanceAs (Decidable (s[i]? = some 10))

instance atBoundary.dec (U : Uni) (ci : Bool) (s : List Ch) (p : Nat) (c : CC) : Decidable (atBoundary U ci s p c) :=
  inferInstanceAs (Decidable (¬ ((0 < p ∧ inClass U ci s (p - 1) c) ↔ inClass U ci s p c)))

instance Holds.dec (U : Uni) (s : List Ch) (σ : MState) (r : Re) : Decidable (Holds U s σ r) := by
  cases r <;> simp only [Holds] <;> infer_instance

section loops
variable {α : Type}

/-- Exactly `n` iterations. -/
def times (it : α → List α) : Nat → α → List α
  | 0, x => [x]
  | n + 1, x => (it x).flatMap (times it n)

/-- At most `n` iterations, preferably many. -/
def most (it : α → List α) : Nat → α → List α
  | 0, x => [x]
  | n + 1, x => (it x).flatMap (most it n) ++ [x]

/-- At most `n` iterations, preferably few. -/
def fewest (it : α → List α) : Nat → α → List α
  | 0, x => [x]
  | n + 1, x => x :: (it x).flatMap (fewest it n)

/-- The ways of a repetition `{a,b}` (`b = 0`: no upper bound) of an iteration.  `room` iterations are as good as no
bound. -/
def repeats (it : α → List α) (k : RepKind) (a b room : Nat) (x : α) : List α :=
  let more := if b = 0 then room else b - a
  if b ≠ 0 ∧ b < a then []
  else match k with
    | .lazy => (times it a x).flatMap (fewest it more)
    | .greedy => (times it a x).flatMap (most it more)
    | .poss => ((times it a x).flatMap (most it more)).take 1
end loops

/-- One iteration of a repetition of the content; modes set inside do not survive. -/
def iteration (once : Bool) (content : MState → List MState) (σ : MState) : List MState :=
  (if once then ((content σ).filter fun ρ => decide (ρ.pos ≠ σ.pos)).take 1 else content σ).map fun ρ =>
    { ρ with multiline := σ.multiline, caseless := σ.caseless }

/-- The text of group `id` once more. -/
def waysAgain (s : List Ch) (σ : MState) (id : Nat) : List MState :=
  match σ.cap id with
  | none => []
  | some (b, e) =>
    if b ≤ e ∧ σ.pos + (e - b) ≤ s.length ∧ text s b e = text s σ.pos (σ.pos + (e - b))
    then [{ σ with pos := σ.pos + (e - b) }] else []

mutual
/-- The ways in which `r` matches from `σ`, in the order of preference. -/
def Re.ways (once : Bool) (E : Env) : Re → List Ch → MState → List MState
  | .cc c, s, σ => if inClass E.uni σ.caseless s σ.pos c then [{ σ with pos := σ.pos + 1 }] else []
  | .any, s, σ => if σ.pos < s.length ∧ ¬ (σ.multiline = true ∧ newlineAt s σ.pos) then [{ σ with pos := σ.pos + 1 }] else []
  | .str cs, s, σ =>
    if ∀ (i : Nat) (h : i < cs.length), inClass E.uni σ.caseless s (σ.pos + i) (.chr cs[i])
    then [{ σ with pos := σ.pos + cs.length }] else []
  | .sel l, s, σ => waysAny once E l s σ
  | .seq l, s, σ => waysAll once E l s σ
  | .empty, _, σ => [σ]
  | .rep k a b l, s, σ => repeats (iteration once fun σ => waysAll once E l s σ) k a b s.length σ
  | .cap id _ l, s, σ => (waysAll once E l s σ).map fun ρ => ρ.setCap id σ.pos ρ.pos
  | .bref id, s, σ => waysAgain s σ id
  | .brefName n, s, σ => match E.number n with
    | none => []
    | some id => waysAgain s σ id
  | .ahead pos l, s, σ => match waysAll once E l s σ with
    | [] => if pos then [] else [σ]
    | ρ :: _ => if pos then [{ σ with cap := ρ.cap }] else []
  | .behind pos l, s, σ => match waysAll once E l s.reverse { σ with pos := s.length - σ.pos } with
    | [] => if pos then [] else [σ]
    | ρ :: _ => if pos then [{ σ with cap := ρ.cap }] else []
  | .atomic l, s, σ => (iteration once (fun σ => waysAll once E l s σ) σ).take 1
  | .mode m, _, σ => [σ.setMode m]
  | .reject _, _, _ => []
  | .boundary c, s, σ => if Holds E.uni s σ (.boundary c) then [σ] else []
  | .notBoundary c, s, σ => if Holds E.uni s σ (.notBoundary c) then [σ] else []
  | .sBegin, s, σ => if Holds E.uni s σ .sBegin then [σ] else []
  | .sEnd, s, σ => if Holds E.uni s σ .sEnd then [σ] else []
  | .sEndLine, s, σ => if Holds E.uni s σ .sEndLine then [σ] else []
  | .lBegin, s, σ => if Holds E.uni s σ .lBegin then [σ] else []
  | .lEnd, s, σ => if Holds E.uni s σ .lEnd then [σ] else []

/-- Concatenation. -/
def waysAll (once : Bool) (E : Env) : List Re → List Ch → MState → List MState
  | [], _, σ => [σ]
  | r :: l, s, σ => (r.ways once E s σ).flatMap fun ρ => waysAll once E l s ρ

/-- Alternation. -/
def waysAny (once : Bool) (E : Env) : List Re → List Ch → MState → List MState
  | [], _, _ => []
  | r :: l, s, σ => r.ways once E s σ ++ waysAny once E l s σ
end

mutual
/-- The content of every repetition and atomic group makes the machine notice whether it has consumed something (see
`Re.moves`, `Re.honest`), and no concatenation is empty. -/
def Re.attentive : Re → Bool
  | .sel l => attentiveAll l
  | .seq l | .cap _ _ l | .ahead _ l | .behind _ l => !l.isEmpty && attentiveAll l
  | .rep _ _ _ l | .atomic l => (movesAny l || honestAll l) && attentiveAll l
  | _ => true

def attentiveAll : List Re → Bool
  | [] => true
  | r :: l => r.attentive && attentiveAll l
end

mutual
/-- The pattern matches in at most one way: a repetition is possessive or has a fixed count, alternatives begin with
different characters. -/
def Re.single : Re → Bool
  | .sel l => singleAny l
  | .seq l | .cap _ _ l => singleAll l
  | .rep k a b l => k == .poss || (a != 0 && a == b && singleAll l)
  | _ => true

def singleAll : List Re → Bool
  | [] => true
  | r :: l => r.single && singleAll l

/-- Each alternative begins with characters no later alternative begins with. -/
def singleAny : List Re → Bool
  | [] => true
  | [r] => r.single
  | r :: l => r.single && singleAny l && (match r.heads, headsAny l with
    | some H, some K => apart H K
    | _, _ => false)
end

mutual
/-- The content of every repetition consumes something and matches in at most one way (except in a possessive
repetition with minimum at most 1), the content of every atomic group consumes something. -/
def Re.firm : Re → Bool
  | .sel l | .seq l | .cap _ _ l | .ahead _ l | .behind _ l => firmAll l
  | .rep k a _ l => consumesSome l && (singleAll l || (k == .poss && decide (a ≤ 1))) && firmAll l
  | .atomic l => consumesSome l && firmAll l
  | _ => true

def firmAll : List Re → Bool
  | [] => true
  | r :: l => r.firm && firmAll l
end

mutual
/-- Nothing in the pattern discards ways that could be needed later: no atomic group, no possessive repetition, no
group inside a positive lookaround.  The content of every repetition consumes something. -/
def Re.loose : Re → Bool
  | .sel l | .seq l | .cap _ _ l => looseAll l
  | .rep k _ _ l => k != .poss && consumesSome l && looseAll l
  | .ahead pos l | .behind pos l => (!pos || noGroupsList l) && looseAll l
  | .atomic _ => false
  | _ => true

def looseAll : List Re → Bool
  | [] => true
  | r :: l => r.loose && looseAll l
end

end Ctre

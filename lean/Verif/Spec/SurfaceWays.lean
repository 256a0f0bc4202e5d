import Verif.Spec.Surface
import Verif.Spec.Ways

/-
The ordered meaning of the concrete syntax: all the ways in which a syntax tree matches from a state, the preferred way
first.  The parameter `once` selects the rule for iterations as in Verif/Spec/Ways.lean: with `once = true` an iteration of a
repetition and an atomic group take the first way of their content that is not empty (the rule of the library), with
`once = false` all the ways of the content are ways of an iteration (the usual rule).

This file does not mention the parser, the trees it builds, or the evaluation machine.
-/
namespace Ctre.Surface

deriving instance DecidableEq for Quant

instance Cls.has.dec (U : Uni) (ci : Bool) (v : Ch) (c : Cls) : Decidable (c.has U ci v) := by
  cases c <;> simp only [Cls.has] <;> infer_instance

instance SetItem.has.dec (U : Uni) (ci : Bool) (v : Ch) (i : SetItem) : Decidable (i.has U ci v) := by
  cases i <;> simp only [SetItem.has] <;> infer_instance

/-- The demanded number of iterations. -/
def Quant.low : Quant → Nat
  | .none => 1
  | .opt _ => 0
  | .star _ => 0
  | .plus _ => 1
  | .exactly ds => decimal ds
  | .atLeast ds _ => decimal ds
  | .between ds _ _ => decimal ds

/-- The number of further iterations allowed; `room` of them are as good as no bound. -/
def Quant.extra (room : Nat) : Quant → Nat
  | .none => 0
  | .opt _ => 1
  | .star _ => room
  | .plus _ => room
  | .exactly _ => 0
  | .atLeast _ _ => room
  | .between ds es _ => decimal es - decimal ds

/-- The ways of a repetition: the demanded iterations, then a greedy one prefers many, a lazy one few, and a possessive one
keeps only the preferred way. -/
def Quant.ways (q : Quant) (it : MState → List MState) (room : Nat) (σ : MState) : List MState :=
  match q.kind with
  | .lazy => (times it q.low σ).flatMap (fewest it (q.extra room))
  | .greedy => (times it q.low σ).flatMap (most it (q.extra room))
  | .poss => ((times it q.low σ).flatMap (most it (q.extra room))).take 1

/-- The next character satisfies `p`. -/
def stepIf (p : Ch → Bool) (s : List Ch) (σ : MState) : List MState :=
  match s[σ.pos]? with
  | some v => if p v then [{ σ with pos := σ.pos + 1 }] else []
  | none => []

/-- Nothing is consumed, but the condition has to hold. -/
def stayIf (p : Bool) (σ : MState) : List MState := if p then [σ] else []

mutual
/-- The ways of an atom, in the order of preference. -/
def Atom.ways (once : Bool) (E : Env) : Atom → List Ch → MState → List MState
  | .ch c, s, σ => stepIf (fun v => (CC.chr c.code).matchChar E.uni σ.caseless v) s σ
  | .cls c, s, σ => stepIf (fun v => decide (c.has E.uni σ.caseless v)) s σ
  | .unknown _ _, _, _ => []
  | .set neg l, s, σ => stepIf (fun v => decide (∃ i ∈ l, i.has E.uni σ.caseless v) != neg) s σ
  | .dot, s, σ => stepIf (fun v => !(σ.multiline && decide (v = 10))) s σ
  | .bol, s, σ => stayIf (decide (σ.pos = 0) || (σ.multiline && decide (newlineAt s (σ.pos - 1)))) σ
  | .eol, s, σ => stayIf (decide (σ.pos = s.length) || (σ.multiline && decide (newlineAt s σ.pos))) σ
  | .subjectBegin, _, σ => stayIf (decide (σ.pos = 0)) σ
  | .subjectEnd, s, σ => stayIf (decide (σ.pos = s.length)) σ
  | .subjectEndLine, s, σ => stayIf (decide (σ.pos = s.length) ||
      (σ.multiline && decide (newlineAt s σ.pos) && decide (σ.pos + 1 = s.length))) σ
  | .wordBoundary, s, σ => stayIf (decide (atBoundary E.uni σ.caseless s σ.pos wordChars)) σ
  | .notWordBoundary, s, σ => stayIf (!decide (atBoundary E.uni σ.caseless s σ.pos wordChars)) σ
  | .ref d, s, σ => waysAgain s σ (d - 48)
  | .refNumber ds, s, σ => waysAgain s σ (decimal ds)
  | .refRelative _ id, s, σ => waysAgain s σ id
  | .refName n, s, σ => match E.number n with
    | none => []
    | some id => waysAgain s σ id
  | .cap id b, s, σ => (b.ways once E s σ).map fun ρ => ρ.setCap id σ.pos ρ.pos
  | .named id _ b, s, σ => (b.ways once E s σ).map fun ρ => ρ.setCap id σ.pos ρ.pos
  | .group b, s, σ => b.ways once E s σ
  | .ahead pos b, s, σ => match b.ways once E s σ with
    | [] => if pos then [] else [σ]
    | ρ :: _ => if pos then [{ σ with cap := ρ.cap }] else []
  | .behind pos b, s, σ =>
    stayIf (((List.range (σ.pos + 1)).any fun p => (b.ways once E s { σ with pos := p }).any fun ρ => ρ.pos == σ.pos) == pos) σ
  | .atomic b, s, σ => (iteration once (fun σ => b.ways once E s σ) σ).take 1
  | .mode m, _, σ => [σ.setMode m]

/-- Quantified atoms one after the other. -/
def Cat.ways (once : Bool) (E : Env) : Cat → List Ch → MState → List MState
  | .one a .none, s, σ => a.ways once E s σ
  | .one a q, s, σ => q.ways (iteration once fun σ => a.ways once E s σ) s.length σ
  | .cons a .none l, s, σ => (a.ways once E s σ).flatMap fun ρ => l.ways once E s ρ
  | .cons a q l, s, σ => (q.ways (iteration once fun σ => a.ways once E s σ) s.length σ).flatMap fun ρ => l.ways once E s ρ

/-- Alternatives, from left to right. -/
def Alt.ways (once : Bool) (E : Env) : Alt → List Ch → MState → List MState
  | .empty, _, σ => [σ]
  | .one c, s, σ => c.ways once E s σ
  | .bar c l, s, σ => c.ways once E s σ ++ l.ways once E s σ

def Body.ways (once : Bool) (E : Env) : Body → List Ch → MState → List MState
  | .alt l, s, σ => l.ways once E s σ
  | .lead l, s, σ => σ :: l.ways once E s σ
end

/-! ### Conditions -/

/-- The count is fixed. -/
def Quant.fixed : Quant → Bool
  | .none | .exactly _ => true
  | .between ds es _ => decide (decimal ds = decimal es)
  | _ => false

mutual
/-- Whatever is matched is not empty, whichever rule is used for iterations. -/
def Atom.consumes : Atom → Bool
  | .ch _ | .cls _ | .set _ _ | .dot | .unknown _ _ => true
  | .cap _ b => b.consumes
  | .named _ _ b => b.consumes
  | .group b => b.consumes
  | .atomic b => b.consumes
  | _ => false

def Cat.consumes : Cat → Bool
  | .one a q => decide (1 ≤ q.low) && a.consumes
  | .cons a q l => (decide (1 ≤ q.low) && a.consumes) || l.consumes

def Alt.consumes : Alt → Bool
  | .empty => false
  | .one c => c.consumes
  | .bar c l => c.consumes && l.consumes

def Body.consumes : Body → Bool
  | .alt l => l.consumes
  | .lead _ => false
end

/-- The characters of a set, if they are listed one by one. -/
def listed : List SetItem → Option (List Nat)
  | [] => some []
  | .one c :: l => (listed l).map (c.code :: ·)
  | _ => none

mutual
/-- The characters one of which (up to letter case) the matched text begins with, if they are known. -/
def Atom.heads : Atom → Option (List Nat)
  | .ch c => some [c.code]
  | .set false l => listed l
  | .cap _ b => b.heads
  | .named _ _ b => b.heads
  | .group b => b.heads
  | .atomic b => b.heads
  | _ => none

def Cat.heads : Cat → Option (List Nat)
  | .one a q => if q.low = 0 then none else a.heads
  | .cons a q _ => if q.low = 0 then none else a.heads

def Alt.heads : Alt → Option (List Nat)
  | .empty => none
  | .one c => c.heads
  | .bar c l => match c.heads, l.heads with
    | some H, some K => some (H ++ K)
    | _, _ => none

def Body.heads : Body → Option (List Nat)
  | .alt l => l.heads
  | .lead _ => none
end

mutual
/-- There is at most one way: a quantifier is possessive or has a fixed count, alternatives begin with different characters. -/
def Atom.single : Atom → Bool
  | .cap _ b => b.single
  | .named _ _ b => b.single
  | .group b => b.single
  | _ => true

def Cat.single : Cat → Bool
  | .one a q => decide (q.kind = .poss) || (q.fixed && a.single)
  | .cons a q l => (decide (q.kind = .poss) || (q.fixed && a.single)) && l.single

def Alt.single : Alt → Bool
  | .empty => true
  | .one c => c.single
  | .bar c l => c.single && l.single && (match c.heads, l.heads with
    | some H, some K => apart H K
    | _, _ => false)

def Body.single : Body → Bool
  | .alt l => l.single
  | .lead _ => false
end

/-- The condition of `Atom.firm` for a quantifier. -/
def itemFirm (q : Quant) (consumes single : Bool) : Bool :=
  decide (q = .none) || (consumes && (single || (decide (q.kind = .poss) && decide (q.low ≤ 1))))

mutual
/-- Whatever is repeated consumes something and matches in at most one way (except under a possessive quantifier with
minimum at most 1), the content of every atomic group consumes something. -/
def Atom.firm : Atom → Bool
  | .cap _ b => b.firm
  | .named _ _ b => b.firm
  | .group b => b.firm
  | .ahead _ b => b.firm
  | .behind _ b => b.firm
  | .atomic b => b.consumes && b.firm
  | _ => true

def Cat.firm : Cat → Bool
  | .one a q => itemFirm q a.consumes a.single && a.firm
  | .cons a q l => itemFirm q a.consumes a.single && a.firm && l.firm

def Alt.firm : Alt → Bool
  | .empty => true
  | .one c => c.firm
  | .bar c l => c.firm && l.firm

def Body.firm : Body → Bool
  | .alt l => l.firm
  | .lead l => l.firm
end

mutual
/-- Nothing discards ways that could be needed later: no atomic group, no possessive quantifier, no group inside a positive
lookahead.  Whatever is repeated consumes something. -/
def Atom.loose : Atom → Bool
  | .cap _ b => b.loose
  | .named _ _ b => b.loose
  | .group b => b.loose
  | .ahead pos b => (!pos || decide (b.groups = 0)) && b.loose
  | .behind _ b => b.loose
  | .atomic _ => false
  | _ => true

def Cat.loose : Cat → Bool
  | .one a q => (decide (q = .none) || (decide (q.kind ≠ .poss) && a.consumes)) && a.loose
  | .cons a q l => (decide (q = .none) || (decide (q.kind ≠ .poss) && a.consumes)) && a.loose && l.loose

def Alt.loose : Alt → Bool
  | .empty => true
  | .one c => c.loose
  | .bar c l => c.loose && l.loose

def Body.loose : Body → Bool
  | .alt l => l.loose
  | .lead l => l.loose
end

mutual
/-- `??` or `{0,1}?` alone in `(?:...)`. -/
def Atom.lazyOptional : Atom → Bool
  | .group b => b.lazyOptional
  | _ => false

def Cat.lazyOptional : Cat → Bool
  | .one a .none => a.lazyOptional
  | .one a (.opt k) => decide (k = .lazy) || a.lazyOptional
  | .one _ (.between ds es k) => decide (decimal ds = 0) && decide (decimal es = 1) && decide (k = .lazy)
  | _ => false

def Alt.lazyOptional : Alt → Bool
  | .one c => c.lazyOptional
  | _ => false

def Body.lazyOptional : Body → Bool
  | .alt l => l.lazyOptional
  | .lead _ => false
end

/-- `?` and `?+` are not applied to a lazy optional in `(?:...)`. -/
def Quant.overLazy (q : Quant) (a : Atom) : Bool :=
  match q with
  | .opt .lazy => false
  | .opt _ => a.lazyOptional
  | _ => false

mutual
/-- No `?` after a lazy optional in `(?:...)`, as in `(?:a??)?`: the library drops the outer `?`, and the result is lazy. -/
def Atom.inOrder : Atom → Bool
  | .cap _ b => b.inOrder
  | .named _ _ b => b.inOrder
  | .group b => b.inOrder
  | .ahead _ b => b.inOrder
  | .behind _ b => b.inOrder
  | .atomic b => b.inOrder
  | _ => true

def Cat.inOrder : Cat → Bool
  | .one a q => a.inOrder && !q.overLazy a
  | .cons a q l => a.inOrder && !q.overLazy a && l.inOrder

def Alt.inOrder : Alt → Bool
  | .empty => true
  | .one c => c.inOrder
  | .bar c l => c.inOrder && l.inOrder

def Body.inOrder : Body → Bool
  | .alt l => l.inOrder
  | .lead l => l.inOrder
end

/-- A quantified atom matches no empty text. -/
def itemMoves (q : Quant) (moves honest : Bool) : Bool :=
  match q with
  | .none => moves
  | q => decide (1 ≤ q.low) && honest

/-- See `Atom.honest`. -/
def itemHonest (q : Quant) (honest : Bool) : Bool :=
  match q with
  | .none => honest
  | q => match q.kind with
    | .greedy => decide (1 ≤ q.low) && honest
    | _ => honest

mutual
/-- Whatever is matched is not empty. -/
def Atom.moves : Atom → Bool
  | .ch _ | .cls _ | .set _ _ | .dot | .unknown _ _ => true
  | .cap _ b => b.moves
  | .named _ _ b => b.moves
  | .group b => b.moves
  | .atomic b => b.honest
  | _ => false

/-- In a repetition of this content the library notices whether an iteration has consumed something.  It does not if the
content has a greedy optional part and no part has to consume a character, as in `(?:a?)*` and `(?:a*\b)+`. -/
def Atom.honest : Atom → Bool
  | .cap _ b => b.honest
  | .named _ _ b => b.honest
  | .group b => b.honest
  | _ => true

def Cat.moves : Cat → Bool
  | .one a q => itemMoves q a.moves a.honest
  | .cons a q l => itemMoves q a.moves a.honest || l.moves

/-- All the quantified atoms are honest. -/
def Cat.allHonest : Cat → Bool
  | .one a q => itemHonest q a.honest
  | .cons a q l => itemHonest q a.honest && l.allHonest

def Alt.moves : Alt → Bool
  | .empty => false
  | .one c => c.moves
  | .bar c l => c.moves && l.moves

def Alt.honest : Alt → Bool
  | .empty => true
  | .one c => c.moves || c.allHonest
  | .bar c l => (c.moves || c.allHonest) && l.honest

def Body.moves : Body → Bool
  | .alt l => l.moves
  | .lead _ => false

def Body.honest : Body → Bool
  | .alt l => l.honest
  | .lead l => l.honest
end

mutual
/-- The content of every repetition and atomic group is honest. -/
def Atom.attentive : Atom → Bool
  | .cap _ b => b.attentive
  | .named _ _ b => b.attentive
  | .group b => b.attentive
  | .ahead _ b => b.attentive
  | .atomic b => b.honest && b.attentive
  | _ => true

def Cat.attentive : Cat → Bool
  | .one a q => (decide (q = .none) || a.honest) && a.attentive
  | .cons a q l => (decide (q = .none) || a.honest) && a.attentive && l.attentive

def Alt.attentive : Alt → Bool
  | .empty => true
  | .one c => c.attentive
  | .bar c l => c.attentive && l.attentive

def Body.attentive : Body → Bool
  | .alt l => l.attentive
  | .lead l => l.attentive
end

mutual
/-- Every group is one of the groups `gs`, and every reference refers to one of them. -/
def Atom.known (gs : List (Nat × Option (List Nat))) : Atom → Bool
  | .ref d => (gs.map Prod.fst).contains (d - 48)
  | .refNumber ds => (gs.map Prod.fst).contains (decimal ds)
  | .refRelative _ id => (gs.map Prod.fst).contains id
  | .refName n => (gs.filterMap Prod.snd).contains n
  | .cap id b => (gs.map Prod.fst).contains id && b.known gs
  | .named id _ b => (gs.map Prod.fst).contains id && b.known gs
  | .group b => b.known gs
  | .ahead _ b => b.known gs
  | .atomic b => b.known gs
  | _ => true

def Cat.known (gs : List (Nat × Option (List Nat))) : Cat → Bool
  | .one a _ => a.known gs
  | .cons a _ l => a.known gs && l.known gs

def Alt.known (gs : List (Nat × Option (List Nat))) : Alt → Bool
  | .empty => true
  | .one c => c.known gs
  | .bar c l => c.known gs && l.known gs

def Body.known (gs : List (Nat × Option (List Nat))) : Body → Bool
  | .alt l => l.known gs
  | .lead l => l.known gs
end

mutual
/-- Neither `^` nor `\A` occurs outside of lookarounds and atomic groups. -/
def Atom.noBegin : Atom → Bool
  | .bol | .subjectBegin => false
  | .cap _ b => b.noBegin
  | .named _ _ b => b.noBegin
  | .group b => b.noBegin
  | _ => true

def Cat.noBegin : Cat → Bool
  | .one a _ => a.noBegin
  | .cons a _ l => a.noBegin && l.noBegin

def Alt.noBegin : Alt → Bool
  | .empty => true
  | .one c => c.noBegin
  | .bar c l => c.noBegin && l.noBegin

def Body.noBegin : Body → Bool
  | .alt l => l.noBegin
  | .lead l => l.noBegin
end

end Ctre.Surface

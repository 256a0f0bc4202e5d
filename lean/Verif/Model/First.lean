import Verif.Model.Atoms

/-
First-character analysis used by the greedy-to-possessive optimisation.
Source: /repo/include/ctre/first.hpp
-/
namespace Ctre

/-- Elements of a computed first list: `can_be_anything` or a character-like node
(/repo/include/ctre/first.hpp:9 and the results of `first`). -/
inductive FC where
  | anything
  | cc (c : CC)
deriving Repr

/-- The first list of a character-like node appended to `l`
(/repo/include/ctre/first.hpp:246-292): properties give `can_be_anything` and drop `l`, an
enumeration gives its characters, a set its members, `negate` becomes `negative_set`. -/
def firstCC (l : List FC) : CC → List FC
  | .chr c => l ++ [.cc (.chr c)]
  | .range a b => l ++ [.cc (.range a b)]
  | .enum cs => l ++ cs.map (fun c => .cc (.chr c))
  | .set m => l ++ m.map .cc
  | .negSet m => l ++ [.cc (.negSet m)]
  | .negate m => l ++ [.cc (.negSet m)]
  | .prop _ => [.anything]

mutual
/-- `first(l, list<r, Tail...>)` (/repo/include/ctre/first.hpp:42-292).  The recursive calls of the
C++ code on `list<..., Tail...>` are expressed with the continuation `k l = first(l, list<Tail...>)`,
which makes the recursion structural.  `none`: there is no overload and the code does not compile
(`not_boundary`, `mode_switch`, `ctre::reject`). -/
def firstRe (k : List FC → Option (List FC)) (l : List FC) : Re → Option (List FC)
  | .cc c => some (firstCC l c)
  | .any => some [.anything]
  | .str [] => k l
  | .str (c :: _) => some (l ++ [.cc (.chr c)])
  | .sel opts => firstSel k l opts
  | .seq m => firstSeq k l m
  | .empty => k l
  | .rep kind a b m =>
    if a = 0 then
      if b = 1 ∧ kind ≠ .poss then
        -- optional, lazy_optional: lines 223-231
        match firstSeq k l m with
        | some l' => k l'
        | none => none
      else
        -- star and repeat<0,B>: lines 113-162
        match k l with
        | some l' => firstSeq k l' m
        | none => none
    else firstSeq k l m
  | .cap _ _ m => firstSeq k l m
  | .bref _ => some [.anything]
  | .brefName _ => some [.anything]
  | .ahead _ _ => some [.anything]
  | .behind _ _ => some [.anything]
  -- possessive_repeat<1,1,Seq...>: lines 89-93, 142-146
  | .atomic m => firstSeq k l m
  | .boundary _ => k l
  | .notBoundary _ => none
  | .sBegin => k l
  | .sEnd => some l
  | .sEndLine => some l
  | .lBegin => k l
  | .lEnd => some l
  | .mode _ => none
  | .reject _ => none

/-- `first(l, list<Seq..., Tail...>)` for a pack `Seq` (/repo/include/ctre/first.hpp:83-87). -/
def firstSeq (k : List FC → Option (List FC)) (l : List FC) : List Re → Option (List FC)
  | [] => k l
  | r :: m => firstRe (fun l' => firstSeq k l' m) l r

/-- `first(l, list<select<...>, Tail...>)` (/repo/include/ctre/first.hpp:234-242). -/
def firstSel (k : List FC → Option (List FC)) (l : List FC) : List Re → Option (List FC)
  | [] => some l
  | r :: opts =>
    match firstRe k l r with
    | some l' => firstSel k l' opts
    | none => none
end

/-- `first(l, stack)` for a whole evaluation stack (/repo/include/ctre/first.hpp:12-40 for the marks).
There is no overload for `start_mark` and `end_lookbehind_mark`. -/
def first : Stack → List FC → Option (List FC)
  | [], l => some l
  | .accept :: _, l => some l
  | .endMark :: _, l => some l
  | .endCycle :: _, l => some l
  | .endAhead :: _, l => some l
  | .numMark _ :: t, l => first t l
  | .startMark :: _, _ => none
  | .endBehind :: _, _ => none
  | .re r :: t, l => firstRe (first t) l r

/-- `std::numeric_limits<int64_t>::min()`, used in /repo/include/ctre/first.hpp:378,383,525. -/
def i64min : Int := -9223372036854775808

/-- `std::numeric_limits<int64_t>::max()`, used in /repo/include/ctre/first.hpp:384,385,526. -/
def i64max : Int := 9223372036854775807

/-- `A+1` as computed in `negative_helper` (/repo/include/ctre/first.hpp:331,344): `int` arithmetic
for `char` constants, 32-bit unsigned arithmetic for `char32_t` constants. -/
def succConst (c : Nat) : Int := if c ≤ 127 then (c : Int) + 1 else (((c + 1) % 4294967296 : Nat) : Int)

/-- `negative_helper(char_range<A,B>)` (/repo/include/ctre/first.hpp:337-348); with `A = B` it is
`negative_helper(character<A>)` (lines 324-335).  The intervals handed to the callback are collected
in a list.  The comparisons with the `int64_t` limits are always true for `char` and `char32_t`. -/
def negRange (a b : Nat) (start : Int) : List (Int × Int) × Int :=
  ((if start < (a : Int) then [(start, (a : Int) - 1)] else []), succConst b)

/-- `negative_helper(enumeration<...>)` (/repo/include/ctre/first.hpp:350-357). -/
def negEnum : List Nat → Int → List (Int × Int) × Int
  | [], start => ([], start)
  | c :: cs, start =>
    let r := negRange c c start
    let r' := negEnum cs r.2
    (r.1 ++ r'.1, r'.2)

mutual
/-- `negative_helper(Head, cb, start)` for the members of a negative set
(/repo/include/ctre/first.hpp:324-376).  `none`: no overload (`negate`) or a `void` result used as a
number (`negative_set`). -/
def negHelper : CC → Int → Option (List (Int × Int) × Int)
  | .chr c, start => some (negRange c c start)
  | .range a b, start => some (negRange a b start)
  | .enum cs, start => some (negEnum cs start)
  | .set l, start => negList l start
  | .prop _, start => some ([], start)
  | .negSet _, _ => none
  | .negate _, _ => none

/-- `negative_helper(set<Head, Rest...>)` (/repo/include/ctre/first.hpp:359-361, 373-376). -/
def negList : List CC → Int → Option (List (Int × Int) × Int)
  | [], start => some ([], start)
  | c :: l, start =>
    match negHelper c start with
    | none => none
    | some (ps, start') =>
      match negList l start' with
      | none => none
      | some (ps', start'') => some (ps ++ ps', start'')
end

/-- `negative_helper(negative_set<...>, cb)` (/repo/include/ctre/first.hpp:378-387): all intervals
handed to the callback. -/
def negSetIntervals (l : List CC) : Option (List (Int × Int)) :=
  match negList l i64min with
  | none => none
  | some (ps, start) => some (if start < i64max then ps ++ [(start, i64max)] else ps)

mutual
/-- `point_set::populate` (/repo/include/ctre/first.hpp:518-539).  The sorted array of points is
modelled as the list of intervals in order of insertion: `check` looks at every point, so the order
is irrelevant.  `populate(...)` (line 524) overwrites the set with the whole range. -/
def populateCC (ps : List (Int × Int)) : CC → Option (List (Int × Int))
  | .chr c => some (ps ++ [((c : Int), (c : Int))])
  | .range a b => some (ps ++ [((a : Int), (b : Int))])
  | .enum cs => some (ps ++ cs.map (fun c : Nat => ((c : Int), (c : Int))))
  | .set l => populateList ps l
  | .negSet l => (negSetIntervals l).map (ps ++ ·)
  | .negate _ => some [(i64min, i64max)]
  | .prop _ => some [(i64min, i64max)]

/-- `populate(set<Content...>)` (/repo/include/ctre/first.hpp:534-536). -/
def populateList (ps : List (Int × Int)) : List CC → Option (List (Int × Int))
  | [] => some ps
  | c :: l =>
    match populateCC ps c with
    | none => none
    | some ps' => populateList ps' l
end

/-- `populate` on an element of a first list (/repo/include/ctre/first.hpp:518-539). -/
def populateFC (ps : List (Int × Int)) : FC → Option (List (Int × Int))
  | .anything => some [(i64min, i64max)]
  | .cc c => populateCC ps c

/-- `populate(ctll::list<Content...>)` (/repo/include/ctre/first.hpp:537-539). -/
def populate (ps : List (Int × Int)) : List FC → Option (List (Int × Int))
  | [] => some ps
  | c :: l =>
    match populateFC ps c with
    | none => none
    | some ps' => populate ps' l

/-- `point_set::check(low, high)` (/repo/include/ctre/first.hpp:465-478). -/
def checkIv (ps : List (Int × Int)) (low high : Int) : Bool :=
  ps.any fun r =>
    (decide (r.1 ≤ low) && decide (low ≤ r.2)) || (decide (r.1 ≤ high) && decide (high ≤ r.2)) ||
    (decide (low ≤ r.1) && decide (r.1 ≤ high)) || (decide (low ≤ r.2) && decide (r.2 ≤ high))

mutual
/-- `point_set::check` (/repo/include/ctre/first.hpp:481-515).  `none`: no overload (`negate`), or a
negative set that `negative_helper` cannot handle.  The fold `||` is evaluated over all members
because every instantiation has to compile. -/
def checkCC (ps : List (Int × Int)) : CC → Option Bool
  | .chr c => some (checkIv ps c c)
  | .range a b => some (checkIv ps a b)
  | .enum cs => some (cs.any fun c => checkIv ps c c)
  | .set l => checkList ps l
  | .negSet l => (negSetIntervals l).map fun ivs => ivs.any fun r => checkIv ps r.1 r.2
  | .negate _ => none
  | .prop _ => some (decide (0 < ps.length))

/-- `check(set<Content...>)` (/repo/include/ctre/first.hpp:513-515). -/
def checkList (ps : List (Int × Int)) : List CC → Option Bool
  | [] => some false
  | c :: l =>
    match checkCC ps c, checkList ps l with
    | some x, some y => some (x || y)
    | _, _ => none
end

/-- `check` on an element of a first list; `check(can_be_anything)` is `used > 0`
(/repo/include/ctre/first.hpp:487-489). -/
def checkFC (ps : List (Int × Int)) : FC → Option Bool
  | .anything => some (decide (0 < ps.length))
  | .cc c => checkCC ps c

/-- `check(ctll::list<Content...>)` (/repo/include/ctre/first.hpp:510-512). -/
def check (ps : List (Int × Int)) : List FC → Option Bool
  | [] => some false
  | c :: l =>
    match checkFC ps c, check ps l with
    | some x, some y => some (x || y)
    | _, _ => none

/-- `collides(rhs, lhs)` (/repo/include/ctre/first.hpp:542-549).  `none`: does not compile. -/
def collides (rhs lhs : List FC) : Option Bool :=
  match populate [] rhs with
  | none => none
  | some ps => check ps lhs

/-- The condition `collides(calculate_first(Content{}...), calculate_first(Tail{}...))` of
/repo/include/ctre/evaluation.hpp:392 (`calculate_first`: /repo/include/ctre/first.hpp:296-298). -/
def loopCollides (content : List Re) (tail : Stack) : Option Bool :=
  match first (items content []) [], first tail [] with
  | some a, some b => collides a b
  | _, _ => none

end Ctre

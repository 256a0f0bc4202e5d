import Verif.Model.Rotate
import Verif.Model.Grammar

/-
Semantic actions of the parser.  Source: /repo/include/ctre/actions/*.inc.hpp,
/repo/include/ctre/pcre_actions.hpp
-/
namespace Ctre

mutual
/-- Equality of character-like types (`std::is_same_v` in
/repo/include/ctre/actions/set.inc.hpp:6, deduction of equal packs in
/repo/include/ctre/actions/fusion.inc.hpp:35-68). -/
def CC.same : CC → CC → Bool
  | .chr a, .chr b => a == b
  | .range a b, .range c d => a == c && b == d
  | .enum l, .enum m => l == m
  | .set l, .set m => CC.sameList l m
  | .negSet l, .negSet m => CC.sameList l m
  | .negate l, .negate m => CC.sameList l m
  | .prop p, .prop q => p == q
  | _, _ => false

/-- Equality of packs of character-like types, see `CC.same` (/repo/include/ctre/actions/fusion.inc.hpp:35-68). -/
def CC.sameList : List CC → List CC → Bool
  | [], [] => true
  | a :: l, b :: m => CC.same a b && CC.sameList l m
  | _, _ => false
end

mutual
/-- Equality of pattern types, see `CC.same` (/repo/include/ctre/actions/fusion.inc.hpp:35-68). -/
def Re.same : Re → Re → Bool
  | .cc a, .cc b => CC.same a b
  | .any, .any => true
  | .str a, .str b => a == b
  | .sel a, .sel b => Re.sameList a b
  | .seq a, .seq b => Re.sameList a b
  | .empty, .empty => true
  | .rep k a b l, .rep k' a' b' l' => decide (k = k') && a == a' && b == b' && Re.sameList l l'
  | .cap i n l, .cap i' n' l' => i == i' && n == n' && Re.sameList l l'
  | .bref i, .bref j => i == j
  | .brefName i, .brefName j => i == j
  | .ahead p l, .ahead q m => p == q && Re.sameList l m
  | .behind p l, .behind q m => p == q && Re.sameList l m
  | .atomic l, .atomic m => Re.sameList l m
  | .boundary c, .boundary d => CC.same c d
  | .notBoundary c, .notBoundary d => CC.same c d
  | .sBegin, .sBegin => true
  | .sEnd, .sEnd => true
  | .sEndLine, .sEndLine => true
  | .lBegin, .lBegin => true
  | .lEnd, .lEnd => true
  | .mode m, .mode m' => decide (m = m')
  | .reject a, .reject b => a == b
  | _, _ => false

/-- Equality of packs of pattern types, see `CC.same` (/repo/include/ctre/actions/fusion.inc.hpp:35-68). -/
def Re.sameList : List Re → List Re → Bool
  | [], [] => true
  | a :: l, b :: m => Re.same a b && Re.sameList l m
  | _, _ => false
end

namespace Parse

/-- Entries of `pcre_context::stack`: pattern nodes and the parser-internal types `number`,
`capture_id` (/repo/include/ctre/pcre_actions.hpp:32-34), `id` (/repo/include/ctre/id.hpp),
`property_name`, `property_value` (/repo/include/ctre/atoms_unicode.hpp:12-13), `look_start`,
`atomic_start` (/repo/include/ctre/atoms.hpp:52,60). -/
inductive PItem where
  | re (r : Re)
  | num (n : Nat)
  | capId (n : Nat)
  | name (s : List Nat)
  | propName (s : List Nat)
  | propValue (s : List Nat)
  /-- `look_start<lookahead_positive<>>` is `lookStart true true`, ..., `look_start<lookbehind_negative<>>`
  is `lookStart false false` -/
  | lookStart (ahead pos : Bool)
  | atomicStart

/-- `pcre_context` (/repo/include/ctre/pcre_actions.hpp:14-28).  The third template parameter (`Mode`)
is never used. -/
structure Ctx where
  stack : List PItem := []
  /-- `pcre_parameters<Counter>` -/
  counter : Nat := 0

/-- Result of a semantic action: a new context, `ctll::reject`, or no viable overload (the program
does not compile) (called at /repo/include/ctll/parser.hpp:147-161). -/
inductive ARes where
  | ok (c : Ctx)
  | reject
  | ill

/-- The Unicode name tables: `binary_prop_from_string` for `\p{name}` and `property_builder` for
`\p{name=value}` (/repo/include/ctre/atoms_unicode.hpp:70-153).  A property is an
opaque number here; the tables themselves are `Ucd.table` (Model/Unicode.lean). -/
structure PropTable where
  binary : List Nat → Option Nat := fun _ => none
  valued : List Nat → List Nat → Option Nat := fun _ _ => none

/-- `size_t` arithmetic
(/repo/include/ctre/actions/fusion.inc.hpp:9-33, /repo/include/ctre/actions/hexdec.inc.hpp:9-18,
/repo/include/ctre/actions/repeat.inc.hpp:23-30). -/
def szMod : Nat := 18446744073709551616

/-- `combine_max_repeat_length` (/repo/include/ctre/actions/fusion.inc.hpp:4-7). -/
def combineMax (a b : Nat) : Nat := if a ≠ 0 ∧ b ≠ 0 then (a + b) % szMod else 0

/-- `combine_repeat` (/repo/include/ctre/actions/fusion.inc.hpp:9-32). -/
def combineRepeat (k : RepKind) (minA maxA minB maxB : Nat) (l : List Re) : Re :=
  match k with
  | .greedy => .rep .greedy ((minA + minB) % szMod) (combineMax maxA maxB) l
  | .lazy => .rep .lazy ((minA + minB) % szMod) (combineMax maxA maxB) l
  | .poss =>
    if maxA = 0 ∧ 0 < minB then .seq (.reject true :: l)
    else if maxA = 0 then .rep .poss minA maxA l
    else if minB = 0 then .rep .poss minA (combineMax maxA maxB) l
    else .rep .poss ((maxA + minB) % szMod) (combineMax maxA maxB) l

/-- `apply(make_sequence, ...)` with `B` on top of `A`: the overloads of
/repo/include/ctre/actions/sequence.inc.hpp:5-29 and /repo/include/ctre/actions/fusion.inc.hpp:35-68,
most specialised first. -/
def makeSequence (b a : Re) : Re :=
  match b, a with
  -- two characters / a string after a character
  | .cc (.chr y), .cc (.chr x) => .str [x, y]
  | .str ys, .cc (.chr x) => .str (x :: ys)
  -- the same in front of other items
  | .seq (.cc (.chr y) :: sq), .cc (.chr x) => .seq (.str [x, y] :: sq)
  | .seq (.str ys :: sq), .cc (.chr x) => .seq (.str (x :: ys) :: sq)
  -- two repetitions of the same kind with the same content
  | .rep k minB maxB l, .rep k' minA maxA l' =>
    if k = k' ∧ Re.sameList l l' then combineRepeat k minA maxA minB maxB l
    else .seq [.rep k' minA maxA l', .rep k minB maxB l]
  -- the same in front of other items; the arguments of `combine_repeat` are the other way round
  | .seq (.rep k minB maxB l :: as), .rep k' minA maxA l' =>
    if k = k' ∧ Re.sameList l l' then .seq (combineRepeat k minB maxB minA maxA l :: as)
    else .seq (.rep k' minA maxA l' :: .rep k minB maxB l :: as)
  | .seq bs, a => .seq (a :: bs)
  | b, a => .seq [a, b]

/-- The content of a group: `sequence<Content...>` is unpacked, anything else is taken as it is (the
"(sequence)" overloads of capture, look, atomic_group, repeat and options)
(for instance /repo/include/ctre/actions/capture.inc.hpp:18-24). -/
def unpack : Re → List Re
  | .seq l => l
  | r => [r]

/-- `apply(make_alternate, ...)` with `B` on top of `A`
(/repo/include/ctre/actions/options.inc.hpp:15-21). -/
def makeAlternate (b a : Re) : Re :=
  match b with
  | .sel bs => .sel (a :: bs)
  | b => .sel [a, b]

/-- `apply(make_optional, ...)` (/repo/include/ctre/actions/options.inc.hpp:25-41). -/
def makeOptional : Re → Re
  | .seq l => .rep .greedy 0 1 l
  | .rep .greedy 0 1 [a] => .rep .greedy 0 1 [a]
  | .rep .lazy 0 1 [a] => .rep .lazy 0 1 [a]
  | a => .rep .greedy 0 1 [a]

/-- `push_back_into_set` (/repo/include/ctre/actions/set.inc.hpp:6). -/
def pushBackIntoSet (x : CC) (l : List CC) : List CC :=
  if l.any (CC.same x) then l else l ++ [x]

/-- `apply_mode` (/repo/include/ctre/actions/mode.inc.hpp:5-11). -/
def applyMode (m : Mode) (c : Ctx) : Ctx :=
  match c.stack with
  | .capId _ :: ts => { stack := .re (.mode m) :: ts, counter := c.counter - 1 }
  | ts => { stack := .re (.mode m) :: ts, counter := c.counter }

/-- `push_hexdec` (/repo/include/ctre/actions/hexdec.inc.hpp:9-18); `v` is a hexadecimal digit. -/
def hexValue (v : Nat) : Nat :=
  if 97 ≤ v ∧ v ≤ 102 then v - 97 + 10
  else if 65 ≤ v ∧ v ≤ 70 then v - 65 + 10
  else v - 48

/-- Put one item on the stack (`ctll::push_front(x, subject.stack)`, everywhere in
/repo/include/ctre/actions). -/
def Ctx.push (c : Ctx) (x : PItem) : ARes := .ok { c with stack := x :: c.stack }

/-- `ctll::push_front(x(), ctll::list<Ts...>())`: replace the stack
(for instance /repo/include/ctre/actions/capture.inc.hpp:13-16). -/
def Ctx.setStack (c : Ctx) (l : List PItem) : ARes := .ok { c with stack := l }

/-- `pcre_actions::apply(action, term<V>, context)` for the previously read character `V`
(/repo/include/ctre/actions/*.inc.hpp, the file of each group is given below).

Where the C++ overload takes any type `A` from the stack, the model requires a pattern node and
answers `ill` for the parser-internal types. -/
def applyTerm (P : PropTable) (v : Nat) (c : Ctx) : Act → ARes
  -- asserts.inc.hpp:5-27
  | .pushAssertBegin => c.push (.re .lBegin)
  | .pushAssertEnd => c.push (.re .lEnd)
  | .pushAssertSubjectBegin => c.push (.re .sBegin)
  | .pushAssertSubjectEnd => c.push (.re .sEnd)
  | .pushAssertSubjectEndWithLineend => c.push (.re .sEndLine)
  -- atomic_group.inc.hpp:5-17
  | .startAtomic => c.push .atomicStart
  | .makeAtomic =>
    match c.stack with
    | .re r :: .atomicStart :: ts => c.setStack (.re (.atomic (unpack r)) :: ts)
    | _ => .ill
  -- backreference.inc.hpp:5-28
  | .makeBackReference =>
    match c.stack with
    | .name s :: ts => c.setStack (.re (.brefName s) :: ts)
    | .num id :: ts => if c.counter < id then .reject else c.setStack (.re (.bref id) :: ts)
    | _ => .ill
  | .makeRelativeBackReference =>
    match c.stack with
    | .num id :: ts =>
      if c.counter < id then .reject else c.setStack (.re (.bref ((c.counter + 1) - id)) :: ts)
    | _ => .ill
  -- boundaries.inc.hpp:5-12
  | .pushWordBoundary => c.push (.re (.boundary wordChars))
  | .pushNotWordBoundary => c.push (.re (.boundary (.negSet [wordChars])))
  -- capture.inc.hpp:5-37
  | .prepareCapture =>
    .ok { stack := .capId (c.counter + 1) :: c.stack, counter := c.counter + 1 }
  | .resetCapture =>
    match c.stack with
    | .capId _ :: ts => .ok { stack := ts, counter := c.counter - 1 }
    | _ => .ill
  | .makeCapture =>
    match c.stack with
    | .re r :: .capId id :: ts => c.setStack (.re (.cap id none (unpack r)) :: ts)
    | _ => .ill
  | .pushName =>
    match c.stack with
    | .name s :: ts => c.setStack (.name (s ++ [v]) :: ts)
    | _ => c.push (.name [v])
  | .makeCaptureWithName =>
    match c.stack with
    | .re r :: .name s :: .capId id :: ts => c.setStack (.re (.cap id (some s) (unpack r)) :: ts)
    | _ => .ill
  -- characters.inc.hpp:5-39
  | .pushCharacter => c.push (.re (.cc (.chr v)))
  | .pushCharacterAnything => c.push (.re .any)
  | .pushCharacterAlarm => c.push (.re (.cc (.chr 0x07)))
  | .pushCharacterEscape => c.push (.re (.cc (.chr 0x14)))
  | .pushCharacterFormfeed => c.push (.re (.cc (.chr 0x0C)))
  | .pushCharacterNewline => c.push (.re (.cc (.chr 0x0A)))
  | .pushCharacterNull => c.push (.re (.cc (.chr 0)))
  | .pushCharacterReturnCarriage => c.push (.re (.cc (.chr 0x0D)))
  | .pushCharacterTab => c.push (.re (.cc (.chr 0x09)))
  -- class.inc.hpp:5-49
  | .classDigit => c.push (.re (.cc (.set [digitChars])))
  | .classNondigit => c.push (.re (.cc (.negSet [digitChars])))
  | .classSpace => c.push (.re (.cc (.set [spaceChars])))
  | .classNonspace => c.push (.re (.cc (.negSet [spaceChars])))
  | .classHorizontalSpace => c.push (.re (.cc (.set [horizontalSpaceChars])))
  | .classNonHorizontalSpace => c.push (.re (.cc (.negSet [horizontalSpaceChars])))
  | .classVerticalSpace => c.push (.re (.cc (.set [verticalSpaceChars])))
  | .classNonVerticalSpace => c.push (.re (.cc (.negSet [verticalSpaceChars])))
  | .classWord => c.push (.re (.cc (.set [wordChars])))
  | .classNonword => c.push (.re (.cc (.negSet [wordChars])))
  | .classNonnewline => c.push (.re (.cc (.negSet [.chr 0x0A])))
  -- hexdec.inc.hpp:5-27; `char32_t{N}` is a narrowing error when `N` needs more than 32 bits
  | .createHexdec => c.push (.num 0)
  | .pushHexdec =>
    match c.stack with
    | .num n :: ts => c.setStack (.num ((n * 16 + hexValue v) % szMod) :: ts)
    | _ => .ill
  | .finishHexdec =>
    match c.stack with
    | .num n :: ts => if n < 4294967296 then c.setStack (.re (.cc (.chr n)) :: ts) else .ill
    | _ => .ill
  -- look.inc.hpp:5-66
  | .startLookaheadPositive => c.push (.lookStart true true)
  | .startLookaheadNegative => c.push (.lookStart true false)
  | .startLookbehindPositive => c.push (.lookStart false true)
  | .startLookbehindNegative => c.push (.lookStart false false)
  | .lookFinish =>
    match c.stack with
    | .re r :: .lookStart true p :: ts => c.setStack (.re (.ahead p (unpack r)) :: ts)
    | .re r :: .lookStart false p :: ts =>
      match rotateList (unpack r) with
      | some l => c.setStack (.re (.behind p l.reverse) :: ts)
      | none => .ill
    | _ => .ill
  -- mode.inc.hpp:14-28
  | .modeCaseInsensitive => .ok (applyMode .caseInsensitive c)
  | .modeCaseSensitive => .ok (applyMode .caseSensitive c)
  | .modeSingleline => .ok (applyMode .singleline c)
  | .modeMultiline => .ok (applyMode .multiline c)
  -- named_class.inc.hpp:5-59
  | .classNamedAlnum => c.push (.re (.cc alphanumChars))
  | .classNamedAlpha => c.push (.re (.cc alphaChars))
  | .classNamedDigit => c.push (.re (.cc digitChars))
  | .classNamedAscii => c.push (.re (.cc asciiChars))
  | .classNamedBlank => c.push (.re (.cc (.enum [32, 9])))
  | .classNamedCntrl => c.push (.re (.cc (.set [.range 0 0x1F, .chr 0x7F])))
  | .classNamedGraph => c.push (.re (.cc (.range 0x21 0x7E)))
  | .classNamedLower => c.push (.re (.cc (.range 97 122)))
  | .classNamedUpper => c.push (.re (.cc (.range 65 90)))
  | .classNamedPrint => c.push (.re (.cc (.range 0x20 0x7E)))
  | .classNamedSpace => c.push (.re (.cc spaceChars))
  | .classNamedWord => c.push (.re (.cc wordChars))
  | .classNamedPunct => c.push (.re (.cc punctChars))
  | .classNamedXdigit => c.push (.re (.cc xdigitChars))
  -- options.inc.hpp:5-51
  | .pushEmpty => c.push (.re .empty)
  | .makeAlternate =>
    match c.stack with
    | .re b :: .re a :: ts => c.setStack (.re (Parse.makeAlternate b a) :: ts)
    | _ => .ill
  | .makeOptional =>
    match c.stack with
    | .re a :: ts => c.setStack (.re (Parse.makeOptional a) :: ts)
    | _ => .ill
  -- properties.inc.hpp:5-71; an unknown `\p{name=value}` is not rejected, because the result is
  -- declared `const` and compared with the unqualified `ctll::reject` (line 40): `ctll::reject` becomes a
  -- pattern node.  For an unknown `\P{name=value}` the node is `negate<const ctll::reject>`, for a set with
  -- an unknown value it is `set<..., ctll::reject, ...>`; their `match_char` do not compile when the
  -- pattern is used.  Here they are `ill` at once
  | .pushPropertyName =>
    match c.stack with
    | .propName s :: ts => c.setStack (.propName (s ++ [v]) :: ts)
    | _ => c.push (.propName [v])
  | .pushPropertyValue =>
    match c.stack with
    | .propValue s :: ts => c.setStack (.propValue (s ++ [v]) :: ts)
    | _ => c.push (.propValue [v])
  | .makeProperty =>
    match c.stack with
    | .propName s :: ts =>
      match P.binary s with
      | some p => c.setStack (.re (.cc (.prop p)) :: ts)
      | none => .reject
    | .propValue w :: .propName s :: ts =>
      match P.valued s w with
      | some p => c.setStack (.re (.cc (.prop p)) :: ts)
      | none => c.setStack (.re (.reject false) :: ts)
    | _ => .ill
  | .makePropertyNegative =>
    match c.stack with
    | .propName s :: ts =>
      match P.binary s with
      | some p => c.setStack (.re (.cc (.negate [.prop p])) :: ts)
      | none => .reject
    | .propValue w :: .propName s :: ts =>
      match P.valued s w with
      | some p => c.setStack (.re (.cc (.negate [.prop p])) :: ts)
      | none => .ill
    | _ => .ill
  -- repeat.inc.hpp:5-87 and options.inc.hpp:44-51
  | .repeatPlus =>
    match c.stack with
    | .re a :: ts => c.setStack (.re (.rep .greedy 1 0 (unpack a)) :: ts)
    | _ => .ill
  | .repeatStar =>
    match c.stack with
    | .re a :: ts => c.setStack (.re (.rep .greedy 0 0 (unpack a)) :: ts)
    | _ => .ill
  | .createNumber => c.push (.num (v - 48))
  | .pushNumber =>
    match c.stack with
    | .num n :: ts => c.setStack (.num ((n * 10 + (v - 48)) % szMod) :: ts)
    | _ => .ill
  | .repeatAb =>
    match c.stack with
    | .num b :: .num a :: .re r :: ts => c.setStack (.re (.rep .greedy a b (unpack r)) :: ts)
    | _ => .ill
  | .repeatExactly =>
    match c.stack with
    | .num a :: .re r :: ts => c.setStack (.re (.rep .greedy a a (unpack r)) :: ts)
    | _ => .ill
  | .repeatAtLeast =>
    match c.stack with
    | .num a :: .re r :: ts => c.setStack (.re (.rep .greedy a 0 (unpack r)) :: ts)
    | _ => .ill
  | .makeLazy =>
    match c.stack with
    | .re (.rep .greedy a b l) :: ts => c.setStack (.re (.rep .lazy a b l) :: ts)
    | .re (.rep .lazy 0 1 l) :: ts => c.setStack (.re (.rep .lazy 0 1 l) :: ts)
    | _ => .ill
  | .makePossessive =>
    match c.stack with
    | .re (.rep .greedy a b l) :: ts => c.setStack (.re (.rep .poss a b l) :: ts)
    | _ => .ill
  -- sequence.inc.hpp:5-29, fusion.inc.hpp:35-68
  | .makeSequence =>
    match c.stack with
    | .re b :: .re a :: ts => c.setStack (.re (Parse.makeSequence b a) :: ts)
    | _ => .ill
  -- set.inc.hpp:22-70; set members have to be character-like, otherwise `match_char` is missing
  | .setStart =>
    match c.stack with
    | .re (.cc a) :: ts => c.setStack (.re (.cc (.set [a])) :: ts)
    | _ => .ill
  | .setEmpty => c.push (.re (.cc (.set [])))
  | .setMake =>
    match c.stack with
    | .re (.cc (.set l)) :: ts => c.setStack (.re (.cc (.set l)) :: ts)
    | _ => .ill
  | .setMakeNegative =>
    match c.stack with
    | .re (.cc (.set l)) :: ts => c.setStack (.re (.cc (.negSet l)) :: ts)
    | _ => .ill
  | .setCombine =>
    match c.stack with
    | .re (.cc a) :: .re (.cc (.set l)) :: ts =>
      c.setStack (.re (.cc (.set (pushBackIntoSet a l))) :: ts)
    | .re (.cc a) :: .re (.cc (.negSet l)) :: ts =>
      c.setStack (.re (.cc (.set (pushBackIntoSet a l))) :: ts)
    | _ => .ill
  | .negateClassNamed =>
    match c.stack with
    | .re (.cc a) :: ts => c.setStack (.re (.cc (.negate [a])) :: ts)
    | _ => .ill
  | .makeRange =>
    match c.stack with
    | .re (.cc (.chr b)) :: .re (.cc (.chr a)) :: ts => c.setStack (.re (.cc (.range a b)) :: ts)
    | _ => .ill

/-- `Actions::apply(top_symbol, get_previous_term<Pos>(), previous_subject)`
(/repo/include/ctll/parser.hpp:154).  Before the first character the previous term is `epsilon`; the
only overload taking `epsilon` is `push_empty` on an empty stack
(/repo/include/ctre/actions/options.inc.hpp:10-12). -/
def apply (P : PropTable) (prev : Option Nat) (c : Ctx) (a : Act) : ARes :=
  match prev, a, c.stack with
  | some v, a, _ => applyTerm P v c a
  | none, .pushEmpty, [] => c.push (.re .empty)
  | none, _, _ => .ill

end Parse
end Ctre

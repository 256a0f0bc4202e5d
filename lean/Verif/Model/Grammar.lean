import Verif.Model.Atoms

/-
The LL(1) grammar of patterns.  Source: /repo/include/ctre/pcre.hpp (itself generated from
/repo/include/ctre/pcre.gram), /repo/include/ctll/grammars.hpp.

This file is a line by line transcription (made by a script) of the `rule` declarations of
/repo/include/ctre/pcre.hpp:145-461.  Characters are written as numbers.
-/
namespace Ctre.Parse

/-- Nonterminals (/repo/include/ctre/pcre.hpp:13-53).  `rept`, `modr`, `rangeNT` are the C++
`repeat`, `mod`, `range`. -/
inductive NT where
  | a
  | b
  | backslash
  | backslashRange
  | block
  | blockName2
  | blockName
  | c
  | classNamedName
  | content2
  | contentInCapture
  | contentOrEmpty
  | d
  | e
  | f
  | g
  | h
  | hexdecRepeat
  | i
  | j
  | k
  | l
  | m
  | modr
  | modeSwitch2
  | n
  | number2
  | number
  | o
  | optContent
  | p
  | propertyName2
  | propertyName
  | propertyValue2
  | propertyValue
  | rangeNT
  | rept
  | s
  | set2a
  | set2b
  | string2
deriving Repr, DecidableEq

/-- Semantic actions (/repo/include/ctre/pcre.hpp:56-133). -/
inductive Act where
  | classDigit
  | classHorizontalSpace
  | classNamedAlnum
  | classNamedAlpha
  | classNamedAscii
  | classNamedBlank
  | classNamedCntrl
  | classNamedDigit
  | classNamedGraph
  | classNamedLower
  | classNamedPrint
  | classNamedPunct
  | classNamedSpace
  | classNamedUpper
  | classNamedWord
  | classNamedXdigit
  | classNonHorizontalSpace
  | classNonVerticalSpace
  | classNondigit
  | classNonnewline
  | classNonspace
  | classNonword
  | classSpace
  | classVerticalSpace
  | classWord
  | createHexdec
  | createNumber
  | finishHexdec
  | lookFinish
  | makeAlternate
  | makeAtomic
  | makeBackReference
  | makeCapture
  | makeCaptureWithName
  | makeLazy
  | makeOptional
  | makePossessive
  | makeProperty
  | makePropertyNegative
  | makeRange
  | makeRelativeBackReference
  | makeSequence
  | modeCaseInsensitive
  | modeCaseSensitive
  | modeMultiline
  | modeSingleline
  | negateClassNamed
  | prepareCapture
  | pushAssertBegin
  | pushAssertEnd
  | pushAssertSubjectBegin
  | pushAssertSubjectEnd
  | pushAssertSubjectEndWithLineend
  | pushCharacter
  | pushCharacterAlarm
  | pushCharacterAnything
  | pushCharacterEscape
  | pushCharacterFormfeed
  | pushCharacterNewline
  | pushCharacterNull
  | pushCharacterReturnCarriage
  | pushCharacterTab
  | pushEmpty
  | pushHexdec
  | pushName
  | pushNotWordBoundary
  | pushNumber
  | pushPropertyName
  | pushPropertyValue
  | pushWordBoundary
  | repeatAb
  | repeatAtLeast
  | repeatExactly
  | repeatPlus
  | repeatStar
  | resetCapture
  | setCombine
  | setEmpty
  | setMake
  | setMakeNegative
  | setStart
  | startAtomic
  | startLookaheadNegative
  | startLookaheadPositive
  | startLookbehindNegative
  | startLookbehindPositive
deriving Repr, DecidableEq

/-- Grammar stack symbols: nonterminals, actions, `ctll::anything`, `ctll::term<V>`,
`ctll::set<...>` (/repo/include/ctll/grammars.hpp:7-77). -/
inductive Sym where
  | nt (x : NT)
  | act (a : Act)
  | any
  | term (c : Nat)
  | set (l : List Nat)
deriving Repr, DecidableEq

/-- Second argument of a `rule` declaration (`ctll::term`, `ctll::set`, `_others`,
`ctll::epsilon`) (/repo/include/ctll/grammars.hpp:7-13, 70-83; /repo/include/ctre/pcre.hpp:97-465). -/
inductive Pat where
  | term (c : Nat)
  | set (l : List Nat)
  | others
  | eps
deriving Repr, DecidableEq

/-- Result of a `rule` declaration (`ctll::push<...>`, `ctll::epsilon`, `ctll::reject`)
(/repo/include/ctll/grammars.hpp:13-40; /repo/include/ctre/pcre.hpp:97-465). -/
inductive Rhs where
  | push (l : List Sym)
  | eps
  | reject
deriving Repr, DecidableEq

/-- `_others` is `ctll::neg_set` of these characters (/repo/include/ctre/pcre.hpp:144). -/
def notOthers : List Nat :=
  [33, 36, 40, 41, 42, 43, 44, 45, 46, 47, 48, 49, 50, 51, 52, 53, 54, 55, 56, 57, 58, 60, 61, 62, 63, 65, 66, 67, 68, 69, 70, 71, 72, 73, 74, 75, 76, 77, 78, 79, 80, 81, 82, 83, 84, 85, 86, 87, 88, 89, 90, 91, 92, 34, 93, 94, 95, 97, 98, 99, 100, 101, 102, 103, 104, 105, 106, 107, 108, 109, 110, 111, 112, 113, 114, 115, 116, 117, 118, 119, 120, 121, 122, 123, 124, 125]

/-- The character set first used in /repo/include/ctre/pcre.hpp:162. -/
def chars0 : List Nat :=
  [33, 44, 45, 47, 48, 49, 50, 51, 52, 53, 54, 55, 56, 57, 58, 60, 61, 62, 65, 66, 67, 68, 69, 70,
    71, 72, 73, 74, 75, 76, 77, 78, 79, 80, 81, 82, 83, 84, 85, 86, 87, 88, 89, 90, 34, 93, 95,
    97, 98, 99, 100, 101, 102, 103, 104, 105, 106, 107, 108, 109, 110, 111, 112, 113, 114, 115,
    116, 117, 118, 119, 120, 121, 122]

/-- The character set first used in /repo/include/ctre/pcre.hpp:167. -/
def chars1 : List Nat :=
  [42, 43, 63, 123, 124, 125]

/-- The character set first used in /repo/include/ctre/pcre.hpp:183. -/
def chars2 : List Nat :=
  [49, 50, 51, 52, 53, 54, 55, 56, 57]

/-- The character set first used in /repo/include/ctre/pcre.hpp:192. -/
def chars3 : List Nat :=
  [36, 40, 41, 42, 43, 45, 46, 47, 60, 62, 63, 91, 92, 34, 93, 94, 123, 124, 125]

/-- The character set first used in /repo/include/ctre/pcre.hpp:225. -/
def chars4 : List Nat :=
  [42, 43, 123, 125]

/-- The character set first used in /repo/include/ctre/pcre.hpp:227. -/
def chars5 : List Nat :=
  [62, 125]

/-- The character set first used in /repo/include/ctre/pcre.hpp:228. -/
def chars6 : List Nat :=
  [48, 49, 50, 51, 52, 53, 54, 55, 56, 57, 65, 66, 67, 68, 69, 70, 71, 72, 73, 74, 75, 76, 77, 78,
    79, 80, 81, 82, 83, 84, 85, 86, 87, 88, 89, 90, 95, 97, 98, 99, 100, 101, 102, 103, 104, 105,
    106, 107, 108, 109, 110, 111, 112, 113, 114, 115, 116, 117, 118, 119, 120, 121, 122]

/-- The character set first used in /repo/include/ctre/pcre.hpp:230. -/
def chars7 : List Nat :=
  [65, 66, 67, 68, 69, 70, 71, 72, 73, 74, 75, 76, 77, 78, 79, 80, 81, 82, 83, 84, 85, 86, 87, 88,
    89, 90, 95, 97, 98, 99, 100, 101, 102, 103, 104, 105, 106, 107, 108, 109, 110, 111, 112, 113,
    114, 115, 116, 117, 118, 119, 120, 121, 122]

/-- The character set first used in /repo/include/ctre/pcre.hpp:234. -/
def chars8 : List Nat :=
  [33, 36, 40, 41, 42, 43, 44, 46, 47, 48, 49, 50, 51, 52, 53, 54, 55, 56, 57, 58, 60, 61, 62, 63,
    65, 66, 67, 68, 69, 70, 71, 72, 73, 74, 75, 76, 77, 78, 79, 80, 81, 82, 83, 84, 85, 86, 87,
    88, 89, 90, 34, 95, 97, 98, 99, 100, 101, 102, 103, 104, 105, 106, 107, 108, 109, 110, 111,
    112, 113, 114, 115, 116, 117, 118, 119, 120, 121, 122, 123, 124, 125]

/-- The character set first used in /repo/include/ctre/pcre.hpp:237. -/
def chars9 : List Nat :=
  [45, 93]

/-- The character set first used in /repo/include/ctre/pcre.hpp:265. -/
def chars10 : List Nat :=
  [42, 43, 63, 123, 125]

/-- The character set first used in /repo/include/ctre/pcre.hpp:343. -/
def chars11 : List Nat :=
  [48, 49, 50, 51, 52, 53, 54, 55, 56, 57, 65, 66, 67, 68, 69, 70, 97, 98, 99, 100, 101, 102]

/-- The character set first used in /repo/include/ctre/pcre.hpp:359. -/
def chars12 : List Nat :=
  [33, 36, 40, 41, 42, 43, 44, 46, 47, 48, 49, 50, 51, 52, 53, 54, 55, 56, 57, 58, 60, 61, 62, 63,
    65, 66, 67, 68, 69, 70, 71, 72, 73, 74, 75, 76, 77, 78, 79, 80, 81, 82, 83, 84, 85, 86, 87,
    88, 89, 90, 34, 94, 95, 97, 98, 99, 100, 101, 102, 103, 104, 105, 106, 107, 108, 109, 110,
    111, 112, 113, 114, 115, 116, 117, 118, 119, 120, 121, 122, 123, 124, 125]

/-- The character set first used in /repo/include/ctre/pcre.hpp:361. -/
def chars13 : List Nat :=
  [45, 91, 93]

/-- The character set first used in /repo/include/ctre/pcre.hpp:369. -/
def chars14 : List Nat :=
  [48, 49, 50, 51, 52, 53, 54, 55, 56, 57]

/-- The character set first used in /repo/include/ctre/pcre.hpp:373. -/
def chars15 : List Nat :=
  [33, 36, 40, 41, 44, 45, 46, 47, 48, 49, 50, 51, 52, 53, 54, 55, 56, 57, 58, 60, 61, 62, 65, 66,
    67, 68, 69, 70, 71, 72, 73, 74, 75, 76, 77, 78, 79, 80, 81, 82, 83, 84, 85, 86, 87, 88, 89,
    90, 91, 92, 34, 93, 94, 95, 97, 98, 99, 100, 101, 102, 103, 104, 105, 106, 107, 108, 109, 110,
    111, 112, 113, 114, 115, 116, 117, 118, 119, 120, 121, 122, 124]

/-- The character set first used in /repo/include/ctre/pcre.hpp:378. -/
def chars16 : List Nat :=
  [42, 123, 125]

/-- The character set first used in /repo/include/ctre/pcre.hpp:389. -/
def chars17 : List Nat :=
  [44, 125]

/-- The character set first used in /repo/include/ctre/pcre.hpp:407. -/
def chars18 : List Nat :=
  [41, 42, 43, 63, 123, 124, 125]

/-- The character set first used in /repo/include/ctre/pcre.hpp:414. -/
def chars19 : List Nat :=
  [46, 48, 49, 50, 51, 52, 53, 54, 55, 56, 57, 65, 66, 67, 68, 69, 70, 71, 72, 73, 74, 75, 76, 77,
    78, 79, 80, 81, 82, 83, 84, 85, 86, 87, 88, 89, 90, 95, 97, 98, 99, 100, 101, 102, 103, 104,
    105, 106, 107, 108, 109, 110, 111, 112, 113, 114, 115, 116, 117, 118, 119, 120, 121, 122]

/-- The character set first used in /repo/include/ctre/pcre.hpp:423. -/
def chars20 : List Nat :=
  [33, 36, 40, 41, 42, 43, 44, 46, 47, 48, 49, 50, 51, 52, 53, 54, 55, 56, 57, 58, 60, 61, 62, 63,
    65, 66, 67, 68, 69, 70, 71, 72, 73, 74, 75, 76, 77, 78, 79, 80, 81, 82, 83, 84, 85, 86, 87,
    88, 89, 90, 91, 92, 34, 93, 94, 95, 97, 98, 99, 100, 101, 102, 103, 104, 105, 106, 107, 108,
    109, 110, 111, 112, 113, 114, 115, 116, 117, 118, 119, 120, 121, 122, 123, 124, 125]

/-- The character set first used in /repo/include/ctre/pcre.hpp:155. -/
def chars21 : List Nat :=
  [41, 42, 43, 63, 123, 125]

/-- The character set first used in /repo/include/ctre/pcre.hpp:451. -/
def chars22 : List Nat :=
  [41, 124]

/-- Rules of the nonterminal `a` (/repo/include/ctre/pcre.hpp:157-167). -/
def rules_a : List (Pat × Rhs) := [
  (.term 92, .push [.any, .nt .backslash, .nt .rept, .nt .string2, .nt .content2, .act .makeAlternate]),
  (.term 91, .push [.any, .nt .c, .nt .rept, .nt .string2, .nt .content2, .act .makeAlternate]),
  (.term 40, .push [.any, .act .prepareCapture, .nt .block, .nt .rept, .nt .string2, .nt .content2, .act .makeAlternate]),
  (.term 94, .push [.any, .act .pushAssertBegin, .nt .rept, .nt .string2, .nt .content2, .act .makeAlternate]),
  (.term 36, .push [.any, .act .pushAssertEnd, .nt .rept, .nt .string2, .nt .content2, .act .makeAlternate]),
  (.set chars0, .push [.any, .act .pushCharacter, .nt .rept, .nt .string2, .nt .content2, .act .makeAlternate]),
  (.others, .push [.any, .act .pushCharacter, .nt .rept, .nt .string2, .nt .content2, .act .makeAlternate]),
  (.term 46, .push [.any, .act .pushCharacterAnything, .nt .rept, .nt .string2, .nt .content2, .act .makeAlternate]),
  (.term 41, .push [.act .pushEmpty, .act .makeAlternate]),
  (.eps, .push [.act .pushEmpty, .act .makeAlternate]),
  (.set chars1, .reject)]

/-- Rules of the nonterminal `b` (/repo/include/ctre/pcre.hpp:169-170). -/
def rules_b : List (Pat × Rhs) := [
  (.term 44, .push [.any, .nt .n]),
  (.term 125, .push [.act .repeatExactly, .any])]

/-- Rules of the nonterminal `backslash` (/repo/include/ctre/pcre.hpp:172-201). -/
def rules_backslash : List (Pat × Rhs) := [
  (.term 100, .push [.any, .act .classDigit]),
  (.term 104, .push [.any, .act .classHorizontalSpace]),
  (.term 72, .push [.any, .act .classNonHorizontalSpace]),
  (.term 86, .push [.any, .act .classNonVerticalSpace]),
  (.term 68, .push [.any, .act .classNondigit]),
  (.term 78, .push [.any, .act .classNonnewline]),
  (.term 83, .push [.any, .act .classNonspace]),
  (.term 87, .push [.any, .act .classNonword]),
  (.term 115, .push [.any, .act .classSpace]),
  (.term 118, .push [.any, .act .classVerticalSpace]),
  (.term 119, .push [.any, .act .classWord]),
  (.set chars2, .push [.any, .act .createNumber, .act .makeBackReference]),
  (.term 103, .push [.any, .term 123, .nt .m]),
  (.term 112, .push [.any, .term 123, .nt .propertyName, .term 125, .act .makeProperty]),
  (.term 80, .push [.any, .term 123, .nt .propertyName, .term 125, .act .makePropertyNegative]),
  (.term 117, .push [.any, .nt .k]),
  (.term 120, .push [.any, .nt .l]),
  (.term 65, .push [.any, .act .pushAssertSubjectBegin]),
  (.term 122, .push [.any, .act .pushAssertSubjectEnd]),
  (.term 90, .push [.any, .act .pushAssertSubjectEndWithLineend]),
  (.set chars3, .push [.any, .act .pushCharacter]),
  (.term 97, .push [.any, .act .pushCharacterAlarm]),
  (.term 101, .push [.any, .act .pushCharacterEscape]),
  (.term 102, .push [.any, .act .pushCharacterFormfeed]),
  (.term 110, .push [.any, .act .pushCharacterNewline]),
  (.term 48, .push [.any, .act .pushCharacterNull]),
  (.term 114, .push [.any, .act .pushCharacterReturnCarriage]),
  (.term 116, .push [.any, .act .pushCharacterTab]),
  (.term 66, .push [.any, .act .pushNotWordBoundary]),
  (.term 98, .push [.any, .act .pushWordBoundary])]

/-- Rules of the nonterminal `backslash_range` (/repo/include/ctre/pcre.hpp:203-212). -/
def rules_backslashRange : List (Pat × Rhs) := [
  (.term 117, .push [.any, .nt .k]),
  (.term 120, .push [.any, .nt .l]),
  (.set chars3, .push [.any, .act .pushCharacter]),
  (.term 97, .push [.any, .act .pushCharacterAlarm]),
  (.term 101, .push [.any, .act .pushCharacterEscape]),
  (.term 102, .push [.any, .act .pushCharacterFormfeed]),
  (.term 110, .push [.any, .act .pushCharacterNewline]),
  (.term 48, .push [.any, .act .pushCharacterNull]),
  (.term 114, .push [.any, .act .pushCharacterReturnCarriage]),
  (.term 116, .push [.any, .act .pushCharacterTab])]

/-- Rules of the nonterminal `block` (/repo/include/ctre/pcre.hpp:214-225). -/
def rules_block : List (Pat × Rhs) := [
  (.term 92, .push [.any, .nt .backslash, .nt .rept, .nt .string2, .nt .content2, .act .makeCapture, .term 41]),
  (.term 91, .push [.any, .nt .c, .nt .rept, .nt .string2, .nt .content2, .act .makeCapture, .term 41]),
  (.term 63, .push [.any, .nt .d]),
  (.term 40, .push [.any, .act .prepareCapture, .nt .block, .nt .rept, .nt .string2, .nt .content2, .act .makeCapture, .term 41]),
  (.term 94, .push [.any, .act .pushAssertBegin, .nt .rept, .nt .string2, .nt .content2, .act .makeCapture, .term 41]),
  (.term 36, .push [.any, .act .pushAssertEnd, .nt .rept, .nt .string2, .nt .content2, .act .makeCapture, .term 41]),
  (.set chars0, .push [.any, .act .pushCharacter, .nt .rept, .nt .string2, .nt .content2, .act .makeCapture, .term 41]),
  (.others, .push [.any, .act .pushCharacter, .nt .rept, .nt .string2, .nt .content2, .act .makeCapture, .term 41]),
  (.term 46, .push [.any, .act .pushCharacterAnything, .nt .rept, .nt .string2, .nt .content2, .act .makeCapture, .term 41]),
  (.term 124, .push [.any, .act .pushEmpty, .nt .contentOrEmpty, .act .makeAlternate, .act .makeCapture, .term 41]),
  (.term 41, .push [.act .pushEmpty, .act .makeCapture, .any]),
  (.set chars4, .reject)]

/-- Rules of the nonterminal `block_name2` (/repo/include/ctre/pcre.hpp:227-228). -/
def rules_blockName2 : List (Pat × Rhs) := [
  (.set chars5, .eps),
  (.set chars6, .push [.any, .act .pushName, .nt .blockName2])]

/-- Rules of the nonterminal `block_name` (/repo/include/ctre/pcre.hpp:230-230). -/
def rules_blockName : List (Pat × Rhs) := [
  (.set chars7, .push [.any, .act .pushName, .nt .blockName2])]

/-- Rules of the nonterminal `c` (/repo/include/ctre/pcre.hpp:232-237). -/
def rules_c : List (Pat × Rhs) := [
  (.term 91, .push [.any, .term 58, .nt .i, .nt .rangeNT, .act .setStart, .nt .set2b, .act .setMake, .term 93]),
  (.term 92, .push [.any, .nt .e, .act .setStart, .nt .set2b, .act .setMake, .term 93]),
  (.set chars8, .push [.any, .act .pushCharacter, .nt .rangeNT, .act .setStart, .nt .set2b, .act .setMake, .term 93]),
  (.others, .push [.any, .act .pushCharacter, .nt .rangeNT, .act .setStart, .nt .set2b, .act .setMake, .term 93]),
  (.term 94, .push [.any, .nt .set2a, .act .setMakeNegative, .term 93]),
  (.set chars9, .reject)]

/-- Rules of the nonterminal `class_named_name` (/repo/include/ctre/pcre.hpp:239-249). -/
def rules_classNamedName : List (Pat × Rhs) := [
  (.term 120, .push [.any, .term 100, .term 105, .term 103, .term 105, .term 116, .act .classNamedXdigit]),
  (.term 100, .push [.any, .term 105, .term 103, .term 105, .term 116, .act .classNamedDigit]),
  (.term 98, .push [.any, .term 108, .term 97, .term 110, .term 107, .act .classNamedBlank]),
  (.term 99, .push [.any, .term 110, .term 116, .term 114, .term 108, .act .classNamedCntrl]),
  (.term 119, .push [.any, .term 111, .term 114, .term 100, .act .classNamedWord]),
  (.term 108, .push [.any, .term 111, .term 119, .term 101, .term 114, .act .classNamedLower]),
  (.term 115, .push [.any, .term 112, .term 97, .term 99, .term 101, .act .classNamedSpace]),
  (.term 117, .push [.any, .term 112, .term 112, .term 101, .term 114, .act .classNamedUpper]),
  (.term 103, .push [.any, .term 114, .term 97, .term 112, .term 104, .act .classNamedGraph]),
  (.term 97, .push [.any, .nt .g]),
  (.term 112, .push [.any, .nt .h])]

/-- Rules of the nonterminal `content2` (/repo/include/ctre/pcre.hpp:251-253). -/
def rules_content2 : List (Pat × Rhs) := [
  (.term 41, .eps),
  (.eps, .eps),
  (.term 124, .push [.any, .nt .a])]

/-- Rules of the nonterminal `content_in_capture` (/repo/include/ctre/pcre.hpp:255-265). -/
def rules_contentInCapture : List (Pat × Rhs) := [
  (.term 92, .push [.any, .nt .backslash, .nt .rept, .nt .string2, .nt .content2]),
  (.term 91, .push [.any, .nt .c, .nt .rept, .nt .string2, .nt .content2]),
  (.term 40, .push [.any, .act .prepareCapture, .nt .block, .nt .rept, .nt .string2, .nt .content2]),
  (.term 94, .push [.any, .act .pushAssertBegin, .nt .rept, .nt .string2, .nt .content2]),
  (.term 36, .push [.any, .act .pushAssertEnd, .nt .rept, .nt .string2, .nt .content2]),
  (.set chars0, .push [.any, .act .pushCharacter, .nt .rept, .nt .string2, .nt .content2]),
  (.others, .push [.any, .act .pushCharacter, .nt .rept, .nt .string2, .nt .content2]),
  (.term 46, .push [.any, .act .pushCharacterAnything, .nt .rept, .nt .string2, .nt .content2]),
  (.term 124, .push [.any, .act .pushEmpty, .nt .contentOrEmpty, .act .makeAlternate]),
  (.term 41, .push [.act .pushEmpty]),
  (.set chars10, .reject)]

/-- Rules of the nonterminal `content_or_empty` (/repo/include/ctre/pcre.hpp:267-276). -/
def rules_contentOrEmpty : List (Pat × Rhs) := [
  (.term 92, .push [.any, .nt .backslash, .nt .rept, .nt .string2, .nt .content2]),
  (.term 91, .push [.any, .nt .c, .nt .rept, .nt .string2, .nt .content2]),
  (.term 40, .push [.any, .act .prepareCapture, .nt .block, .nt .rept, .nt .string2, .nt .content2]),
  (.term 94, .push [.any, .act .pushAssertBegin, .nt .rept, .nt .string2, .nt .content2]),
  (.term 36, .push [.any, .act .pushAssertEnd, .nt .rept, .nt .string2, .nt .content2]),
  (.set chars0, .push [.any, .act .pushCharacter, .nt .rept, .nt .string2, .nt .content2]),
  (.others, .push [.any, .act .pushCharacter, .nt .rept, .nt .string2, .nt .content2]),
  (.term 46, .push [.any, .act .pushCharacterAnything, .nt .rept, .nt .string2, .nt .content2]),
  (.term 41, .push [.act .pushEmpty]),
  (.set chars1, .reject)]

/-- Rules of the nonterminal `d` (/repo/include/ctre/pcre.hpp:278-286). -/
def rules_d : List (Pat × Rhs) := [
  (.term 105, .push [.any, .act .modeCaseInsensitive, .nt .modeSwitch2]),
  (.term 99, .push [.any, .act .modeCaseSensitive, .nt .modeSwitch2]),
  (.term 109, .push [.any, .act .modeMultiline, .nt .modeSwitch2]),
  (.term 115, .push [.any, .act .modeSingleline, .nt .modeSwitch2]),
  (.term 60, .push [.any, .nt .o]),
  (.term 58, .push [.any, .act .resetCapture, .nt .contentInCapture, .term 41]),
  (.term 62, .push [.any, .act .resetCapture, .act .startAtomic, .nt .contentInCapture, .act .makeAtomic, .term 41]),
  (.term 33, .push [.any, .act .resetCapture, .act .startLookaheadNegative, .nt .contentInCapture, .act .lookFinish, .term 41]),
  (.term 61, .push [.any, .act .resetCapture, .act .startLookaheadPositive, .nt .contentInCapture, .act .lookFinish, .term 41])]

/-- Rules of the nonterminal `e` (/repo/include/ctre/pcre.hpp:288-310). -/
def rules_e : List (Pat × Rhs) := [
  (.term 100, .push [.any, .act .classDigit]),
  (.term 104, .push [.any, .act .classHorizontalSpace]),
  (.term 72, .push [.any, .act .classNonHorizontalSpace]),
  (.term 86, .push [.any, .act .classNonVerticalSpace]),
  (.term 68, .push [.any, .act .classNondigit]),
  (.term 78, .push [.any, .act .classNonnewline]),
  (.term 83, .push [.any, .act .classNonspace]),
  (.term 87, .push [.any, .act .classNonword]),
  (.term 115, .push [.any, .act .classSpace]),
  (.term 118, .push [.any, .act .classVerticalSpace]),
  (.term 119, .push [.any, .act .classWord]),
  (.term 112, .push [.any, .term 123, .nt .propertyName, .term 125, .act .makeProperty]),
  (.term 80, .push [.any, .term 123, .nt .propertyName, .term 125, .act .makePropertyNegative]),
  (.term 117, .push [.any, .nt .k, .nt .rangeNT]),
  (.term 120, .push [.any, .nt .l, .nt .rangeNT]),
  (.set chars3, .push [.any, .act .pushCharacter, .nt .rangeNT]),
  (.term 97, .push [.any, .act .pushCharacterAlarm, .nt .rangeNT]),
  (.term 101, .push [.any, .act .pushCharacterEscape, .nt .rangeNT]),
  (.term 102, .push [.any, .act .pushCharacterFormfeed, .nt .rangeNT]),
  (.term 110, .push [.any, .act .pushCharacterNewline, .nt .rangeNT]),
  (.term 48, .push [.any, .act .pushCharacterNull, .nt .rangeNT]),
  (.term 114, .push [.any, .act .pushCharacterReturnCarriage, .nt .rangeNT]),
  (.term 116, .push [.any, .act .pushCharacterTab, .nt .rangeNT])]

/-- Rules of the nonterminal `f` (/repo/include/ctre/pcre.hpp:312-334). -/
def rules_f : List (Pat × Rhs) := [
  (.term 100, .push [.any, .act .classDigit]),
  (.term 104, .push [.any, .act .classHorizontalSpace]),
  (.term 72, .push [.any, .act .classNonHorizontalSpace]),
  (.term 86, .push [.any, .act .classNonVerticalSpace]),
  (.term 68, .push [.any, .act .classNondigit]),
  (.term 78, .push [.any, .act .classNonnewline]),
  (.term 83, .push [.any, .act .classNonspace]),
  (.term 87, .push [.any, .act .classNonword]),
  (.term 115, .push [.any, .act .classSpace]),
  (.term 118, .push [.any, .act .classVerticalSpace]),
  (.term 119, .push [.any, .act .classWord]),
  (.term 112, .push [.any, .term 123, .nt .propertyName, .term 125, .act .makeProperty]),
  (.term 80, .push [.any, .term 123, .nt .propertyName, .term 125, .act .makePropertyNegative]),
  (.term 117, .push [.any, .nt .k, .nt .rangeNT]),
  (.term 120, .push [.any, .nt .l, .nt .rangeNT]),
  (.set chars3, .push [.any, .act .pushCharacter, .nt .rangeNT]),
  (.term 97, .push [.any, .act .pushCharacterAlarm, .nt .rangeNT]),
  (.term 101, .push [.any, .act .pushCharacterEscape, .nt .rangeNT]),
  (.term 102, .push [.any, .act .pushCharacterFormfeed, .nt .rangeNT]),
  (.term 110, .push [.any, .act .pushCharacterNewline, .nt .rangeNT]),
  (.term 48, .push [.any, .act .pushCharacterNull, .nt .rangeNT]),
  (.term 114, .push [.any, .act .pushCharacterReturnCarriage, .nt .rangeNT]),
  (.term 116, .push [.any, .act .pushCharacterTab, .nt .rangeNT])]

/-- Rules of the nonterminal `g` (/repo/include/ctre/pcre.hpp:336-337). -/
def rules_g : List (Pat × Rhs) := [
  (.term 115, .push [.any, .term 99, .term 105, .term 105, .act .classNamedAscii]),
  (.term 108, .push [.any, .nt .p])]

/-- Rules of the nonterminal `h` (/repo/include/ctre/pcre.hpp:339-340). -/
def rules_h : List (Pat × Rhs) := [
  (.term 114, .push [.any, .term 105, .term 110, .term 116, .act .classNamedPrint]),
  (.term 117, .push [.any, .term 110, .term 99, .term 116, .act .classNamedPunct])]

/-- Rules of the nonterminal `hexdec_repeat` (/repo/include/ctre/pcre.hpp:342-343). -/
def rules_hexdecRepeat : List (Pat × Rhs) := [
  (.term 125, .eps),
  (.set chars11, .push [.any, .act .pushHexdec, .nt .hexdecRepeat])]

/-- Rules of the nonterminal `i` (/repo/include/ctre/pcre.hpp:345-356). -/
def rules_i : List (Pat × Rhs) := [
  (.term 94, .push [.any, .nt .classNamedName, .act .negateClassNamed, .term 58, .term 93]),
  (.term 120, .push [.any, .term 100, .term 105, .term 103, .term 105, .term 116, .act .classNamedXdigit, .term 58, .term 93]),
  (.term 100, .push [.any, .term 105, .term 103, .term 105, .term 116, .act .classNamedDigit, .term 58, .term 93]),
  (.term 98, .push [.any, .term 108, .term 97, .term 110, .term 107, .act .classNamedBlank, .term 58, .term 93]),
  (.term 99, .push [.any, .term 110, .term 116, .term 114, .term 108, .act .classNamedCntrl, .term 58, .term 93]),
  (.term 119, .push [.any, .term 111, .term 114, .term 100, .act .classNamedWord, .term 58, .term 93]),
  (.term 108, .push [.any, .term 111, .term 119, .term 101, .term 114, .act .classNamedLower, .term 58, .term 93]),
  (.term 115, .push [.any, .term 112, .term 97, .term 99, .term 101, .act .classNamedSpace, .term 58, .term 93]),
  (.term 117, .push [.any, .term 112, .term 112, .term 101, .term 114, .act .classNamedUpper, .term 58, .term 93]),
  (.term 103, .push [.any, .term 114, .term 97, .term 112, .term 104, .act .classNamedGraph, .term 58, .term 93]),
  (.term 97, .push [.any, .nt .g, .term 58, .term 93]),
  (.term 112, .push [.any, .nt .h, .term 58, .term 93])]

/-- Rules of the nonterminal `j` (/repo/include/ctre/pcre.hpp:358-361). -/
def rules_j : List (Pat × Rhs) := [
  (.term 92, .push [.any, .nt .backslashRange, .act .makeRange]),
  (.set chars12, .push [.any, .act .pushCharacter, .act .makeRange]),
  (.others, .push [.any, .act .pushCharacter, .act .makeRange]),
  (.set chars13, .reject)]

/-- Rules of the nonterminal `k` (/repo/include/ctre/pcre.hpp:363-364). -/
def rules_k : List (Pat × Rhs) := [
  (.term 123, .push [.act .createHexdec, .any, .set chars11, .act .pushHexdec, .nt .hexdecRepeat, .term 125, .act .finishHexdec]),
  (.set chars11, .push [.act .createHexdec, .any, .act .pushHexdec, .set chars11, .act .pushHexdec, .set chars11, .act .pushHexdec, .set chars11, .act .pushHexdec, .act .finishHexdec])]

/-- Rules of the nonterminal `l` (/repo/include/ctre/pcre.hpp:366-367). -/
def rules_l : List (Pat × Rhs) := [
  (.term 123, .push [.act .createHexdec, .any, .set chars11, .act .pushHexdec, .nt .hexdecRepeat, .term 125, .act .finishHexdec]),
  (.set chars11, .push [.act .createHexdec, .any, .act .pushHexdec, .set chars11, .act .pushHexdec, .act .finishHexdec])]

/-- Rules of the nonterminal `m` (/repo/include/ctre/pcre.hpp:369-371). -/
def rules_m : List (Pat × Rhs) := [
  (.set chars14, .push [.any, .act .createNumber, .nt .number2, .term 125, .act .makeBackReference]),
  (.term 45, .push [.any, .nt .number, .term 125, .act .makeRelativeBackReference]),
  (.set chars7, .push [.any, .act .pushName, .nt .blockName2, .term 125, .act .makeBackReference])]

/-- Rules of the nonterminal `mod` (/repo/include/ctre/pcre.hpp:373-378). -/
def rules_modr : List (Pat × Rhs) := [
  (.set chars15, .eps),
  (.eps, .eps),
  (.others, .eps),
  (.term 63, .push [.any, .act .makeLazy]),
  (.term 43, .push [.any, .act .makePossessive]),
  (.set chars16, .reject)]

/-- Rules of the nonterminal `mode_switch2` (/repo/include/ctre/pcre.hpp:380-384). -/
def rules_modeSwitch2 : List (Pat × Rhs) := [
  (.term 105, .push [.any, .act .modeCaseInsensitive, .nt .modeSwitch2]),
  (.term 99, .push [.any, .act .modeCaseSensitive, .nt .modeSwitch2]),
  (.term 109, .push [.any, .act .modeMultiline, .nt .modeSwitch2]),
  (.term 115, .push [.any, .act .modeSingleline, .nt .modeSwitch2]),
  (.term 41, .push [.any])]

/-- Rules of the nonterminal `n` (/repo/include/ctre/pcre.hpp:386-387). -/
def rules_n : List (Pat × Rhs) := [
  (.set chars14, .push [.nt .number, .act .repeatAb, .term 125, .nt .modr]),
  (.term 125, .push [.act .repeatAtLeast, .any, .nt .modr])]

/-- Rules of the nonterminal `number2` (/repo/include/ctre/pcre.hpp:389-390). -/
def rules_number2 : List (Pat × Rhs) := [
  (.set chars17, .eps),
  (.set chars14, .push [.any, .act .pushNumber, .nt .number2])]

/-- Rules of the nonterminal `number` (/repo/include/ctre/pcre.hpp:392-392). -/
def rules_number : List (Pat × Rhs) := [
  (.set chars14, .push [.any, .act .createNumber, .nt .number2])]

/-- Rules of the nonterminal `o` (/repo/include/ctre/pcre.hpp:394-396). -/
def rules_o : List (Pat × Rhs) := [
  (.set chars7, .push [.nt .blockName, .term 62, .nt .contentInCapture, .act .makeCaptureWithName, .term 41]),
  (.term 33, .push [.any, .act .resetCapture, .act .startLookbehindNegative, .nt .contentInCapture, .act .lookFinish, .term 41]),
  (.term 61, .push [.any, .act .resetCapture, .act .startLookbehindPositive, .nt .contentInCapture, .act .lookFinish, .term 41])]

/-- Rules of the nonterminal `opt_content` (/repo/include/ctre/pcre.hpp:398-407). -/
def rules_optContent : List (Pat × Rhs) := [
  (.term 92, .push [.any, .nt .backslash, .nt .rept, .nt .string2, .nt .content2]),
  (.term 91, .push [.any, .nt .c, .nt .rept, .nt .string2, .nt .content2]),
  (.term 40, .push [.any, .act .prepareCapture, .nt .block, .nt .rept, .nt .string2, .nt .content2]),
  (.term 94, .push [.any, .act .pushAssertBegin, .nt .rept, .nt .string2, .nt .content2]),
  (.term 36, .push [.any, .act .pushAssertEnd, .nt .rept, .nt .string2, .nt .content2]),
  (.set chars0, .push [.any, .act .pushCharacter, .nt .rept, .nt .string2, .nt .content2]),
  (.others, .push [.any, .act .pushCharacter, .nt .rept, .nt .string2, .nt .content2]),
  (.term 46, .push [.any, .act .pushCharacterAnything, .nt .rept, .nt .string2, .nt .content2]),
  (.eps, .push [.act .pushEmpty]),
  (.set chars18, .reject)]

/-- Rules of the nonterminal `p` (/repo/include/ctre/pcre.hpp:409-410). -/
def rules_p : List (Pat × Rhs) := [
  (.term 112, .push [.any, .term 104, .term 97, .act .classNamedAlpha]),
  (.term 110, .push [.any, .term 117, .term 109, .act .classNamedAlnum])]

/-- Rules of the nonterminal `property_name2` (/repo/include/ctre/pcre.hpp:412-414). -/
def rules_propertyName2 : List (Pat × Rhs) := [
  (.term 125, .eps),
  (.term 61, .push [.any, .nt .propertyValue]),
  (.set chars19, .push [.any, .act .pushPropertyName, .nt .propertyName2])]

/-- Rules of the nonterminal `property_name` (/repo/include/ctre/pcre.hpp:416-416). -/
def rules_propertyName : List (Pat × Rhs) := [
  (.set chars19, .push [.any, .act .pushPropertyName, .nt .propertyName2])]

/-- Rules of the nonterminal `property_value2` (/repo/include/ctre/pcre.hpp:418-419). -/
def rules_propertyValue2 : List (Pat × Rhs) := [
  (.term 125, .eps),
  (.set chars19, .push [.any, .act .pushPropertyValue, .nt .propertyValue2])]

/-- Rules of the nonterminal `property_value` (/repo/include/ctre/pcre.hpp:421-421). -/
def rules_propertyValue : List (Pat × Rhs) := [
  (.set chars19, .push [.any, .act .pushPropertyValue, .nt .propertyValue2])]

/-- Rules of the nonterminal `range` (/repo/include/ctre/pcre.hpp:423-426). -/
def rules_rangeNT : List (Pat × Rhs) := [
  (.set chars20, .eps),
  (.eps, .eps),
  (.others, .eps),
  (.term 45, .push [.any, .nt .j])]

/-- Rules of the nonterminal `repeat` (/repo/include/ctre/pcre.hpp:428-435). -/
def rules_rept : List (Pat × Rhs) := [
  (.set chars15, .eps),
  (.eps, .eps),
  (.others, .eps),
  (.term 63, .push [.any, .act .makeOptional, .nt .modr]),
  (.term 123, .push [.any, .nt .number, .nt .b]),
  (.term 43, .push [.any, .act .repeatPlus, .nt .modr]),
  (.term 42, .push [.any, .act .repeatStar, .nt .modr]),
  (.term 125, .reject)]

/-- Rules of the nonterminal `s` (/repo/include/ctre/pcre.hpp:145-155). -/
def rules_s : List (Pat × Rhs) := [
  (.term 92, .push [.any, .nt .backslash, .nt .rept, .nt .string2, .nt .content2]),
  (.term 91, .push [.any, .nt .c, .nt .rept, .nt .string2, .nt .content2]),
  (.term 40, .push [.any, .act .prepareCapture, .nt .block, .nt .rept, .nt .string2, .nt .content2]),
  (.term 94, .push [.any, .act .pushAssertBegin, .nt .rept, .nt .string2, .nt .content2]),
  (.term 36, .push [.any, .act .pushAssertEnd, .nt .rept, .nt .string2, .nt .content2]),
  (.set chars0, .push [.any, .act .pushCharacter, .nt .rept, .nt .string2, .nt .content2]),
  (.others, .push [.any, .act .pushCharacter, .nt .rept, .nt .string2, .nt .content2]),
  (.term 46, .push [.any, .act .pushCharacterAnything, .nt .rept, .nt .string2, .nt .content2]),
  (.term 124, .push [.any, .act .pushEmpty, .nt .optContent, .act .makeAlternate]),
  (.eps, .push [.act .pushEmpty]),
  (.set chars21, .reject)]

/-- Rules of the nonterminal `set2a` (/repo/include/ctre/pcre.hpp:437-442). -/
def rules_set2a : List (Pat × Rhs) := [
  (.term 91, .push [.any, .term 58, .nt .i, .nt .rangeNT, .act .setStart, .nt .set2b]),
  (.term 92, .push [.any, .nt .f, .act .setStart, .nt .set2b]),
  (.set chars12, .push [.any, .act .pushCharacter, .nt .rangeNT, .act .setStart, .nt .set2b]),
  (.others, .push [.any, .act .pushCharacter, .nt .rangeNT, .act .setStart, .nt .set2b]),
  (.term 93, .push [.act .setEmpty]),
  (.term 45, .reject)]

/-- Rules of the nonterminal `set2b` (/repo/include/ctre/pcre.hpp:444-449). -/
def rules_set2b : List (Pat × Rhs) := [
  (.term 93, .eps),
  (.term 91, .push [.any, .term 58, .nt .i, .nt .rangeNT, .act .setCombine, .nt .set2b]),
  (.term 92, .push [.any, .nt .f, .act .setCombine, .nt .set2b]),
  (.set chars12, .push [.any, .act .pushCharacter, .nt .rangeNT, .act .setCombine, .nt .set2b]),
  (.others, .push [.any, .act .pushCharacter, .nt .rangeNT, .act .setCombine, .nt .set2b]),
  (.term 45, .reject)]

/-- Rules of the nonterminal `string2` (/repo/include/ctre/pcre.hpp:451-461). -/
def rules_string2 : List (Pat × Rhs) := [
  (.set chars22, .eps),
  (.eps, .eps),
  (.term 92, .push [.any, .nt .backslash, .nt .rept, .nt .string2, .act .makeSequence]),
  (.term 91, .push [.any, .nt .c, .nt .rept, .nt .string2, .act .makeSequence]),
  (.term 40, .push [.any, .act .prepareCapture, .nt .block, .nt .rept, .nt .string2, .act .makeSequence]),
  (.term 94, .push [.any, .act .pushAssertBegin, .nt .rept, .nt .string2, .act .makeSequence]),
  (.term 36, .push [.any, .act .pushAssertEnd, .nt .rept, .nt .string2, .act .makeSequence]),
  (.set chars0, .push [.any, .act .pushCharacter, .nt .rept, .nt .string2, .act .makeSequence]),
  (.others, .push [.any, .act .pushCharacter, .nt .rept, .nt .string2, .act .makeSequence]),
  (.term 46, .push [.any, .act .pushCharacterAnything, .nt .rept, .nt .string2, .act .makeSequence]),
  (.set chars10, .reject)]

/-- All rules of a nonterminal (/repo/include/ctre/pcre.hpp:145-461). -/
def rules : NT → List (Pat × Rhs)
  | .a => rules_a
  | .b => rules_b
  | .backslash => rules_backslash
  | .backslashRange => rules_backslashRange
  | .block => rules_block
  | .blockName2 => rules_blockName2
  | .blockName => rules_blockName
  | .c => rules_c
  | .classNamedName => rules_classNamedName
  | .content2 => rules_content2
  | .contentInCapture => rules_contentInCapture
  | .contentOrEmpty => rules_contentOrEmpty
  | .d => rules_d
  | .e => rules_e
  | .f => rules_f
  | .g => rules_g
  | .h => rules_h
  | .hexdecRepeat => rules_hexdecRepeat
  | .i => rules_i
  | .j => rules_j
  | .k => rules_k
  | .l => rules_l
  | .m => rules_m
  | .modr => rules_modr
  | .modeSwitch2 => rules_modeSwitch2
  | .n => rules_n
  | .number2 => rules_number2
  | .number => rules_number
  | .o => rules_o
  | .optContent => rules_optContent
  | .p => rules_p
  | .propertyName2 => rules_propertyName2
  | .propertyName => rules_propertyName
  | .propertyValue2 => rules_propertyValue2
  | .propertyValue => rules_propertyValue
  | .rangeNT => rules_rangeNT
  | .rept => rules_rept
  | .s => rules_s
  | .set2a => rules_set2a
  | .set2b => rules_set2b
  | .string2 => rules_string2

/-- Is the declared second parameter constructible from the current input symbol (`none` is
`ctll::epsilon`)?  (/repo/include/ctll/grammars.hpp:70-88) -/
def Pat.accepts : Pat → Option Nat → Bool
  | .term c, some v => c == v
  | .set l, some v => l.contains v
  | .others, some v => !notOthers.contains v
  | .eps, none => true
  | _, _ => false

/-- Overload resolution on a list of rules.  At most one rule of a nonterminal accepts a given
symbol (proved in `Verif.Props.Parser`), so taking the first one is not a choice.  `none`: the
fallback `rule(...) -> ctll::reject` (/repo/include/ctll/grammars.hpp:108). -/
def lookup (v : Option Nat) : List (Pat × Rhs) → Rhs
  | [] => .reject
  | (p, r) :: l => if p.accepts v then r else lookup v l

/-- `grammar::rule(Nonterminal, current_term)` (/repo/include/ctll/grammars.hpp:91-112,
/repo/include/ctre/pcre.hpp:145-461). -/
def rule (x : NT) (v : Option Nat) : Rhs := lookup v (rules x)

end Ctre.Parse

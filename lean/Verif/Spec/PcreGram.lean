import Verif.Model.Actions

/-
The grammar of patterns as written in /repo/include/ctre/pcre.gram, from which the tables of /repo/include/ctre/pcre.hpp
are generated.

This file is a line by line transcription (made by a script) of that file.  Characters are written as numbers, in order of
their codes.
-/
namespace Ctre.Parse

/-- Nonterminals of /repo/include/ctre/pcre.gram; `start` is `S`, `rept` is `repeat`. -/
inductive GNT where
  | start
  | optContent
  | content
  | contentInCapture
  | contentOrEmpty
  | content2
  | string
  | string2
  | stringInCapture
  | atomRepeat
  | atomRepeatInCapture
  | atom
  | atomInCapture
  | rept
  | mod
  | number
  | number2
  | preblock
  | block
  | blockName
  | blockName2
  | modeSwitch
  | modeSwitch2
  | characterClass
  | set
  | set2a
  | set2b
  | classNamed
  | classNamedName
  | setitem
  | setitem2
  | range
  | backslashRange
  | special
  | hexdecRepeat
  | backslashSet
  | backslash
  | propertyName
  | propertyName2
  | propertyValue
  | propertyValue2
  | character
  | characterInCapture
  | asserts
deriving Repr, DecidableEq

/-- `num` (/repo/include/ctre/pcre.gram:15). -/
def numSet : List Nat :=
  [48, 49, 50, 51, 52, 53, 54, 55, 56, 57]

/-- `alpha_characters` (/repo/include/ctre/pcre.gram:32). -/
def alphaCharactersSet : List Nat :=
  [65, 66, 67, 68, 69, 70, 71, 72, 73, 74, 75, 76, 77, 78, 79, 80, 81, 82, 83, 84, 85, 86, 87, 88, 89, 90, 95, 97,
    98, 99, 100, 101, 102, 103, 104, 105, 106, 107, 108, 109, 110, 111, 112, 113, 114, 115, 116, 117, 118, 119, 120,
    121, 122]

/-- `alphanum_characters` (/repo/include/ctre/pcre.gram:33). -/
def alphanumCharactersSet : List Nat :=
  [48, 49, 50, 51, 52, 53, 54, 55, 56, 57, 65, 66, 67, 68, 69, 70, 71, 72, 73, 74, 75, 76, 77, 78, 79, 80, 81, 82,
    83, 84, 85, 86, 87, 88, 89, 90, 95, 97, 98, 99, 100, 101, 102, 103, 104, 105, 106, 107, 108, 109, 110, 111, 112,
    113, 114, 115, 116, 117, 118, 119, 120, 121, 122]

/-- `nonspecial_characters` (/repo/include/ctre/pcre.gram:30). -/
def nonspecialCharactersSet : List Nat :=
  [33, 34, 44, 47, 48, 49, 50, 51, 52, 53, 54, 55, 56, 57, 58, 61, 65, 66, 67, 68, 69, 70, 71, 72, 73, 74, 75, 76,
    77, 78, 79, 80, 81, 82, 83, 84, 85, 86, 87, 88, 89, 90, 95, 97, 98, 99, 100, 101, 102, 103, 104, 105, 106, 107,
    108, 109, 110, 111, 112, 113, 114, 115, 116, 117, 118, 119, 120, 121, 122]

/-- `nonspecial_characters_in_class` (/repo/include/ctre/pcre.gram:31). -/
def nonspecialCharactersInClassSet : List Nat :=
  [33, 34, 36, 40, 41, 42, 43, 46, 47, 60, 61, 62, 63, 95, 123, 124, 125]

/-- `hexdec` (/repo/include/ctre/pcre.gram:28). -/
def hexdecSet : List Nat :=
  [48, 49, 50, 51, 52, 53, 54, 55, 56, 57, 65, 66, 67, 68, 69, 70, 97, 98, 99, 100, 101, 102]

/-- `escape_backreference` (/repo/include/ctre/pcre.gram:27). -/
def escapeBackreferenceSet : List Nat :=
  [49, 50, 51, 52, 53, 54, 55, 56, 57]

/-- `set_control_chars` (/repo/include/ctre/pcre.gram:34). -/
def setControlCharsSet : List Nat :=
  [45, 58, 93]

/-- Symbols on the right of a production: one character of a set, a character that is named nowhere in the file (`other`),
a nonterminal, a semantic action. -/
inductive GSym where
  | chars (l : List Nat)
  | other
  | nt (x : GNT)
  | act (a : Act)
deriving Repr, DecidableEq

/-- The productions; the number is the line of /repo/include/ctre/pcre.gram. -/
def prods : GNT → List (List GSym)
  | .start => [
    /- 37 -/ [.nt .content],
    /- 37 -/ [.act .pushEmpty],
    /- 37 -/ [.chars [124], .act .pushEmpty, .nt .optContent, .act .makeAlternate]]
  | .optContent => [
    /- 39 -/ [.act .pushEmpty],
    /- 39 -/ [.nt .content]]
  | .content => [
    /- 40 -/ [.nt .string, .nt .content2]]
  | .contentInCapture => [
    /- 41 -/ [.nt .stringInCapture, .nt .content2],
    /- 41 -/ [.act .pushEmpty],
    /- 42 -/ [.chars [124], .act .pushEmpty, .nt .contentOrEmpty, .act .makeAlternate]]
  | .contentOrEmpty => [
    /- 43 -/ [.nt .content],
    /- 43 -/ [.act .pushEmpty]]
  | .content2 => [
    /- 45 -/ [.chars [124], .nt .content, .act .makeAlternate],
    /- 45 -/ [.chars [124], .act .pushEmpty, .act .makeAlternate],
    /- 45 -/ []]
  | .string => [
    /- 47 -/ [.nt .atomRepeat, .nt .string2]]
  | .string2 => [
    /- 48 -/ [.nt .atomRepeat, .nt .string2, .act .makeSequence],
    /- 48 -/ []]
  | .stringInCapture => [
    /- 50 -/ [.nt .atomRepeatInCapture, .nt .string2]]
  | .atomRepeat => [
    /- 52 -/ [.nt .atom, .nt .rept]]
  | .atomRepeatInCapture => [
    /- 54 -/ [.nt .atomInCapture, .nt .rept]]
  | .atom => [
    /- 56 -/ [.nt .character],
    /- 56 -/ [.nt .asserts],
    /- 56 -/ [.nt .preblock],
    /- 56 -/ [.nt .characterClass]]
  | .atomInCapture => [
    /- 57 -/ [.nt .characterInCapture],
    /- 57 -/ [.nt .asserts],
    /- 57 -/ [.nt .preblock],
    /- 57 -/ [.nt .characterClass]]
  | .rept => [
    /- 59 -/ [],
    /- 59 -/ [.chars [43], .act .repeatPlus, .nt .mod],
    /- 59 -/ [.chars [42], .act .repeatStar, .nt .mod],
    /- 59 -/ [.chars [63], .act .makeOptional, .nt .mod],
    /- 60 -/ [.chars [123], .nt .number, .act .repeatExactly, .chars [125]],
    /- 61 -/ [.chars [123], .nt .number, .chars [44], .act .repeatAtLeast, .chars [125], .nt .mod],
    /- 62 -/ [.chars [123], .nt .number, .chars [44], .nt .number, .act .repeatAb, .chars [125], .nt .mod]]
  | .mod => [
    /- 64 -/ [],
    /- 64 -/ [.chars [63], .act .makeLazy],
    /- 64 -/ [.chars [43], .act .makePossessive]]
  | .number => [
    /- 66 -/ [.chars numSet, .act .createNumber, .nt .number2]]
  | .number2 => [
    /- 67 -/ [],
    /- 67 -/ [.chars numSet, .act .pushNumber, .nt .number2]]
  | .preblock => [
    /- 69 -/ [.chars [40], .act .prepareCapture, .nt .block]]
  | .block => [
    /- 71 -/ [.nt .contentInCapture, .act .makeCapture, .chars [41]],
    /- 72 -/ [.chars [63], .nt .modeSwitch],
    /- 73 -/ [.chars [63], .chars [62], .act .resetCapture, .act .startAtomic, .nt .contentInCapture, .act .makeAtomic,
      .chars [41]],
    /- 74 -/ [.chars [63], .chars [61], .act .resetCapture, .act .startLookaheadPositive, .nt .contentInCapture,
      .act .lookFinish, .chars [41]],
    /- 75 -/ [.chars [63], .chars [60], .chars [61], .act .resetCapture, .act .startLookbehindPositive,
      .nt .contentInCapture, .act .lookFinish, .chars [41]],
    /- 76 -/ [.chars [63], .chars [33], .act .resetCapture, .act .startLookaheadNegative, .nt .contentInCapture,
      .act .lookFinish, .chars [41]],
    /- 77 -/ [.chars [63], .chars [60], .chars [33], .act .resetCapture, .act .startLookbehindNegative,
      .nt .contentInCapture, .act .lookFinish, .chars [41]],
    /- 78 -/ [.chars [63], .chars [58], .act .resetCapture, .nt .contentInCapture, .chars [41]],
    /- 79 -/ [.chars [63], .chars [60], .nt .blockName, .chars [62], .nt .contentInCapture, .act .makeCaptureWithName,
      .chars [41]]]
  | .blockName => [
    /- 81 -/ [.chars alphaCharactersSet, .act .pushName, .nt .blockName2]]
  | .blockName2 => [
    /- 82 -/ [.chars alphanumCharactersSet, .act .pushName, .nt .blockName2],
    /- 82 -/ []]
  | .modeSwitch => [
    /- 84 -/ [.chars [105], .act .modeCaseInsensitive, .nt .modeSwitch2],
    /- 85 -/ [.chars [99], .act .modeCaseSensitive, .nt .modeSwitch2],
    /- 86 -/ [.chars [115], .act .modeSingleline, .nt .modeSwitch2],
    /- 87 -/ [.chars [109], .act .modeMultiline, .nt .modeSwitch2]]
  | .modeSwitch2 => [
    /- 88 -/ [.chars [41]],
    /- 88 -/ [.nt .modeSwitch]]
  | .characterClass => [
    /- 90 -/ [.chars [91], .nt .set, .act .setMake, .chars [93]],
    /- 90 -/ [.chars [91], .chars [94], .nt .set2a, .act .setMakeNegative, .chars [93]]]
  | .set => [
    /- 91 -/ [.nt .setitem, .act .setStart, .nt .set2b]]
  | .set2a => [
    /- 92 -/ [.nt .setitem2, .act .setStart, .nt .set2b],
    /- 92 -/ [.act .setEmpty]]
  | .set2b => [
    /- 93 -/ [.nt .setitem2, .act .setCombine, .nt .set2b],
    /- 93 -/ []]
  | .classNamed => [
    /- 95 -/ [.chars [91], .chars [58], .nt .classNamedName, .chars [58], .chars [93]],
    /- 95 -/ [.chars [91], .chars [58], .chars [94], .nt .classNamedName, .act .negateClassNamed, .chars [58], .chars [93]]]
  | .classNamedName => [
    /- 96 -/ [.chars [97], .chars [108], .chars [110], .chars [117], .chars [109], .act .classNamedAlnum],
    /- 97 -/ [.chars [97], .chars [108], .chars [112], .chars [104], .chars [97], .act .classNamedAlpha],
    /- 98 -/ [.chars [97], .chars [115], .chars [99], .chars [105], .chars [105], .act .classNamedAscii],
    /- 99 -/ [.chars [98], .chars [108], .chars [97], .chars [110], .chars [107], .act .classNamedBlank],
    /- 100 -/ [.chars [99], .chars [110], .chars [116], .chars [114], .chars [108], .act .classNamedCntrl],
    /- 101 -/ [.chars [100], .chars [105], .chars [103], .chars [105], .chars [116], .act .classNamedDigit],
    /- 102 -/ [.chars [103], .chars [114], .chars [97], .chars [112], .chars [104], .act .classNamedGraph],
    /- 103 -/ [.chars [108], .chars [111], .chars [119], .chars [101], .chars [114], .act .classNamedLower],
    /- 104 -/ [.chars [112], .chars [114], .chars [105], .chars [110], .chars [116], .act .classNamedPrint],
    /- 105 -/ [.chars [112], .chars [117], .chars [110], .chars [99], .chars [116], .act .classNamedPunct],
    /- 106 -/ [.chars [115], .chars [112], .chars [97], .chars [99], .chars [101], .act .classNamedSpace],
    /- 107 -/ [.chars [117], .chars [112], .chars [112], .chars [101], .chars [114], .act .classNamedUpper],
    /- 108 -/ [.chars [119], .chars [111], .chars [114], .chars [100], .act .classNamedWord],
    /- 109 -/ [.chars [120], .chars [100], .chars [105], .chars [103], .chars [105], .chars [116], .act .classNamedXdigit]]
  | .setitem => [
    /- 112 -/ [.other, .act .pushCharacter, .nt .range],
    /- 112 -/ [.chars nonspecialCharactersSet, .act .pushCharacter, .nt .range],
    /- 112 -/ [.chars nonspecialCharactersInClassSet, .act .pushCharacter, .nt .range],
    /- 113 -/ [.nt .classNamed, .nt .range],
    /- 114 -/ [.chars [92], .nt .backslashRange, .nt .range],
    /- 114 -/ [.chars [92], .nt .backslashSet]]
  | .setitem2 => [
    /- 116 -/ [.other, .act .pushCharacter, .nt .range],
    /- 116 -/ [.chars nonspecialCharactersSet, .act .pushCharacter, .nt .range],
    /- 116 -/ [.chars nonspecialCharactersInClassSet, .act .pushCharacter, .nt .range],
    /- 117 -/ [.chars [94], .act .pushCharacter, .nt .range],
    /- 118 -/ [.nt .classNamed, .nt .range],
    /- 119 -/ [.chars [92], .nt .backslashRange, .nt .range],
    /- 119 -/ [.chars [92], .nt .backslashSet]]
  | .range => [
    /- 122 -/ [],
    /- 123 -/ [.chars [45], .other, .act .pushCharacter, .act .makeRange],
    /- 123 -/ [.chars [45], .chars nonspecialCharactersSet, .act .pushCharacter, .act .makeRange],
    /- 124 -/ [.chars [45], .chars [92], .nt .backslashRange, .act .makeRange],
    /- 124 -/ [.chars [45], .chars nonspecialCharactersInClassSet, .act .pushCharacter, .act .makeRange],
    /- 125 -/ [.chars [45], .chars [94], .act .pushCharacter, .act .makeRange]]
  | .backslashRange => [
    /- 128 -/ [.nt .special, .act .pushCharacter],
    /- 133 -/ [.chars [117], .act .createHexdec, .chars hexdecSet, .act .pushHexdec, .chars hexdecSet, .act .pushHexdec,
      .chars hexdecSet, .act .pushHexdec, .chars hexdecSet, .act .pushHexdec, .act .finishHexdec],
    /- 134 -/ [.chars [117], .act .createHexdec, .chars [123], .chars hexdecSet, .act .pushHexdec, .nt .hexdecRepeat,
      .chars [125], .act .finishHexdec],
    /- 135 -/ [.chars [120], .act .createHexdec, .chars hexdecSet, .act .pushHexdec, .chars hexdecSet, .act .pushHexdec,
      .act .finishHexdec],
    /- 136 -/ [.chars [120], .act .createHexdec, .chars [123], .chars hexdecSet, .act .pushHexdec, .nt .hexdecRepeat,
      .chars [125], .act .finishHexdec],
    /- 137 -/ [.chars [110], .act .pushCharacterNewline],
    /- 138 -/ [.chars [116], .act .pushCharacterTab],
    /- 139 -/ [.chars [114], .act .pushCharacterReturnCarriage],
    /- 140 -/ [.chars [48], .act .pushCharacterNull],
    /- 141 -/ [.chars [97], .act .pushCharacterAlarm],
    /- 142 -/ [.chars [101], .act .pushCharacterEscape],
    /- 143 -/ [.chars [102], .act .pushCharacterFormfeed],
    /- 144 -/ [.chars [45], .act .pushCharacter],
    /- 145 -/ [.chars [34], .act .pushCharacter],
    /- 146 -/ [.chars [60], .act .pushCharacter],
    /- 147 -/ [.chars [62], .act .pushCharacter]]
  | .special => [
    /- 129 -/ [.chars [46]],
    /- 129 -/ [.chars [91]],
    /- 129 -/ [.chars [93]],
    /- 129 -/ [.chars [123]],
    /- 129 -/ [.chars [125]],
    /- 129 -/ [.chars [40]],
    /- 129 -/ [.chars [41]],
    /- 129 -/ [.chars [92]],
    /- 129 -/ [.chars [42]],
    /- 129 -/ [.chars [43]],
    /- 129 -/ [.chars [63]],
    /- 129 -/ [.chars [124]],
    /- 129 -/ [.chars [94]],
    /- 129 -/ [.chars [36]],
    /- 129 -/ [.chars [45]],
    /- 129 -/ [.chars [47]]]
  | .hexdecRepeat => [
    /- 131 -/ [.chars hexdecSet, .act .pushHexdec, .nt .hexdecRepeat],
    /- 131 -/ []]
  | .backslashSet => [
    /- 150 -/ [.chars [100], .act .classDigit],
    /- 150 -/ [.chars [68], .act .classNondigit],
    /- 151 -/ [.chars [119], .act .classWord],
    /- 151 -/ [.chars [87], .act .classNonword],
    /- 152 -/ [.chars [78], .act .classNonnewline],
    /- 153 -/ [.chars [115], .act .classSpace],
    /- 153 -/ [.chars [83], .act .classNonspace],
    /- 154 -/ [.chars [118], .act .classVerticalSpace],
    /- 154 -/ [.chars [86], .act .classNonVerticalSpace],
    /- 155 -/ [.chars [104], .act .classHorizontalSpace],
    /- 155 -/ [.chars [72], .act .classNonHorizontalSpace],
    /- 156 -/ [.chars [112], .chars [123], .nt .propertyName, .chars [125], .act .makeProperty],
    /- 157 -/ [.chars [80], .chars [123], .nt .propertyName, .chars [125], .act .makePropertyNegative]]
  | .backslash => [
    /- 160 -/ [.chars [65], .act .pushAssertSubjectBegin],
    /- 161 -/ [.chars [122], .act .pushAssertSubjectEnd],
    /- 162 -/ [.chars [90], .act .pushAssertSubjectEndWithLineend],
    /- 163 -/ [.chars [98], .act .pushWordBoundary],
    /- 164 -/ [.chars [66], .act .pushNotWordBoundary],
    /- 176 -/ [.nt .backslashRange],
    /- 176 -/ [.nt .backslashSet],
    /- 178 -/ [.chars [103], .chars [123], .chars [45], .nt .number, .chars [125], .act .makeRelativeBackReference],
    /- 179 -/ [.chars [103], .chars [123], .nt .number, .chars [125], .act .makeBackReference],
    /- 180 -/ [.chars [103], .chars [123], .nt .blockName, .chars [125], .act .makeBackReference],
    /- 181 -/ [.chars escapeBackreferenceSet, .act .createNumber, .act .makeBackReference]]
  | .propertyName => [
    /- 166 -/ [.chars alphanumCharactersSet, .act .pushPropertyName, .nt .propertyName2],
    /- 167 -/ [.chars [46], .act .pushPropertyName, .nt .propertyName2]]
  | .propertyName2 => [
    /- 168 -/ [.chars alphanumCharactersSet, .act .pushPropertyName, .nt .propertyName2],
    /- 168 -/ [],
    /- 168 -/ [.chars [61], .nt .propertyValue],
    /- 169 -/ [.chars [46], .act .pushPropertyName, .nt .propertyName2],
    /- 169 -/ [],
    /- 169 -/ [.chars [61], .nt .propertyValue]]
  | .propertyValue => [
    /- 171 -/ [.chars alphanumCharactersSet, .act .pushPropertyValue, .nt .propertyValue2],
    /- 172 -/ [.chars [46], .act .pushPropertyValue, .nt .propertyValue2]]
  | .propertyValue2 => [
    /- 173 -/ [.chars alphanumCharactersSet, .act .pushPropertyValue, .nt .propertyValue2],
    /- 173 -/ [],
    /- 174 -/ [.chars [46], .act .pushPropertyValue, .nt .propertyValue2],
    /- 174 -/ []]
  | .character => [
    /- 183 -/ [.other, .act .pushCharacter],
    /- 183 -/ [.chars nonspecialCharactersSet, .act .pushCharacter],
    /- 183 -/ [.chars setControlCharsSet, .act .pushCharacter],
    /- 183 -/ [.chars [46], .act .pushCharacterAnything],
    /- 183 -/ [.chars [92], .nt .backslash],
    /- 183 -/ [.chars [60], .act .pushCharacter],
    /- 183 -/ [.chars [62], .act .pushCharacter]]
  | .characterInCapture => [
    /- 185 -/ [.nt .character]]
  | .asserts => [
    /- 187 -/ [.chars [94], .act .pushAssertBegin],
    /- 187 -/ [.chars [36], .act .pushAssertEnd]]

def allGNT : List GNT := [.start, .optContent, .content, .contentInCapture, .contentOrEmpty, .content2, .string, .string2, .stringInCapture,
  .atomRepeat, .atomRepeatInCapture, .atom, .atomInCapture, .rept, .mod, .number, .number2, .preblock, .block,
  .blockName, .blockName2, .modeSwitch, .modeSwitch2, .characterClass, .set, .set2a, .set2b, .classNamed,
  .classNamedName, .setitem, .setitem2, .range, .backslashRange, .special, .hexdecRepeat, .backslashSet, .backslash,
  .propertyName, .propertyName2, .propertyValue, .propertyValue2, .character, .characterInCapture, .asserts]

/-- The characters named by a symbol. -/
def GSym.named : GSym → List Nat
  | .chars l => l
  | _ => []

/-- The characters named in the file. -/
def named : List Nat := allGNT.flatMap fun x => (prods x).flatMap fun p => p.flatMap GSym.named

/-- What happens while a pattern is read: a character is read, an action is performed. -/
inductive Event where
  | ch (v : Nat)
  | act (a : Act)
deriving Repr, DecidableEq

/-- Leftmost derivations: the list of symbols yields the list of events. -/
inductive Derives : List GSym → List Event → Prop
  | nil : Derives [] []
  | chars {l : List Nat} {v : Nat} {σ : List GSym} {y : List Event} : v ∈ l → Derives σ y →
      Derives (.chars l :: σ) (.ch v :: y)
  | other {v : Nat} {σ : List GSym} {y : List Event} : v ∉ named → Derives σ y → Derives (.other :: σ) (.ch v :: y)
  | act {a : Act} {σ : List GSym} {y : List Event} : Derives σ y → Derives (.act a :: σ) (.act a :: y)
  | nt {x : GNT} {p σ : List GSym} {y : List Event} : p ∈ prods x → Derives (p ++ σ) y → Derives (.nt x :: σ) y

/-- The characters read. -/
def text : List Event → List Nat
  | [] => []
  | .ch v :: y => v :: text y
  | .act _ :: y => text y

/-- Perform the actions in order; an action sees the last character read. -/
def perform (P : PropTable) : Option Nat → Ctx → List Event → ARes
  | _, c, [] => .ok c
  | _, c, .ch v :: y => perform P (some v) c y
  | prev, c, .act a :: y =>
    match apply P prev c a with
    | .ok c' => perform P prev c' y
    | .reject => .reject
    | .ill => .ill

end Ctre.Parse

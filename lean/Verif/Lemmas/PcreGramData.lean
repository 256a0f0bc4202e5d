import Verif.Spec.PcreGram
import Verif.Lemmas.ParserFuel

/-
Data for the comparison of the tables with the grammar file (computed by a script, checked in `Lemmas/PcreGram.lean`): what
the nonterminals of the tables stand for, with which characters they can begin and by which they can be followed.  The
number 0 stands for all characters that the grammar does not name.
-/
namespace Ctre.Parse

/-- The alternatives a nonterminal of the tables stands for. -/
def mean : NT → List (List GSym)
  | .a => [
    [.act .pushEmpty, .act .makeAlternate],
    [.nt .content, .act .makeAlternate]]
  | .b => [
    [.act .repeatExactly, .chars [125]],
    [.chars [44], .act .repeatAtLeast, .chars [125], .nt .mod],
    [.chars [44], .nt .number, .act .repeatAb, .chars [125], .nt .mod]]
  | .backslash => [
    [.nt .backslash]]
  | .backslashRange => [
    [.nt .backslashRange]]
  | .block => [
    [.nt .block]]
  | .blockName => [
    [.nt .blockName]]
  | .blockName2 => [
    [.nt .blockName2]]
  | .c => [
    [.nt .set, .act .setMake, .chars [93]],
    [.chars [94], .nt .set2a, .act .setMakeNegative, .chars [93]]]
  | .classNamedName => [
    [.nt .classNamedName]]
  | .content2 => [
    [.nt .content2]]
  | .contentInCapture => [
    [.nt .contentInCapture]]
  | .contentOrEmpty => [
    [.nt .contentOrEmpty]]
  | .d => [
    [.nt .modeSwitch],
    [.chars [33], .act .resetCapture, .act .startLookaheadNegative, .nt .contentInCapture, .act .lookFinish,
      .chars [41]],
    [.chars [58], .act .resetCapture, .nt .contentInCapture, .chars [41]],
    [.chars [60], .nt .blockName, .chars [62], .nt .contentInCapture, .act .makeCaptureWithName, .chars [41]],
    [.chars [60], .chars [33], .act .resetCapture, .act .startLookbehindNegative, .nt .contentInCapture,
      .act .lookFinish, .chars [41]],
    [.chars [60], .chars [61], .act .resetCapture, .act .startLookbehindPositive, .nt .contentInCapture,
      .act .lookFinish, .chars [41]],
    [.chars [61], .act .resetCapture, .act .startLookaheadPositive, .nt .contentInCapture, .act .lookFinish,
      .chars [41]],
    [.chars [62], .act .resetCapture, .act .startAtomic, .nt .contentInCapture, .act .makeAtomic, .chars [41]]]
  | .e => [
    [.nt .backslashRange, .nt .range],
    [.nt .backslashSet]]
  | .f => [
    [.nt .backslashRange, .nt .range],
    [.nt .backslashSet]]
  | .g => [
    [.chars [108], .chars [110], .chars [117], .chars [109], .act .classNamedAlnum],
    [.chars [108], .chars [112], .chars [104], .chars [97], .act .classNamedAlpha],
    [.chars [115], .chars [99], .chars [105], .chars [105], .act .classNamedAscii]]
  | .h => [
    [.chars [114], .chars [105], .chars [110], .chars [116], .act .classNamedPrint],
    [.chars [117], .chars [110], .chars [99], .chars [116], .act .classNamedPunct]]
  | .hexdecRepeat => [
    [.nt .hexdecRepeat]]
  | .i => [
    [.nt .classNamedName, .chars [58], .chars [93]],
    [.chars [94], .nt .classNamedName, .act .negateClassNamed, .chars [58], .chars [93]]]
  | .j => [
    [.other, .act .pushCharacter, .act .makeRange],
    [.chars nonspecialCharactersInClassSet, .act .pushCharacter, .act .makeRange],
    [.chars nonspecialCharactersSet, .act .pushCharacter, .act .makeRange],
    [.chars [92], .nt .backslashRange, .act .makeRange],
    [.chars [94], .act .pushCharacter, .act .makeRange]]
  | .k => [
    [.act .createHexdec, .chars [123], .chars hexdecSet, .act .pushHexdec, .nt .hexdecRepeat, .chars [125],
      .act .finishHexdec],
    [.act .createHexdec, .chars hexdecSet, .act .pushHexdec, .chars hexdecSet, .act .pushHexdec, .chars hexdecSet,
      .act .pushHexdec, .chars hexdecSet, .act .pushHexdec, .act .finishHexdec]]
  | .l => [
    [.act .createHexdec, .chars [123], .chars hexdecSet, .act .pushHexdec, .nt .hexdecRepeat, .chars [125],
      .act .finishHexdec],
    [.act .createHexdec, .chars hexdecSet, .act .pushHexdec, .chars hexdecSet, .act .pushHexdec, .act .finishHexdec]]
  | .m => [
    [.nt .blockName, .chars [125], .act .makeBackReference],
    [.nt .number, .chars [125], .act .makeBackReference],
    [.chars [45], .nt .number, .chars [125], .act .makeRelativeBackReference]]
  | .modr => [
    [.nt .mod]]
  | .modeSwitch2 => [
    [.nt .modeSwitch2]]
  | .n => [
    [.act .repeatAtLeast, .chars [125], .nt .mod],
    [.nt .number, .act .repeatAb, .chars [125], .nt .mod]]
  | .number => [
    [.nt .number]]
  | .number2 => [
    [.nt .number2]]
  | .o => [
    [.nt .blockName, .chars [62], .nt .contentInCapture, .act .makeCaptureWithName, .chars [41]],
    [.chars [33], .act .resetCapture, .act .startLookbehindNegative, .nt .contentInCapture, .act .lookFinish,
      .chars [41]],
    [.chars [61], .act .resetCapture, .act .startLookbehindPositive, .nt .contentInCapture, .act .lookFinish,
      .chars [41]]]
  | .optContent => [
    [.nt .optContent]]
  | .p => [
    [.chars [110], .chars [117], .chars [109], .act .classNamedAlnum],
    [.chars [112], .chars [104], .chars [97], .act .classNamedAlpha]]
  | .propertyName => [
    [.nt .propertyName]]
  | .propertyName2 => [
    [.nt .propertyName2]]
  | .propertyValue => [
    [.nt .propertyValue]]
  | .propertyValue2 => [
    [.nt .propertyValue2]]
  | .rangeNT => [
    [.nt .range]]
  | .rept => [
    [.nt .rept]]
  | .s => [
    [.nt .start]]
  | .set2a => [
    [.nt .set2a]]
  | .set2b => [
    [.nt .set2b]]
  | .string2 => [
    [.nt .string2]]

def symbols0 : List Nat :=
  [0, 33, 34, 36, 40, 44, 45, 46, 47, 48, 49, 50, 51, 52, 53, 54, 55, 56, 57, 58, 60, 61, 62, 65, 66, 67, 68, 69,
    70, 71, 72, 73, 74, 75, 76, 77, 78, 79, 80, 81, 82, 83, 84, 85, 86, 87, 88, 89, 90, 91, 92, 93, 94, 95, 97, 98,
    99, 100, 101, 102, 103, 104, 105, 106, 107, 108, 109, 110, 111, 112, 113, 114, 115, 116, 117, 118, 119, 120, 121,
    122]

def symbols1 : List Nat :=
  [0, 33, 34, 36, 40, 41, 44, 45, 46, 47, 48, 49, 50, 51, 52, 53, 54, 55, 56, 57, 58, 60, 61, 62, 65, 66, 67, 68,
    69, 70, 71, 72, 73, 74, 75, 76, 77, 78, 79, 80, 81, 82, 83, 84, 85, 86, 87, 88, 89, 90, 91, 92, 93, 94, 95, 97,
    98, 99, 100, 101, 102, 103, 104, 105, 106, 107, 108, 109, 110, 111, 112, 113, 114, 115, 116, 117, 118, 119, 120,
    121, 122, 124]

def symbols2 : List Nat :=
  [34, 36, 40, 41, 42, 43, 45, 46, 47, 48, 49, 50, 51, 52, 53, 54, 55, 56, 57, 60, 62, 63, 65, 66, 68, 72, 78, 80,
    83, 86, 87, 90, 91, 92, 93, 94, 97, 98, 100, 101, 102, 103, 104, 110, 112, 114, 115, 116, 117, 118, 119, 120,
    122, 123, 124, 125]

def symbols3 : List Nat :=
  [0, 33, 34, 36, 40, 41, 42, 43, 44, 45, 46, 47, 48, 49, 50, 51, 52, 53, 54, 55, 56, 57, 58, 60, 61, 62, 63, 65,
    66, 67, 68, 69, 70, 71, 72, 73, 74, 75, 76, 77, 78, 79, 80, 81, 82, 83, 84, 85, 86, 87, 88, 89, 90, 91, 92, 93,
    94, 95, 97, 98, 99, 100, 101, 102, 103, 104, 105, 106, 107, 108, 109, 110, 111, 112, 113, 114, 115, 116, 117,
    118, 119, 120, 121, 122, 123, 124]

def symbols4 : List Nat :=
  [34, 36, 40, 41, 42, 43, 45, 46, 47, 48, 60, 62, 63, 91, 92, 93, 94, 97, 101, 102, 110, 114, 116, 117, 120, 123,
    124, 125]

def symbols5 : List Nat :=
  [0, 33, 34, 36, 40, 41, 42, 43, 44, 46, 47, 48, 49, 50, 51, 52, 53, 54, 55, 56, 57, 58, 60, 61, 62, 63, 65, 66,
    67, 68, 69, 70, 71, 72, 73, 74, 75, 76, 77, 78, 79, 80, 81, 82, 83, 84, 85, 86, 87, 88, 89, 90, 91, 92, 93, 94,
    95, 97, 98, 99, 100, 101, 102, 103, 104, 105, 106, 107, 108, 109, 110, 111, 112, 113, 114, 115, 116, 117, 118,
    119, 120, 121, 122, 123, 124, 125]

def symbols6 : List Nat :=
  [0, 33, 34, 36, 40, 41, 44, 45, 46, 47, 48, 49, 50, 51, 52, 53, 54, 55, 56, 57, 58, 60, 61, 62, 63, 65, 66, 67,
    68, 69, 70, 71, 72, 73, 74, 75, 76, 77, 78, 79, 80, 81, 82, 83, 84, 85, 86, 87, 88, 89, 90, 91, 92, 93, 94, 95,
    97, 98, 99, 100, 101, 102, 103, 104, 105, 106, 107, 108, 109, 110, 111, 112, 113, 114, 115, 116, 117, 118, 119,
    120, 121, 122, 124]

def symbols7 : List Nat :=
  [65, 66, 67, 68, 69, 70, 71, 72, 73, 74, 75, 76, 77, 78, 79, 80, 81, 82, 83, 84, 85, 86, 87, 88, 89, 90, 95, 97,
    98, 99, 100, 101, 102, 103, 104, 105, 106, 107, 108, 109, 110, 111, 112, 113, 114, 115, 116, 117, 118, 119, 120,
    121, 122]

def symbols8 : List Nat :=
  [48, 49, 50, 51, 52, 53, 54, 55, 56, 57, 65, 66, 67, 68, 69, 70, 71, 72, 73, 74, 75, 76, 77, 78, 79, 80, 81, 82,
    83, 84, 85, 86, 87, 88, 89, 90, 95, 97, 98, 99, 100, 101, 102, 103, 104, 105, 106, 107, 108, 109, 110, 111, 112,
    113, 114, 115, 116, 117, 118, 119, 120, 121, 122]

def symbols9 : List Nat :=
  [0, 33, 34, 36, 40, 41, 42, 43, 44, 46, 47, 48, 49, 50, 51, 52, 53, 54, 55, 56, 57, 58, 60, 61, 62, 63, 65, 66,
    67, 68, 69, 70, 71, 72, 73, 74, 75, 76, 77, 78, 79, 80, 81, 82, 83, 84, 85, 86, 87, 88, 89, 90, 91, 92, 94, 95,
    97, 98, 99, 100, 101, 102, 103, 104, 105, 106, 107, 108, 109, 110, 111, 112, 113, 114, 115, 116, 117, 118, 119,
    120, 121, 122, 123, 124, 125]

def symbols10 : List Nat :=
  [97, 98, 99, 100, 103, 108, 112, 115, 117, 119, 120]

def symbols11 : List Nat :=
  [0, 33, 34, 36, 40, 44, 45, 46, 47, 48, 49, 50, 51, 52, 53, 54, 55, 56, 57, 58, 60, 61, 62, 65, 66, 67, 68, 69,
    70, 71, 72, 73, 74, 75, 76, 77, 78, 79, 80, 81, 82, 83, 84, 85, 86, 87, 88, 89, 90, 91, 92, 93, 94, 95, 97, 98,
    99, 100, 101, 102, 103, 104, 105, 106, 107, 108, 109, 110, 111, 112, 113, 114, 115, 116, 117, 118, 119, 120, 121,
    122, 124]

def symbols12 : List Nat :=
  [33, 58, 60, 61, 62, 99, 105, 109, 115]

def symbols13 : List Nat :=
  [34, 36, 40, 41, 42, 43, 45, 46, 47, 48, 60, 62, 63, 68, 72, 78, 80, 83, 86, 87, 91, 92, 93, 94, 97, 100, 101,
    102, 104, 110, 112, 114, 115, 116, 117, 118, 119, 120, 123, 124, 125]

def symbols14 : List Nat :=
  [48, 49, 50, 51, 52, 53, 54, 55, 56, 57, 65, 66, 67, 68, 69, 70, 97, 98, 99, 100, 101, 102]

def symbols15 : List Nat :=
  [94, 97, 98, 99, 100, 103, 108, 112, 115, 117, 119, 120]

def symbols16 : List Nat :=
  [0, 33, 34, 36, 40, 41, 42, 43, 44, 45, 46, 47, 48, 49, 50, 51, 52, 53, 54, 55, 56, 57, 58, 60, 61, 62, 63, 65,
    66, 67, 68, 69, 70, 71, 72, 73, 74, 75, 76, 77, 78, 79, 80, 81, 82, 83, 84, 85, 86, 87, 88, 89, 90, 91, 92, 93,
    94, 95, 97, 98, 99, 100, 101, 102, 103, 104, 105, 106, 107, 108, 109, 110, 111, 112, 113, 114, 115, 116, 117,
    118, 119, 120, 121, 122, 123, 124, 125]

def symbols17 : List Nat :=
  [0, 33, 34, 36, 40, 41, 42, 43, 44, 46, 47, 48, 49, 50, 51, 52, 53, 54, 55, 56, 57, 58, 60, 61, 62, 63, 65, 66,
    67, 68, 69, 70, 71, 72, 73, 74, 75, 76, 77, 78, 79, 80, 81, 82, 83, 84, 85, 86, 87, 88, 89, 90, 92, 94, 95, 97,
    98, 99, 100, 101, 102, 103, 104, 105, 106, 107, 108, 109, 110, 111, 112, 113, 114, 115, 116, 117, 118, 119, 120,
    121, 122, 123, 124, 125]

def symbols18 : List Nat :=
  [48, 49, 50, 51, 52, 53, 54, 55, 56, 57, 65, 66, 67, 68, 69, 70, 97, 98, 99, 100, 101, 102, 123]

def symbols19 : List Nat :=
  [45, 48, 49, 50, 51, 52, 53, 54, 55, 56, 57, 65, 66, 67, 68, 69, 70, 71, 72, 73, 74, 75, 76, 77, 78, 79, 80, 81,
    82, 83, 84, 85, 86, 87, 88, 89, 90, 95, 97, 98, 99, 100, 101, 102, 103, 104, 105, 106, 107, 108, 109, 110, 111,
    112, 113, 114, 115, 116, 117, 118, 119, 120, 121, 122]

def symbols20 : List Nat :=
  [48, 49, 50, 51, 52, 53, 54, 55, 56, 57, 125]

def symbols21 : List Nat :=
  [48, 49, 50, 51, 52, 53, 54, 55, 56, 57]

def symbols22 : List Nat :=
  [33, 61, 65, 66, 67, 68, 69, 70, 71, 72, 73, 74, 75, 76, 77, 78, 79, 80, 81, 82, 83, 84, 85, 86, 87, 88, 89, 90,
    95, 97, 98, 99, 100, 101, 102, 103, 104, 105, 106, 107, 108, 109, 110, 111, 112, 113, 114, 115, 116, 117, 118,
    119, 120, 121, 122]

def symbols23 : List Nat :=
  [46, 48, 49, 50, 51, 52, 53, 54, 55, 56, 57, 65, 66, 67, 68, 69, 70, 71, 72, 73, 74, 75, 76, 77, 78, 79, 80, 81,
    82, 83, 84, 85, 86, 87, 88, 89, 90, 95, 97, 98, 99, 100, 101, 102, 103, 104, 105, 106, 107, 108, 109, 110, 111,
    112, 113, 114, 115, 116, 117, 118, 119, 120, 121, 122]

def symbols24 : List Nat :=
  [46, 48, 49, 50, 51, 52, 53, 54, 55, 56, 57, 61, 65, 66, 67, 68, 69, 70, 71, 72, 73, 74, 75, 76, 77, 78, 79, 80,
    81, 82, 83, 84, 85, 86, 87, 88, 89, 90, 95, 97, 98, 99, 100, 101, 102, 103, 104, 105, 106, 107, 108, 109, 110,
    111, 112, 113, 114, 115, 116, 117, 118, 119, 120, 121, 122]

def firstNT : NT → List Nat
  | .a => symbols0
  | .b => [44, 125]
  | .backslash => symbols2
  | .backslashRange => symbols4
  | .block => symbols6
  | .blockName => symbols7
  | .blockName2 => symbols8
  | .c => symbols9
  | .classNamedName => symbols10
  | .content2 => [124]
  | .contentInCapture => symbols11
  | .contentOrEmpty => symbols0
  | .d => symbols12
  | .e => symbols13
  | .f => symbols13
  | .g => [108, 115]
  | .h => [114, 117]
  | .hexdecRepeat => symbols14
  | .i => symbols15
  | .j => symbols17
  | .k => symbols18
  | .l => symbols18
  | .m => symbols19
  | .modr => [43, 63]
  | .modeSwitch2 => [41, 99, 105, 109, 115]
  | .n => symbols20
  | .number => symbols21
  | .number2 => symbols21
  | .o => symbols22
  | .optContent => symbols0
  | .p => [110, 112]
  | .propertyName => symbols23
  | .propertyName2 => symbols24
  | .propertyValue => symbols23
  | .propertyValue2 => symbols23
  | .rangeNT => [45]
  | .rept => [42, 43, 63, 123]
  | .s => symbols11
  | .set2a => symbols9
  | .set2b => symbols9
  | .string2 => symbols0

def nullNT : NT → Bool
  | .a | .blockName2 | .content2 | .contentInCapture | .contentOrEmpty | .hexdecRepeat | .modr | .number2 | .optContent | .propertyName2 | .propertyValue2 | .rangeNT | .rept | .s | .set2a | .set2b | .string2 => true
  | _ => false

/-- Characters that can follow; `true`: the end of the pattern can. -/
def followNT : NT → List Nat × Bool
  | .a => ([41], true)
  | .b => (symbols1, true)
  | .backslash => (symbols3, true)
  | .backslashRange => (symbols5, false)
  | .block => (symbols3, true)
  | .blockName => ([62], false)
  | .blockName2 => ([62, 125], false)
  | .c => (symbols3, true)
  | .classNamedName => ([58], false)
  | .content2 => ([41], true)
  | .contentInCapture => ([41], false)
  | .contentOrEmpty => ([41], false)
  | .d => (symbols3, true)
  | .e => (symbols5, false)
  | .f => (symbols5, false)
  | .g => ([58], false)
  | .h => ([58], false)
  | .hexdecRepeat => ([125], false)
  | .i => (symbols16, false)
  | .j => (symbols5, false)
  | .k => (symbols16, true)
  | .l => (symbols16, true)
  | .m => (symbols3, true)
  | .modr => (symbols1, true)
  | .modeSwitch2 => (symbols3, true)
  | .n => (symbols1, true)
  | .number => ([44, 125], false)
  | .number2 => ([44, 125], false)
  | .o => (symbols3, true)
  | .optContent => ([], true)
  | .p => ([58], false)
  | .propertyName => ([125], false)
  | .propertyName2 => ([125], false)
  | .propertyValue => ([125], false)
  | .propertyValue2 => ([125], false)
  | .rangeNT => (symbols5, false)
  | .rept => (symbols1, true)
  | .s => ([], true)
  | .set2a => ([93], false)
  | .set2b => ([93], false)
  | .string2 => ([41, 124], true)

end Ctre.Parse

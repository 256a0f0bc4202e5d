import Verif.Tests.Basic
/-
Tests, not proofs: the assertions of /repo/tests evaluated in the model.
Generated from /repo/tests/__utf8.cpp, /repo/tests/_fixed-string.cpp, /repo/tests/_unicode.cpp, /repo/tests/string.cpp.
-/
set_option maxRecDepth 10000
namespace Ctre.Tests

-- _unicode.cpp:54
#guard found false [] .match_ (.utf32 [92, 117, 123, 49, 70, 57, 50, 65, 125]) (.view [129322]) == some true
-- _unicode.cpp:55
#guard found false [] .match_ (.utf32 [92, 117, 50, 48, 65, 67]) (.view [8364]) == some true
-- _unicode.cpp:61
#guard accepted (.utf32 [92, 112, 123, 76, 125]) == some true
-- _unicode.cpp:62
#guard found false [] .match_ (.utf32 [91, 92, 112, 123, 76, 125, 93]) (.cstr [65, 0]) == some true
-- _unicode.cpp:63
#guard found false [] .match_ (.utf32 [91, 92, 112, 123, 76, 125, 93, 43]) (.cstr [65, 66, 67, 0]) == some true
-- _unicode.cpp:64
#guard found false [] .match_ (.utf32 [91, 92, 80, 123, 76, 125, 93]) (.cstr [49, 0]) == some true
-- _unicode.cpp:65
#guard found false [] .match_ (.utf32 [91, 92, 80, 123, 76, 125, 93, 43]) (.cstr [49, 50, 51, 0]) == some true
-- _unicode.cpp:66
#guard accepted (.utf32 [92, 112, 123, 76, 101, 116, 116, 101, 114, 125]) == some true
-- _unicode.cpp:67
#guard found false [] .match_ (.utf32 [92, 80, 123, 76, 101, 116, 116, 101, 114, 125]) (.view [49]) == some true
-- _unicode.cpp:68
#guard found false [] .match_ (.utf32 [92, 80, 123, 108, 97, 116, 105, 110, 125]) (.view [1028]) == some true
-- _unicode.cpp:69
#guard found false [] .match_ (.utf32 [91, 94, 92, 112, 123, 108, 97, 116, 105, 110, 125, 92, 112, 123, 115, 99, 114, 105, 112, 116, 61, 71, 114, 101, 101, 107, 125, 93]) (.view [1513]) == some true
-- _unicode.cpp:70
#guard found false [] .match_ (.utf32 [92, 112, 123, 76, 101, 116, 116, 101, 114, 125, 43]) (.u8 [97, 98, 99, 68, 69, 70]) == some true
-- _unicode.cpp:71
#guard found false [] .match_ (.utf32 [92, 112, 123, 76, 101, 116, 116, 101, 114, 125, 43]) (.view [97, 98, 99, 68, 69, 70]) == some true
-- _unicode.cpp:72
#guard found false [] .match_ (.utf32 [92, 112, 123, 76, 108, 125, 43]) (.view [97, 98, 99, 100, 101, 102]) == some true
-- _unicode.cpp:73
#guard found false [] .match_ (.utf32 [92, 112, 123, 76, 117, 125, 43]) (.view [65, 66, 67, 68]) == some true
-- _unicode.cpp:74
#guard found false [] .match_ (.utf32 [92, 112, 123, 76, 117, 125, 43]) (.view [65, 66, 99, 68]) == some false
-- _unicode.cpp:75
#guard found false [] .match_ (.utf32 [92, 112, 123, 78, 100, 125, 43]) (.view [49, 50, 51, 52, 53, 54, 55, 56, 57, 48]) == some true
-- _unicode.cpp:76
#guard found false [] .match_ (.utf32 [92, 112, 123, 78, 100, 125, 43]) (.view [49, 50, 51, 52, 53, 54, 55, 56, 57, 48, 104]) == some false
-- _unicode.cpp:77
#guard found false [] .match_ (.utf32 [92, 112, 123, 115, 99, 114, 105, 112, 116, 61, 76, 97, 116, 105, 110, 125, 43]) (.view [97, 98, 99, 100]) == some true
-- _unicode.cpp:78
#guard found false [] .match_ (.utf32 [92, 112, 123, 115, 99, 114, 105, 112, 116, 61, 71, 114, 101, 101, 107, 125, 43]) (.view [946, 937]) == some true
-- _unicode.cpp:79
#guard found false [] .match_ (.utf32 [92, 112, 123, 115, 99, 114, 105, 112, 116, 61, 76, 97, 116, 105, 110, 125, 43]) (.view [946, 937]) == some false
-- _unicode.cpp:80
#guard found false [] .match_ (.utf32 [92, 112, 123, 115, 99, 114, 105, 112, 116, 61, 71, 114, 101, 101, 107, 125, 43]) (.view [97, 98, 99, 100]) == some false
-- _unicode.cpp:82
#guard found false [] .match_ (.utf32 [92, 112, 123, 101, 109, 111, 106, 105, 125, 43]) (.u8 [240, 159, 164, 170, 240, 159, 152, 141]) == some true
-- _unicode.cpp:83
#guard found false [] .match_ (.narrow [92, 112, 123, 101, 109, 111, 106, 105, 125, 43]) (.u8 [240, 159, 164, 170, 240, 159, 152, 141]) == some true
-- _unicode.cpp:85
#guard found false [] .match_ (.utf32 [92, 112, 123, 101, 109, 111, 106, 105, 125, 43]) (.view [129322, 128525, 10024, 127987]) == some true
-- _unicode.cpp:86
#guard accepted (.utf32 [92, 112, 123, 115, 99, 61, 103, 114, 101, 101, 107, 125, 43, 63, 92, 112, 123, 69, 109, 111, 106, 105, 125, 92, 112, 123, 115, 99, 61, 103, 114, 101, 101, 107, 125, 43, 63]) == some true
-- _unicode.cpp:87
#guard found false [] .match_ (.utf32 [92, 112, 123, 115, 99, 61, 103, 114, 101, 101, 107, 125, 43, 63, 92, 112, 123, 69, 109, 111, 106, 105, 125]) (.view [945, 937, 128525]) == some true
-- _unicode.cpp:88
#guard found false [] .match_ (.utf32 [92, 112, 123, 115, 99, 61, 103, 114, 101, 101, 107, 125, 43, 63, 92, 112, 123, 69, 109, 111, 106, 105, 125, 92, 112, 123, 115, 99, 61, 103, 114, 101, 101, 107, 125, 43, 63]) (.view [945, 128525, 937]) == some true
-- _unicode.cpp:89
#guard accepted (.utf32 [92, 112, 123, 97, 103, 101, 61, 49, 48, 46, 48, 125]) == some true
-- _unicode.cpp:90
#guard found false [] .match_ (.utf32 [92, 112, 123, 97, 103, 101, 61, 49, 48, 46, 48, 125]) (.view [129321]) == some true
-- _unicode.cpp:91
#guard found false [] .match_ (.utf32 [92, 112, 123, 98, 108, 111, 99, 107, 61, 109, 105, 115, 99, 95, 112, 105, 99, 116, 111, 103, 114, 97, 112, 104, 115, 125]) (.view [127881]) == some true
-- _unicode.cpp:92
#guard found false [] .match_ (.utf32 [92, 112, 123, 115, 99, 120, 61, 72, 105, 114, 97, 125, 43]) (.view [12438]) == some true
-- _unicode.cpp:102
#guard accepted (.utf8 [97, 43]) == some true
-- _unicode.cpp:103
#guard accepted (.utf8 [240, 159, 152, 141, 43]) == some true
-- _unicode.cpp:104
#guard found false [] .match_ (.utf8 [240, 159, 152, 141]) (.view [128525]) == some true
-- _unicode.cpp:105
#guard found false [] .match_ (.utf8 [240, 159, 152, 141, 43]) (.view [128525]) == some true
-- _unicode.cpp:106
#guard found false [] .match_ (.utf8 [240, 159, 152, 141, 43]) (.view [128525, 128525, 128525, 128525]) == some true
-- _unicode.cpp:107
#guard found false [] .match_ (.utf8 [91, 240, 159, 152, 141, 97, 92, 120, 123, 49, 70, 57, 50, 65, 125, 93, 43]) (.view [128525, 97, 128525, 97, 97, 128525, 128525, 97, 129322]) == some true
-- _unicode.cpp:108
#guard found false [] .match_ (.utf8 [91, 240, 159, 152, 141, 97, 92, 120, 123, 49, 70, 57, 50, 65, 125, 93, 43]) (.view [128525, 97, 128525, 97, 97, 128525, 128525, 97, 129322, 120]) == some false
-- _unicode.cpp:110
#guard (group false .match_ (.utf8 [91, 240, 159, 152, 141, 97, 45, 122, 92, 120, 123, 49, 70, 57, 50, 65, 125, 93, 43]) (.view [97, 98, 99, 128525, 128525, 120, 121, 122]) 0).map List.length == some 8
-- _unicode.cpp:113
#guard accepted (.utf32 [97, 43]) == some true
-- _unicode.cpp:114
#guard accepted (.utf32 [128525, 43]) == some true
-- _unicode.cpp:115
#guard found false [] .match_ (.utf32 [128525]) (.view [128525]) == some true
-- _unicode.cpp:116
#guard found false [] .match_ (.utf32 [128525, 43]) (.view [128525]) == some true
-- _unicode.cpp:117
#guard found false [] .match_ (.utf32 [128525, 43]) (.view [128525, 128525, 128525, 128525]) == some true
-- _unicode.cpp:118
#guard found false [] .match_ (.utf32 [91, 128525, 97, 92, 120, 123, 49, 70, 57, 50, 65, 125, 93, 43]) (.view [128525, 97, 128525, 97, 97, 128525, 128525, 97, 129322]) == some true
-- _unicode.cpp:119
#guard found false [] .match_ (.utf32 [91, 128525, 97, 92, 120, 123, 49, 70, 57, 50, 65, 125, 93, 43]) (.view [128525, 97, 128525, 97, 97, 128525, 128525, 97, 129322, 120]) == some false
-- _unicode.cpp:121
#guard (group false .match_ (.utf32 [91, 128525, 97, 45, 122, 92, 120, 123, 49, 70, 57, 50, 65, 125, 93, 43]) (.view [97, 98, 99, 128525, 128525, 120, 121, 122]) 0).map List.length == some 8
-- _unicode.cpp:125
#guard found false [] .match_ (.utf8 [240, 159, 152, 141, 43]) (.u8 [240, 159, 152, 141, 240, 159, 152, 141, 240, 159, 152, 141]) == some true
-- _unicode.cpp:126
#guard found false [] .match_ (.utf32 [91, 283, 353, 269, 345, 97, 98, 99, 93, 43]) (.view [283, 283, 99, 283, 283, 97, 345]) == some true
-- _unicode.cpp:127
#guard found false [] .match_ (.utf16 [283, 353, 269, 345]) (.u8 [196, 155, 197, 161, 196, 141, 197, 153]) == some true
-- _unicode.cpp:128
#guard found false [] .match_ (.utf32 [283, 353, 269, 345]) (.u8 [196, 155, 197, 161, 196, 141, 197, 153]) == some true
-- _unicode.cpp:129
#guard found false [] .match_ (.utf8 [196, 155, 197, 161, 196, 141, 197, 153]) (.u8 [196, 155, 197, 161, 196, 141, 197, 153]) == some true
-- _unicode.cpp:132
#guard accepted (.narrow [92, 112, 123, 76, 97, 116, 105, 110, 125]) == some true
-- _unicode.cpp:133
#guard accepted (.narrow [92, 112, 123, 76, 97, 116, 105, 110, 52, 50, 125]) == some false
-- _unicode.cpp:135
#guard found false [] .match_ (.narrow [92, 112, 123, 76, 97, 116, 105, 110, 125]) (.view [97]) == some true
-- _unicode.cpp:136
#guard found false [] .match_ (.narrow [92, 112, 123, 69, 109, 111, 106, 105, 125]) (.view [97]) == some false
-- __utf8.cpp:36
#guard utf8Collect [116, 101, 115, 116] 100 0 == some [116, 101, 115, 116]
-- __utf8.cpp:37
#guard utf8Collect [196, 155, 197, 161, 196, 141, 197, 153] 100 0 == some [283, 353, 269, 345]
-- __utf8.cpp:38
#guard utf8Collect [208, 147] 100 0 == some [1043]
-- __utf8.cpp:39
#guard utf8Collect [208, 147, 97] 100 0 == some [1043, 97]
-- __utf8.cpp:40
#guard utf8Collect [208, 147, 97, 240, 159, 152, 128] 100 0 == some [1043, 97, 128512]
-- __utf8.cpp:41
#guard utf8Collect [208, 147, 97, 240, 159, 152, 128, 225, 166, 137] 100 0 == some [1043, 97, 128512, 6537]
-- __utf8.cpp:42
#guard utf8Collect [208, 147, 97, 240, 159, 152, 128, 225, 166, 137, 240, 159, 156, 135, 97, 97] 100 0 == some [1043, 97, 128512, 6537, 128775, 97, 97]
-- _fixed-string.cpp:15
#guard (PatLit.decode (.narrow [-60, -101, -59, -95, -60, -115])).content.length == 6
-- _fixed-string.cpp:16
#guard (PatLit.decode (.narrow [-16, -97, -104, -115])).content.length == 4
-- _fixed-string.cpp:21
#guard (PatLit.decode (.utf8 [196, 155, 197, 161, 196, 141])).content.length == 3
-- _fixed-string.cpp:22
#guard (PatLit.decode (.utf8 [240, 159, 152, 141])).content.length == 1
-- _fixed-string.cpp:23
#guard (PatLit.decode (.utf8 [240, 159, 152, 141])).content[0]? == some 128525
-- _fixed-string.cpp:27
#guard (PatLit.decode (.utf16 [283, 353, 269])).content.length == 3
-- _fixed-string.cpp:28
#guard (PatLit.decode (.utf16 [55357, 56845])).content.length == 1
-- _fixed-string.cpp:29
#guard (PatLit.decode (.utf16 [55357, 56845])).isSameAs (PatLit.decode (.utf32 [128525]))
-- _fixed-string.cpp:32
#guard (PatLit.decode (.utf32 [283, 353, 269])).content.length == 3
-- _fixed-string.cpp:33
#guard (PatLit.decode (.utf32 [128525])).content.length == 1
-- _fixed-string.cpp:6
#guard (PatLit.decode (.utf32 [94, 92, 115, 42, 40, 92, 100, 43, 41, 92, 115, 43, 58, 40, 92, 83, 41, 58, 36, 40, 92, 83, 43, 63, 41, 36, 40, 92, 83, 43, 63, 41, 36, 40, 92, 83, 43, 41])).content.length == 38
-- string.cpp:5
#guard (PatLit.decode (.narrow [0, 0])).correct
-- string.cpp:6
#guard (PatLit.decode (.narrow [0, 0])).content.length == 2
-- string.cpp:10
#guard (PatLit.decode (.narrow [0])).correct
-- string.cpp:11
#guard (PatLit.decode (.narrow [0])).content.length == 1
-- string.cpp:15
#guard (PatLit.decode (.narrow [])).correct
-- string.cpp:16
#guard (PatLit.decode (.narrow [])).content.length == 0

end Ctre.Tests

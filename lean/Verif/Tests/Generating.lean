import Verif.Tests.Basic
/-
Tests, not proofs: the assertions of /repo/tests evaluated in the model.
Generated from /repo/tests/generating.cpp.
-/
set_option maxRecDepth 10000
namespace Ctre.Tests

-- generating.cpp:36
#guard sameTree (.narrow []) Re.empty == some true
-- generating.cpp:37
#guard sameTree (.narrow [121]) (Re.cc (CC.chr 121)) == some true
-- generating.cpp:41
#guard sameTree (.utf8 [240, 159, 152, 141]) (Re.cc (CC.chr 128525)) == some true
-- generating.cpp:42
#guard sameTree (.utf8 [91, 240, 159, 152, 141, 93]) (Re.cc (CC.set [(CC.chr 128525)])) == some true
-- generating.cpp:44
#guard sameTree (.utf32 [128525]) (Re.cc (CC.chr 128525)) == some true
-- generating.cpp:45
#guard sameTree (.utf32 [91, 128525, 93]) (Re.cc (CC.set [(CC.chr 128525)])) == some true
-- generating.cpp:49
#guard sameTree (.narrow [97, 98, 99]) (Re.str [97, 98, 99]) == some true
-- generating.cpp:50
#guard sameTree (.narrow [40, 63, 58, 97, 98, 99, 41]) (Re.str [97, 98, 99]) == some true
-- generating.cpp:53
#guard sameTree (.narrow [92, 120, 52, 48]) (Re.cc (CC.chr 64)) == some true
-- generating.cpp:54
#guard sameTree (.narrow [92, 120, 55, 70]) (Re.cc (CC.chr 127)) == some true
-- generating.cpp:56
#guard sameTree (.narrow [92, 120, 56, 48]) (Re.cc (CC.chr 128)) == some true
-- generating.cpp:57
#guard sameTree (.narrow [92, 120, 70, 70]) (Re.cc (CC.chr 255)) == some true
-- generating.cpp:58
#guard sameTree (.narrow [92, 120, 123, 70, 70, 125]) (Re.cc (CC.chr 255)) == some true
-- generating.cpp:59
#guard sameTree (.narrow [92, 120, 123, 70, 70, 70, 125]) (Re.cc (CC.chr 4095)) == some true
-- generating.cpp:60
#guard sameTree (.narrow [92, 120, 123, 65, 66, 67, 68, 125]) (Re.cc (CC.chr 43981)) == some true
-- generating.cpp:63
#guard sameTree (.narrow [46]) Re.any == some true
-- generating.cpp:66
#guard sameTree (.narrow [120, 46, 97, 98]) (Re.seq [(Re.cc (CC.chr 120)), Re.any, (Re.str [97, 98])]) == some true
-- generating.cpp:69
#guard sameTree (.narrow [92, 100]) (Re.cc (CC.set [digitChars])) == some true
-- generating.cpp:70
#guard sameTree (.narrow [92, 68]) (Re.cc (CC.negSet [digitChars])) == some true
-- generating.cpp:71
#guard sameTree (.narrow [92, 110]) (Re.cc (CC.chr 10)) == some true
-- generating.cpp:72
#guard sameTree (.narrow [92, 78]) (Re.cc (CC.negSet [(CC.chr 10)])) == some true
-- generating.cpp:73
#guard sameTree (.narrow [92, 119]) (Re.cc (CC.set [wordChars])) == some true
-- generating.cpp:74
#guard sameTree (.narrow [92, 87]) (Re.cc (CC.negSet [wordChars])) == some true
-- generating.cpp:75
#guard sameTree (.narrow [92, 115]) (Re.cc (CC.set [spaceChars])) == some true
-- generating.cpp:76
#guard sameTree (.narrow [92, 83]) (Re.cc (CC.negSet [spaceChars])) == some true
-- generating.cpp:79
#guard sameTree (.narrow [91, 97, 93]) (Re.cc (CC.set [(CC.chr 97)])) == some true
-- generating.cpp:80
#guard sameTree (.narrow [91, 94, 97, 93]) (Re.cc (CC.negSet [(CC.chr 97)])) == some true
-- generating.cpp:81
#guard sameTree (.narrow [91, 91, 58, 100, 105, 103, 105, 116, 58, 93, 93]) (Re.cc (CC.set [digitChars])) == some true
-- generating.cpp:82
#guard sameTree (.narrow [91, 97, 98, 93]) (Re.cc (CC.set [(CC.chr 97), (CC.chr 98)])) == some true
-- generating.cpp:83
#guard sameTree (.narrow [91, 94, 97, 98, 93]) (Re.cc (CC.negSet [(CC.chr 97), (CC.chr 98)])) == some true
-- generating.cpp:84
#guard sameTree (.narrow [91, 91, 58, 100, 105, 103, 105, 116, 58, 93, 91, 58, 100, 105, 103, 105, 116, 58, 93, 93]) (Re.cc (CC.set [digitChars])) == some true
-- generating.cpp:85
#guard sameTree (.narrow [91, 94, 91, 58, 112, 117, 110, 99, 116, 58, 93, 93]) (Re.cc (CC.negSet [punctChars])) == some true
-- generating.cpp:86
#guard sameTree (.narrow [91, 91, 58, 94, 100, 105, 103, 105, 116, 58, 93, 93]) (Re.cc (CC.set [(CC.negate [digitChars])])) == some true
-- generating.cpp:87
#guard sameTree (.narrow [91, 91, 58, 94, 100, 105, 103, 105, 116, 58, 93, 91, 58, 94, 97, 108, 112, 104, 97, 58, 93, 93]) (Re.cc (CC.set [(CC.negate [digitChars]), (CC.negate [alphaChars])])) == some true
-- generating.cpp:88
#guard sameTree (.narrow [91, 91, 58, 100, 105, 103, 105, 116, 58, 93, 91, 58, 97, 108, 112, 104, 97, 58, 93, 93]) (Re.cc (CC.set [digitChars, alphaChars])) == some true
-- generating.cpp:89
#guard sameTree (.narrow [91, 91, 58, 100, 105, 103, 105, 116, 58, 93, 91, 58, 94, 97, 108, 112, 104, 97, 58, 93, 93]) (Re.cc (CC.set [digitChars, (CC.negate [alphaChars])])) == some true
-- generating.cpp:90
#guard sameTree (.narrow [91, 97, 45, 122, 93]) (Re.cc (CC.set [(CC.range 97 122)])) == some true
-- generating.cpp:91
#guard sameTree (.narrow [91, 97, 45, 122, 48, 45, 57, 93]) (Re.cc (CC.set [(CC.range 97 122), (CC.range 48 57)])) == some true
-- generating.cpp:92
#guard sameTree (.narrow [91, 94, 97, 45, 122, 93]) (Re.cc (CC.negSet [(CC.range 97 122)])) == some true
-- generating.cpp:93
#guard sameTree (.narrow [91, 94, 97, 45, 122, 48, 45, 57, 93]) (Re.cc (CC.negSet [(CC.range 97 122), (CC.range 48 57)])) == some true
-- generating.cpp:94
#guard sameTree (.narrow [91, 97, 45, 122, 91, 58, 100, 105, 103, 105, 116, 58, 93, 93]) (Re.cc (CC.set [(CC.range 97 122), digitChars])) == some true
-- generating.cpp:95
#guard sameTree (.narrow [91, 97, 45, 122, 57, 56, 93]) (Re.cc (CC.set [(CC.range 97 122), (CC.chr 57), (CC.chr 56)])) == some true
-- generating.cpp:96
#guard sameTree (.narrow [91, 92, 119, 93]) (Re.cc (CC.set [(CC.set [wordChars])])) == some true
-- generating.cpp:97
#guard sameTree (.narrow [91, 92, 120, 51, 48, 45, 92, 120, 51, 57, 93]) (Re.cc (CC.set [(CC.range 48 57)])) == some true
-- generating.cpp:100
#guard sameTree (.narrow [40, 63, 58, 97, 98, 99, 124, 100, 101, 102, 41]) (Re.sel [(Re.str [97, 98, 99]), (Re.str [100, 101, 102])]) == some true
-- generating.cpp:101
#guard sameTree (.narrow [40, 63, 58, 97, 98, 99, 124, 100, 101, 102, 124, 103, 104, 105, 41]) (Re.sel [(Re.str [97, 98, 99]), (Re.str [100, 101, 102]), (Re.str [103, 104, 105])]) == some true
-- generating.cpp:102
#guard sameTree (.narrow [40, 63, 58, 97, 124, 98, 124, 99, 124, 100, 41]) (Re.sel [(Re.cc (CC.chr 97)), (Re.cc (CC.chr 98)), (Re.cc (CC.chr 99)), (Re.cc (CC.chr 100))]) == some true
-- generating.cpp:103
#guard sameTree (.narrow [40, 63, 58, 97, 124, 98, 124, 99, 124, 41]) (Re.sel [(Re.cc (CC.chr 97)), (Re.cc (CC.chr 98)), (Re.cc (CC.chr 99)), Re.empty]) == some true
-- generating.cpp:104
#guard sameTree (.narrow [40, 63, 58, 97, 124, 41]) (Re.sel [(Re.cc (CC.chr 97)), Re.empty]) == some true
-- generating.cpp:105
#guard sameTree (.narrow [40, 63, 58, 124, 97, 41]) (Re.sel [Re.empty, (Re.cc (CC.chr 97))]) == some true
-- generating.cpp:106
#guard sameTree (.narrow [40, 63, 58, 124, 41]) (Re.sel [Re.empty, Re.empty]) == some true
-- generating.cpp:107
#guard sameTree (.narrow [40, 120, 124, 41]) (Re.cap 1 none [(Re.sel [(Re.cc (CC.chr 120)), Re.empty])]) == some true
-- generating.cpp:108
#guard sameTree (.narrow [40, 124, 120, 41]) (Re.cap 1 none [(Re.sel [Re.empty, (Re.cc (CC.chr 120))])]) == some true
-- generating.cpp:109
#guard sameTree (.narrow [40, 124, 41]) (Re.cap 1 none [(Re.sel [Re.empty, Re.empty])]) == some true
-- generating.cpp:113
#guard sameTree (.narrow [120, 120, 63]) (Re.seq [(Re.cc (CC.chr 120)), (Re.rep .greedy 0 1 [(Re.cc (CC.chr 120))])]) == some true
-- generating.cpp:114
#guard sameTree (.narrow [120, 120, 63, 43]) (Re.seq [(Re.cc (CC.chr 120)), (Re.rep .poss 0 1 [(Re.cc (CC.chr 120))])]) == some true
-- generating.cpp:115
#guard sameTree (.narrow [120, 120, 63, 63]) (Re.seq [(Re.cc (CC.chr 120)), (Re.rep .lazy 0 1 [(Re.cc (CC.chr 120))])]) == some true
-- generating.cpp:116
#guard sameTree (.narrow [40, 63, 58, 97, 98, 99, 41, 63]) (Re.rep .greedy 0 1 [(Re.str [97, 98, 99])]) == some true
-- generating.cpp:117
#guard sameTree (.narrow [40, 63, 58, 120, 41, 63]) (Re.rep .greedy 0 1 [(Re.cc (CC.chr 120))]) == some true
-- generating.cpp:118
#guard sameTree (.narrow [40, 63, 58, 120, 63, 41, 63]) (Re.rep .greedy 0 1 [(Re.cc (CC.chr 120))]) == some true
-- generating.cpp:119
#guard sameTree (.narrow [40, 63, 58, 120, 63, 41, 63, 63]) (Re.rep .lazy 0 1 [(Re.cc (CC.chr 120))]) == some true
-- generating.cpp:125
#guard sameTree (.narrow [120, 43]) (Re.rep .greedy 1 0 [(Re.cc (CC.chr 120))]) == some true
-- generating.cpp:126
#guard sameTree (.narrow [40, 63, 58, 97, 98, 99, 41, 43]) (Re.rep .greedy 1 0 [(Re.str [97, 98, 99])]) == some true
-- generating.cpp:127
#guard sameTree (.narrow [120, 42]) (Re.rep .greedy 0 0 [(Re.cc (CC.chr 120))]) == some true
-- generating.cpp:128
#guard sameTree (.narrow [40, 63, 58, 97, 98, 99, 41, 42]) (Re.rep .greedy 0 0 [(Re.str [97, 98, 99])]) == some true
-- generating.cpp:129
#guard sameTree (.narrow [120, 123, 49, 125]) (Re.rep .greedy 1 1 [(Re.cc (CC.chr 120))]) == some true
-- generating.cpp:130
#guard sameTree (.narrow [120, 123, 49, 44, 125]) (Re.rep .greedy 1 0 [(Re.cc (CC.chr 120))]) == some true
-- generating.cpp:131
#guard sameTree (.narrow [120, 123, 49, 57, 56, 125]) (Re.rep .greedy 198 198 [(Re.cc (CC.chr 120))]) == some true
-- generating.cpp:132
#guard sameTree (.narrow [120, 123, 49, 57, 56, 44, 125]) (Re.rep .greedy 198 0 [(Re.cc (CC.chr 120))]) == some true
-- generating.cpp:133
#guard sameTree (.narrow [120, 123, 49, 44, 50, 125]) (Re.rep .greedy 1 2 [(Re.cc (CC.chr 120))]) == some true
-- generating.cpp:134
#guard sameTree (.narrow [120, 123, 49, 44, 49, 50, 51, 52, 125]) (Re.rep .greedy 1 1234 [(Re.cc (CC.chr 120))]) == some true
-- generating.cpp:135
#guard sameTree (.narrow [120, 123, 53, 54, 55, 44, 49, 50, 51, 52, 125]) (Re.rep .greedy 567 1234 [(Re.cc (CC.chr 120))]) == some true
-- generating.cpp:136
#guard sameTree (.narrow [91, 120, 93, 123, 53, 54, 55, 44, 49, 50, 51, 52, 125]) (Re.rep .greedy 567 1234 [(Re.cc (CC.set [(CC.chr 120)]))]) == some true
-- generating.cpp:137
#guard sameTree (.narrow [91, 94, 120, 93, 123, 53, 54, 55, 44, 49, 50, 51, 52, 125]) (Re.rep .greedy 567 1234 [(Re.cc (CC.negSet [(CC.chr 120)]))]) == some true
-- generating.cpp:138
#guard sameTree (.narrow [40, 63, 58, 97, 98, 99, 41, 123, 51, 44, 52, 50, 125]) (Re.rep .greedy 3 42 [(Re.str [97, 98, 99])]) == some true
-- generating.cpp:141
#guard sameTree (.narrow [120, 42, 120, 42]) (Re.rep .greedy 0 0 [(Re.cc (CC.chr 120))]) == some true
-- generating.cpp:142
#guard sameTree (.narrow [120, 43, 120, 43]) (Re.rep .greedy 2 0 [(Re.cc (CC.chr 120))]) == some true
-- generating.cpp:143
#guard sameTree (.narrow [120, 43, 120, 42]) (Re.rep .greedy 1 0 [(Re.cc (CC.chr 120))]) == some true
-- generating.cpp:144
#guard sameTree (.narrow [120, 42, 120, 43]) (Re.rep .greedy 1 0 [(Re.cc (CC.chr 120))]) == some true
-- generating.cpp:145
#guard sameTree (.narrow [120, 123, 49, 44, 51, 125, 120, 123, 50, 44, 52, 125]) (Re.rep .greedy 3 7 [(Re.cc (CC.chr 120))]) == some true
-- generating.cpp:146
#guard sameTree (.narrow [97, 63, 97, 63, 97, 63]) (Re.rep .greedy 0 3 [(Re.cc (CC.chr 97))]) == some true
-- generating.cpp:147
#guard sameTree (.narrow [97, 63, 97, 63, 98]) (Re.seq [(Re.rep .greedy 0 2 [(Re.cc (CC.chr 97))]), (Re.cc (CC.chr 98))]) == some true
-- generating.cpp:151
#guard sameTree (.narrow [120, 42, 63, 120, 42, 63]) (Re.rep .lazy 0 0 [(Re.cc (CC.chr 120))]) == some true
-- generating.cpp:152
#guard sameTree (.narrow [120, 43, 63, 120, 43, 63]) (Re.rep .lazy 2 0 [(Re.cc (CC.chr 120))]) == some true
-- generating.cpp:153
#guard sameTree (.narrow [120, 43, 63, 120, 42, 63]) (Re.rep .lazy 1 0 [(Re.cc (CC.chr 120))]) == some true
-- generating.cpp:154
#guard sameTree (.narrow [120, 42, 63, 120, 43, 63]) (Re.rep .lazy 1 0 [(Re.cc (CC.chr 120))]) == some true
-- generating.cpp:155
#guard sameTree (.narrow [120, 123, 49, 44, 51, 125, 63, 120, 123, 50, 44, 52, 125, 63]) (Re.rep .lazy 3 7 [(Re.cc (CC.chr 120))]) == some true
-- generating.cpp:156
#guard sameTree (.narrow [97, 63, 63, 97, 63, 63, 97, 63, 63]) (Re.rep .lazy 0 3 [(Re.cc (CC.chr 97))]) == some true
-- generating.cpp:159
#guard sameTree (.narrow [97, 123, 48, 44, 48, 125, 43, 97, 123, 48, 44, 48, 125, 43]) (Re.rep .poss 0 0 [(Re.cc (CC.chr 97))]) == some true
-- generating.cpp:160
#guard sameTree (.narrow [97, 123, 49, 44, 48, 125, 43, 97, 123, 48, 44, 48, 125, 43]) (Re.rep .poss 1 0 [(Re.cc (CC.chr 97))]) == some true
-- generating.cpp:161
#guard sameTree (.narrow [97, 123, 48, 44, 48, 125, 43, 97, 123, 49, 44, 48, 125, 43]) (Re.seq [(Re.reject true), (Re.cc (CC.chr 97))]) == some true
-- generating.cpp:162
#guard sameTree (.narrow [97, 123, 49, 44, 48, 125, 43, 97, 123, 49, 44, 48, 125, 43]) (Re.seq [(Re.reject true), (Re.cc (CC.chr 97))]) == some true
-- generating.cpp:164
#guard sameTree (.narrow [97, 123, 48, 44, 49, 125, 43, 97, 123, 48, 44, 48, 125, 43]) (Re.rep .poss 0 0 [(Re.cc (CC.chr 97))]) == some true
-- generating.cpp:165
#guard sameTree (.narrow [97, 123, 49, 44, 49, 125, 43, 97, 123, 48, 44, 48, 125, 43]) (Re.rep .poss 1 0 [(Re.cc (CC.chr 97))]) == some true
-- generating.cpp:166
#guard sameTree (.narrow [97, 123, 48, 44, 49, 125, 43, 97, 123, 49, 44, 48, 125, 43]) (Re.rep .poss 2 0 [(Re.cc (CC.chr 97))]) == some true
-- generating.cpp:167
#guard sameTree (.narrow [97, 123, 49, 44, 49, 125, 43, 97, 123, 49, 44, 48, 125, 43]) (Re.rep .poss 2 0 [(Re.cc (CC.chr 97))]) == some true
-- generating.cpp:169
#guard sameTree (.narrow [97, 123, 48, 44, 48, 125, 43, 97, 123, 48, 44, 49, 125, 43]) (Re.rep .poss 0 0 [(Re.cc (CC.chr 97))]) == some true
-- generating.cpp:170
#guard sameTree (.narrow [97, 123, 49, 44, 48, 125, 43, 97, 123, 48, 44, 49, 125, 43]) (Re.rep .poss 1 0 [(Re.cc (CC.chr 97))]) == some true
-- generating.cpp:171
#guard sameTree (.narrow [97, 123, 48, 44, 48, 125, 43, 97, 123, 49, 44, 49, 125, 43]) (Re.seq [(Re.reject true), (Re.cc (CC.chr 97))]) == some true
-- generating.cpp:172
#guard sameTree (.narrow [97, 123, 49, 44, 48, 125, 43, 97, 123, 49, 44, 49, 125, 43]) (Re.seq [(Re.reject true), (Re.cc (CC.chr 97))]) == some true
-- generating.cpp:174
#guard sameTree (.narrow [97, 123, 48, 44, 49, 125, 43, 97, 123, 48, 44, 49, 125, 43]) (Re.rep .poss 0 2 [(Re.cc (CC.chr 97))]) == some true
-- generating.cpp:175
#guard sameTree (.narrow [97, 123, 49, 44, 49, 125, 43, 97, 123, 48, 44, 49, 125, 43]) (Re.rep .poss 1 2 [(Re.cc (CC.chr 97))]) == some true
-- generating.cpp:176
#guard sameTree (.narrow [97, 123, 48, 44, 49, 125, 43, 97, 123, 49, 44, 49, 125, 43]) (Re.rep .poss 2 2 [(Re.cc (CC.chr 97))]) == some true
-- generating.cpp:177
#guard sameTree (.narrow [97, 123, 49, 44, 49, 125, 43, 97, 123, 49, 44, 49, 125, 43]) (Re.rep .poss 2 2 [(Re.cc (CC.chr 97))]) == some true
-- generating.cpp:179
#guard sameTree (.narrow [97, 123, 49, 44, 50, 125, 43, 97, 123, 50, 44, 48, 125, 43]) (Re.rep .poss 4 0 [(Re.cc (CC.chr 97))]) == some true
-- generating.cpp:180
#guard sameTree (.narrow [97, 123, 49, 44, 50, 125, 43, 97, 123, 49, 44, 50, 125, 43]) (Re.rep .poss 3 4 [(Re.cc (CC.chr 97))]) == some true
-- generating.cpp:181
#guard sameTree (.narrow [97, 123, 49, 44, 49, 125, 43, 97, 123, 50, 44, 48, 125, 43]) (Re.rep .poss 3 0 [(Re.cc (CC.chr 97))]) == some true
-- generating.cpp:182
#guard sameTree (.narrow [97, 123, 49, 44, 49, 125, 43, 97, 123, 49, 44, 50, 125, 43]) (Re.rep .poss 2 3 [(Re.cc (CC.chr 97))]) == some true
-- generating.cpp:186
#guard sameTree (.narrow [120, 43, 63, 120, 43]) (Re.seq [(Re.rep .lazy 1 0 [(Re.cc (CC.chr 120))]), (Re.rep .greedy 1 0 [(Re.cc (CC.chr 120))])]) == some true
-- generating.cpp:190
#guard sameTree (.narrow [99, 43, 43]) (Re.rep .poss 1 0 [(Re.cc (CC.chr 99))]) == some true
-- generating.cpp:191
#guard sameTree (.narrow [99, 43, 63]) (Re.rep .lazy 1 0 [(Re.cc (CC.chr 99))]) == some true
-- generating.cpp:192
#guard sameTree (.narrow [103, 42, 43]) (Re.rep .poss 0 0 [(Re.cc (CC.chr 103))]) == some true
-- generating.cpp:193
#guard sameTree (.narrow [103, 42, 63]) (Re.rep .lazy 0 0 [(Re.cc (CC.chr 103))]) == some true
-- generating.cpp:194
#guard sameTree (.narrow [105, 63, 63]) (Re.rep .lazy 0 1 [(Re.cc (CC.chr 105))]) == some true
-- generating.cpp:195
#guard sameTree (.narrow [108, 123, 49, 44, 50, 125, 43]) (Re.rep .poss 1 2 [(Re.cc (CC.chr 108))]) == some true
-- generating.cpp:196
#guard sameTree (.narrow [108, 123, 49, 44, 50, 125, 63]) (Re.rep .lazy 1 2 [(Re.cc (CC.chr 108))]) == some true
-- generating.cpp:197
#guard sameTree (.narrow [113, 123, 52, 44, 52, 125, 43]) (Re.rep .poss 4 4 [(Re.cc (CC.chr 113))]) == some true
-- generating.cpp:198
#guard sameTree (.narrow [113, 123, 52, 44, 52, 125, 63]) (Re.rep .lazy 4 4 [(Re.cc (CC.chr 113))]) == some true
-- generating.cpp:202
#guard sameTree (.narrow [40, 97, 41]) (Re.cap 1 none [(Re.cc (CC.chr 97))]) == some true
-- generating.cpp:203
#guard sameTree (.narrow [40, 120, 91, 99, 100, 93, 41]) (Re.cap 1 none [(Re.cc (CC.chr 120)), (Re.cc (CC.set [(CC.chr 99), (CC.chr 100)]))]) == some true
-- generating.cpp:204
#guard sameTree (.narrow [40, 120, 91, 99, 100, 93, 41, 40, 97, 98, 41]) (Re.seq [(Re.cap 1 none [(Re.cc (CC.chr 120)), (Re.cc (CC.set [(CC.chr 99), (CC.chr 100)]))]), (Re.cap 2 none [(Re.str [97, 98])])]) == some true
-- generating.cpp:205
#guard sameTree (.narrow [40, 120, 91, 99, 100, 93, 41, 40, 97, 98, 41, 43]) (Re.seq [(Re.cap 1 none [(Re.cc (CC.chr 120)), (Re.cc (CC.set [(CC.chr 99), (CC.chr 100)]))]), (Re.rep .greedy 1 0 [(Re.cap 2 none [(Re.str [97, 98])])])]) == some true
-- generating.cpp:206
#guard sameTree (.narrow [40, 63, 60, 110, 62, 120, 41]) (Re.cap 1 (some [110]) [(Re.cc (CC.chr 120))]) == some true
-- generating.cpp:207
#guard sameTree (.narrow [40, 63, 60, 110, 97, 109, 101, 62, 120, 41]) (Re.cap 1 (some [110, 97, 109, 101]) [(Re.cc (CC.chr 120))]) == some true
-- generating.cpp:208
#guard sameTree (.narrow [40, 63, 60, 110, 97, 109, 101, 62, 120, 121, 41]) (Re.cap 1 (some [110, 97, 109, 101]) [(Re.str [120, 121])]) == some true
-- generating.cpp:209
#guard sameTree (.narrow [40, 63, 60, 110, 97, 109, 101, 62, 120, 124, 121, 41]) (Re.cap 1 (some [110, 97, 109, 101]) [(Re.sel [(Re.cc (CC.chr 120)), (Re.cc (CC.chr 121))])]) == some true
-- generating.cpp:210
#guard sameTree (.narrow [40, 63, 60, 120, 121, 62, 91, 120, 93, 121, 41]) (Re.cap 1 (some [120, 121]) [(Re.cc (CC.set [(CC.chr 120)])), (Re.cc (CC.chr 121))]) == some true
-- generating.cpp:211
#guard sameTree (.narrow [40, 63, 60, 120, 121, 62, 91, 120, 93, 121, 41, 40, 97, 41]) (Re.seq [(Re.cap 1 (some [120, 121]) [(Re.cc (CC.set [(CC.chr 120)])), (Re.cc (CC.chr 121))]), (Re.cap 2 none [(Re.cc (CC.chr 97))])]) == some true
-- generating.cpp:213
#guard sameTree (.narrow [40, 41]) (Re.cap 1 none [Re.empty]) == some true
-- generating.cpp:214
#guard sameTree (.narrow [40, 97, 41, 40, 98, 41]) (Re.seq [(Re.cap 1 none [(Re.cc (CC.chr 97))]), (Re.cap 2 none [(Re.cc (CC.chr 98))])]) == some true
-- generating.cpp:215
#guard sameTree (.narrow [40, 40, 97, 41, 40, 98, 41, 41]) (Re.cap 1 none [(Re.cap 2 none [(Re.cc (CC.chr 97))]), (Re.cap 3 none [(Re.cc (CC.chr 98))])]) == some true
-- generating.cpp:216
#guard sameTree (.narrow [40, 40, 40, 97, 41, 40, 98, 41, 41, 41]) (Re.cap 1 none [(Re.cap 2 none [(Re.cap 3 none [(Re.cc (CC.chr 97))]), (Re.cap 4 none [(Re.cc (CC.chr 98))])])]) == some true
-- generating.cpp:218
#guard sameTree (.narrow [40, 40, 63, 58, 97, 41, 40, 98, 41, 41]) (Re.cap 1 none [(Re.cc (CC.chr 97)), (Re.cap 2 none [(Re.cc (CC.chr 98))])]) == some true
-- generating.cpp:222
#guard sameTree (.narrow [40, 97, 41, 92, 103, 123, 49, 125]) (Re.seq [(Re.cap 1 none [(Re.cc (CC.chr 97))]), (Re.bref 1)]) == some true
-- generating.cpp:223
#guard sameTree (.narrow [40, 63, 60, 97, 98, 62, 97, 41, 92, 103, 123, 97, 98, 125]) (Re.seq [(Re.cap 1 (some [97, 98]) [(Re.cc (CC.chr 97))]), (Re.brefName [97, 98])]) == some true
-- generating.cpp:224
#guard sameTree (.narrow [40, 40, 97, 41, 92, 103, 123, 50, 125, 41]) (Re.cap 1 none [(Re.cap 2 none [(Re.cc (CC.chr 97))]), (Re.bref 2)]) == some true
-- generating.cpp:227
#guard sameTree (.narrow [94]) Re.lBegin == some true
-- generating.cpp:228
#guard sameTree (.narrow [36]) Re.lEnd == some true
-- generating.cpp:229
#guard sameTree (.narrow [94, 36]) (Re.seq [Re.lBegin, Re.lEnd]) == some true
-- generating.cpp:230
#guard sameTree (.narrow [92, 65]) Re.sBegin == some true
-- generating.cpp:231
#guard sameTree (.narrow [92, 90]) Re.sEndLine == some true
-- generating.cpp:232
#guard sameTree (.narrow [92, 122]) Re.sEnd == some true
-- generating.cpp:234
#guard sameTree (.narrow [94, 97, 98, 99, 36]) (Re.seq [Re.lBegin, (Re.str [97, 98, 99]), Re.lEnd]) == some true
-- generating.cpp:235
#guard sameTree (.narrow [97, 98, 99, 63]) (Re.seq [(Re.str [97, 98]), (Re.rep .greedy 0 1 [(Re.cc (CC.chr 99))])]) == some true
-- generating.cpp:236
#guard sameTree (.narrow [97, 98, 99, 46]) (Re.seq [(Re.str [97, 98, 99]), Re.any]) == some true
-- generating.cpp:237
#guard sameTree (.narrow [97, 98, 99, 46, 63]) (Re.seq [(Re.str [97, 98, 99]), (Re.rep .greedy 0 1 [Re.any])]) == some true
-- generating.cpp:238
#guard sameTree (.narrow [97, 98, 99, 46, 100, 101, 102]) (Re.seq [(Re.str [97, 98, 99]), Re.any, (Re.str [100, 101, 102])]) == some true
-- generating.cpp:240
#guard sameTree (.narrow [94, 97, 124, 98, 36]) (Re.sel [(Re.seq [Re.lBegin, (Re.cc (CC.chr 97))]), (Re.seq [(Re.cc (CC.chr 98)), Re.lEnd])]) == some true
-- generating.cpp:243
#guard sameTree (.narrow [40, 63, 62, 97, 41]) (Re.atomic [(Re.cc (CC.chr 97))]) == some true
-- generating.cpp:244
#guard sameTree (.narrow [40, 63, 62, 97, 98, 41]) (Re.atomic [(Re.str [97, 98])]) == some true
-- generating.cpp:245
#guard sameTree (.narrow [40, 63, 62, 97, 43, 98, 41]) (Re.atomic [(Re.rep .greedy 1 0 [(Re.cc (CC.chr 97))]), (Re.cc (CC.chr 98))]) == some true
-- generating.cpp:248
#guard sameTree (.narrow [40, 63, 61, 97, 41]) (Re.ahead true [(Re.cc (CC.chr 97))]) == some true
-- generating.cpp:249
#guard sameTree (.narrow [40, 63, 61, 97, 120, 41]) (Re.ahead true [(Re.str [97, 120])]) == some true
-- generating.cpp:250
#guard sameTree (.narrow [40, 63, 61, 91, 97, 93, 120, 41]) (Re.ahead true [(Re.cc (CC.set [(CC.chr 97)])), (Re.cc (CC.chr 120))]) == some true
-- generating.cpp:252
#guard sameTree (.narrow [40, 63, 33, 97, 41]) (Re.ahead false [(Re.cc (CC.chr 97))]) == some true
-- generating.cpp:253
#guard sameTree (.narrow [40, 63, 33, 97, 120, 41]) (Re.ahead false [(Re.str [97, 120])]) == some true
-- generating.cpp:254
#guard sameTree (.narrow [40, 63, 33, 91, 97, 93, 120, 41]) (Re.ahead false [(Re.cc (CC.set [(CC.chr 97)])), (Re.cc (CC.chr 120))]) == some true
-- generating.cpp:256
#guard sameTree (.narrow [94, 40, 63, 61, 40, 97, 41, 41, 36]) (Re.seq [Re.lBegin, (Re.ahead true [(Re.cap 1 none [(Re.cc (CC.chr 97))])]), Re.lEnd]) == some true
-- generating.cpp:258
#guard sameTree (.narrow [94, 40, 63, 61, 46, 42, 40, 97, 41, 41, 36]) (Re.seq [Re.lBegin, (Re.ahead true [(Re.rep .greedy 0 0 [Re.any]), (Re.cap 1 none [(Re.cc (CC.chr 97))])]), Re.lEnd]) == some true
-- generating.cpp:260
#guard sameTree (.narrow [94, 40, 63, 61, 46, 42, 40, 97, 41, 46, 42, 41, 36]) (Re.seq [Re.lBegin, (Re.ahead true [(Re.rep .greedy 0 0 [Re.any]), (Re.cap 1 none [(Re.cc (CC.chr 97))]), (Re.rep .greedy 0 0 [Re.any])]), Re.lEnd]) == some true
-- generating.cpp:262
#guard sameTree (.narrow [94, 40, 63, 61, 46, 42, 40, 97, 41, 92, 103, 123, 49, 125, 46, 42, 41, 36]) (Re.seq [Re.lBegin, (Re.ahead true [(Re.rep .greedy 0 0 [Re.any]), (Re.cap 1 none [(Re.cc (CC.chr 97))]), (Re.bref 1), (Re.rep .greedy 0 0 [Re.any])]), Re.lEnd]) == some true
-- generating.cpp:264
#guard sameTree (.narrow [94, 40, 63, 61, 46, 42, 40, 97, 41, 92, 103, 123, 49, 125, 46, 42, 41, 91, 97, 45, 122, 93, 36]) (Re.seq [Re.lBegin, (Re.ahead true [(Re.rep .greedy 0 0 [Re.any]), (Re.cap 1 none [(Re.cc (CC.chr 97))]), (Re.bref 1), (Re.rep .greedy 0 0 [Re.any])]), (Re.cc (CC.set [(CC.range 97 122)])), Re.lEnd]) == some true
-- generating.cpp:267
#guard sameTree (.narrow [40, 63, 60, 61, 97, 41]) (Re.behind true [(Re.cc (CC.chr 97))]) == some true
-- generating.cpp:268
#guard sameTree (.narrow [40, 63, 60, 33, 97, 41]) (Re.behind false [(Re.cc (CC.chr 97))]) == some true
-- generating.cpp:270
#guard sameTree (.narrow [40, 63, 60, 61, 97, 98, 41]) (Re.behind true [(Re.str [98, 97])]) == some true
-- generating.cpp:271
#guard sameTree (.narrow [40, 63, 60, 33, 97, 98, 41]) (Re.behind false [(Re.str [98, 97])]) == some true
-- generating.cpp:273
#guard sameTree (.narrow [40, 63, 60, 61, 97, 98, 124, 99, 100, 41]) (Re.behind true [(Re.sel [(Re.str [98, 97]), (Re.str [100, 99])])]) == some true
-- generating.cpp:274
#guard sameTree (.narrow [40, 63, 60, 33, 97, 98, 124, 99, 100, 41]) (Re.behind false [(Re.sel [(Re.str [98, 97]), (Re.str [100, 99])])]) == some true
-- generating.cpp:276
#guard sameTree (.narrow [40, 63, 60, 61, 40, 97, 98, 41, 41]) (Re.behind true [(Re.cap 1 none [(Re.str [98, 97])])]) == some true
-- generating.cpp:277
#guard sameTree (.narrow [40, 63, 60, 33, 40, 97, 98, 41, 41]) (Re.behind false [(Re.cap 1 none [(Re.str [98, 97])])]) == some true
-- generating.cpp:121
#guard sameTree (.narrow [40, 63, 58, 120, 63, 63, 41, 63]) (Re.rep .lazy 0 1 [(Re.cc (CC.chr 120))]) == some true
-- generating.cpp:122
#guard sameTree (.narrow [40, 63, 58, 120, 63, 63, 41, 63, 63]) (Re.rep .lazy 0 1 [(Re.cc (CC.chr 120))]) == some true

end Ctre.Tests

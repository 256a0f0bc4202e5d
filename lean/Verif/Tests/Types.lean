import Verif.Tests.Basic
/-
Tests, not proofs: the assertions of /repo/tests evaluated in the model.
Generated from /repo/tests/_bad_cycle.cpp, /repo/tests/matching.cpp, /repo/tests/z_matching.cpp.
-/
set_option maxRecDepth 10000
namespace Ctre.Tests

-- matching.cpp:32
#guard (runs false .match_ (Re.cc (CC.chr 97)) (.view [97])).map (·.whole.matched) == some true
-- matching.cpp:33
#guard (runs false .search (Re.cc (CC.chr 97)) (.view [97, 98, 99])).map (·.whole.matched) == some true
-- matching.cpp:34
#guard (runs false .search (Re.cc (CC.chr 98)) (.view [97, 98, 99])).map (·.whole.matched) == some true
-- matching.cpp:35
#guard (runs false .search (Re.cc (CC.chr 99)) (.view [97, 98, 99])).map (·.whole.matched) == some true
-- matching.cpp:36
#guard (runs false .startsWith (Re.cc (CC.chr 97)) (.view [97, 98, 99])).map (·.whole.matched) == some true
-- matching.cpp:37
#guard (runs false .startsWith (Re.cc (CC.chr 98)) (.view [97, 98, 99])).map (·.whole.matched) == some false
-- matching.cpp:38
#guard (runs false .match_ (Re.cc (CC.chr 98)) (.view [97, 98, 99])).map (·.whole.matched) == some false
-- matching.cpp:39
#guard (runs false .match_ (Re.cc (CC.chr 98)) (.view [97])).map (·.whole.matched) == some false
-- matching.cpp:40
#guard (runs false .match_ Re.any (.view [97])).map (·.whole.matched) == some true
-- matching.cpp:41
#guard (runs false .match_ (Re.cc (CC.set [(CC.range 97 122)])) (.view [97])).map (·.whole.matched) == some true
-- matching.cpp:42
#guard (runs false .match_ (Re.cc (CC.set [(CC.range 97 122)])) (.view [102])).map (·.whole.matched) == some true
-- matching.cpp:43
#guard (runs false .match_ (Re.cc (CC.set [(CC.range 97 122)])) (.view [122])).map (·.whole.matched) == some true
-- matching.cpp:44
#guard (runs false .match_ (Re.cc (CC.set [(CC.range 97 122)])) (.view [90])).map (·.whole.matched) == some false
-- matching.cpp:45
#guard (runs false .match_ (Re.cc (CC.set [(CC.range 97 122), (CC.range 48 57)])) (.view [48])).map (·.whole.matched) == some true
-- matching.cpp:46
#guard (runs false .match_ (Re.cc (CC.set [(CC.range 97 122), (CC.range 48 57)])) (.view [65])).map (·.whole.matched) == some false
-- matching.cpp:47
#guard (runs false .match_ (Re.cc (CC.set [xdigitChars])) (.view [48])).map (·.whole.matched) == some true
-- matching.cpp:48
#guard (runs false .match_ (Re.cc (CC.set [xdigitChars])) (.view [57])).map (·.whole.matched) == some true
-- matching.cpp:49
#guard (runs false .match_ (Re.cc (CC.set [xdigitChars])) (.view [97])).map (·.whole.matched) == some true
-- matching.cpp:50
#guard (runs false .match_ (Re.cc (CC.set [xdigitChars])) (.view [102])).map (·.whole.matched) == some true
-- matching.cpp:51
#guard (runs false .match_ (Re.cc (CC.set [xdigitChars])) (.view [103])).map (·.whole.matched) == some false
-- matching.cpp:52
#guard (runs false .match_ (Re.str [97, 98, 99, 100, 101, 102]) (.view [97, 98, 99, 100, 101, 102])).map (·.whole.matched) == some true
-- matching.cpp:53
#guard (runs false .match_ (Re.str [97, 98, 99, 100, 101, 102]) (.view [97, 98, 99, 103, 101, 102])).map (·.whole.matched) == some false
-- matching.cpp:54
#guard (runs false .match_ (Re.str []) (.view [])).map (·.whole.matched) == some true
-- matching.cpp:55
#guard (runs false .match_ (Re.sel [(Re.cc (CC.chr 97)), (Re.cc (CC.chr 98)), (Re.cc (CC.chr 99))]) (.view [97])).map (·.whole.matched) == some true
-- matching.cpp:56
#guard (runs false .match_ (Re.sel [(Re.cc (CC.chr 97)), (Re.cc (CC.chr 98)), (Re.cc (CC.chr 99))]) (.view [98])).map (·.whole.matched) == some true
-- matching.cpp:57
#guard (runs false .match_ (Re.sel [(Re.cc (CC.chr 97)), (Re.cc (CC.chr 98)), (Re.cc (CC.chr 99))]) (.view [99])).map (·.whole.matched) == some true
-- matching.cpp:58
#guard (runs false .match_ (Re.sel [(Re.cc (CC.chr 97)), (Re.cc (CC.chr 98)), (Re.cc (CC.chr 99))]) (.view [100])).map (·.whole.matched) == some false
-- matching.cpp:59
#guard (runs false .match_ (Re.rep .greedy 0 1 [(Re.str [120, 121])]) (.view [120, 121])).map (·.whole.matched) == some true
-- matching.cpp:60
#guard (runs false .match_ (Re.rep .greedy 0 1 [(Re.str [120, 121])]) (.view [])).map (·.whole.matched) == some true
-- matching.cpp:61
#guard (runs false .match_ (Re.seq [Re.sBegin, (Re.str [97, 98, 99])]) (.view [97, 98, 99])).map (·.whole.matched) == some true
-- matching.cpp:62
#guard (runs false .match_ (Re.seq [Re.sBegin, (Re.str [100, 101, 102]), Re.sEnd]) (.view [100, 101, 102])).map (·.whole.matched) == some true
-- matching.cpp:63
#guard (runs false .match_ (Re.seq [(Re.cc (CC.chr 97)), Re.sBegin]) (.view [97])).map (·.whole.matched) == some false
-- matching.cpp:64
#guard (runs false .match_ (Re.seq [Re.sEnd, (Re.cc (CC.chr 97))]) (.view [97])).map (·.whole.matched) == some false
-- matching.cpp:66
#guard (runs false .match_ (Re.seq [(Re.rep .lazy 1 0 [(Re.cc (CC.chr 97))]), (Re.cc (CC.chr 120))]) (.view [97, 97, 97, 120])).map (·.whole.matched) == some true
-- matching.cpp:67
#guard (runs false .match_ (Re.seq [(Re.rep .lazy 1 0 [(Re.cc (CC.chr 97))]), (Re.cc (CC.chr 120))]) (.view [97, 120])).map (·.whole.matched) == some true
-- matching.cpp:68
#guard (runs false .match_ (Re.seq [(Re.rep .lazy 1 0 [(Re.cc (CC.chr 97))]), (Re.cc (CC.chr 120))]) (.view [120])).map (·.whole.matched) == some false
-- matching.cpp:70
#guard (runs false .match_ (Re.seq [(Re.rep .poss 1 0 [(Re.cc (CC.chr 97))]), (Re.cc (CC.chr 120))]) (.view [97, 97, 97, 120])).map (·.whole.matched) == some true
-- matching.cpp:71
#guard (runs false .match_ (Re.seq [(Re.rep .poss 1 0 [(Re.cc (CC.chr 97))]), (Re.cc (CC.chr 120))]) (.view [97, 120])).map (·.whole.matched) == some true
-- matching.cpp:72
#guard (runs false .match_ (Re.seq [(Re.rep .poss 1 0 [(Re.cc (CC.chr 97))]), (Re.cc (CC.chr 120))]) (.view [120])).map (·.whole.matched) == some false
-- matching.cpp:74
#guard (runs false .match_ (Re.seq [(Re.rep .lazy 0 0 [(Re.cc (CC.chr 97))]), (Re.cc (CC.chr 120))]) (.view [97, 97, 97, 120])).map (·.whole.matched) == some true
-- matching.cpp:75
#guard (runs false .match_ (Re.seq [(Re.rep .lazy 0 0 [(Re.cc (CC.chr 97))]), (Re.cc (CC.chr 120))]) (.view [97, 120])).map (·.whole.matched) == some true
-- matching.cpp:76
#guard (runs false .match_ (Re.seq [(Re.rep .lazy 0 0 [(Re.cc (CC.chr 97))]), (Re.cc (CC.chr 120))]) (.view [120])).map (·.whole.matched) == some true
-- matching.cpp:77
#guard (runs false .match_ (Re.seq [(Re.rep .lazy 0 0 [(Re.cc (CC.chr 97))]), (Re.cc (CC.chr 120))]) (.view [121])).map (·.whole.matched) == some false
-- matching.cpp:79
#guard (runs false .match_ (Re.seq [(Re.rep .poss 0 0 [(Re.cc (CC.chr 97))]), (Re.cc (CC.chr 120))]) (.view [97, 97, 97, 120])).map (·.whole.matched) == some true
-- matching.cpp:80
#guard (runs false .match_ (Re.seq [(Re.rep .poss 0 0 [(Re.cc (CC.chr 97))]), (Re.cc (CC.chr 120))]) (.view [97, 120])).map (·.whole.matched) == some true
-- matching.cpp:81
#guard (runs false .match_ (Re.seq [(Re.rep .poss 0 0 [(Re.cc (CC.chr 97))]), (Re.cc (CC.chr 120))]) (.view [120])).map (·.whole.matched) == some true
-- matching.cpp:82
#guard (runs false .match_ (Re.seq [(Re.rep .poss 0 0 [(Re.cc (CC.chr 97))]), (Re.cc (CC.chr 120))]) (.view [121])).map (·.whole.matched) == some false
-- matching.cpp:84
#guard (runs false .match_ (Re.seq [(Re.rep .poss 0 0 [(Re.cc (CC.chr 97))]), (Re.str [97, 98])]) (.view [97, 97, 97, 98])).map (·.whole.matched) == some false
-- matching.cpp:85
#guard (runs false .match_ (Re.seq [(Re.rep .poss 1 0 [(Re.cc (CC.chr 97))]), (Re.str [97, 98])]) (.view [97, 97, 97, 98])).map (·.whole.matched) == some false
-- matching.cpp:86
#guard (runs false .match_ (Re.seq [(Re.rep .poss 0 0 [(Re.cc (CC.chr 97))]), (Re.str [97, 98])]) (.view [97, 98])).map (·.whole.matched) == some false
-- matching.cpp:87
#guard (runs false .match_ (Re.seq [(Re.rep .poss 1 0 [(Re.cc (CC.chr 97))]), (Re.str [97, 98])]) (.view [97, 97, 98])).map (·.whole.matched) == some false
-- matching.cpp:89
#guard (runs false .match_ (Re.seq [(Re.rep .poss 0 0 [(Re.cc (CC.chr 97))]), (Re.str [98, 97])]) (.view [97, 97, 98, 97])).map (·.whole.matched) == some true
-- matching.cpp:90
#guard (runs false .match_ (Re.seq [(Re.rep .poss 1 0 [(Re.cc (CC.chr 97))]), (Re.str [98, 97])]) (.view [97, 97, 98, 97])).map (·.whole.matched) == some true
-- matching.cpp:91
#guard (runs false .match_ (Re.seq [(Re.rep .poss 0 0 [(Re.cc (CC.chr 97))]), (Re.str [98, 97])]) (.view [98, 97])).map (·.whole.matched) == some true
-- matching.cpp:92
#guard (runs false .match_ (Re.seq [(Re.rep .poss 1 0 [(Re.cc (CC.chr 97))]), (Re.str [98, 97])]) (.view [97, 98, 97])).map (·.whole.matched) == some true
-- matching.cpp:94
#guard (runs false .match_ (Re.seq [(Re.rep .lazy 3 0 [(Re.cc (CC.chr 97))]), (Re.cc (CC.chr 120))]) (.view [97, 97, 97, 120])).map (·.whole.matched) == some true
-- matching.cpp:96
#guard (runs false .search (Re.rep .greedy 0 5 [(Re.cc (CC.chr 97))]) (.view [97, 97, 97, 97, 97, 97])).map (·.whole.matched) == some true
-- matching.cpp:97
#guard (runs false .match_ (Re.seq [(Re.rep .greedy 0 5 [(Re.cc (CC.chr 97))]), Re.sEnd]) (.view [97, 97, 97, 97, 97, 97])).map (·.whole.matched) == some false
-- matching.cpp:98
#guard (runs false .match_ (Re.seq [(Re.rep .greedy 0 5 [(Re.cc (CC.chr 97))]), Re.sEnd]) (.view [97, 97, 97, 97, 97])).map (·.whole.matched) == some true
-- matching.cpp:100
#guard (runs false .match_ (Re.rep .greedy 0 0 [(Re.cc (CC.chr 97))]) (.view [97, 97, 97])).map (·.whole.matched) == some true
-- matching.cpp:101
#guard (runs false .match_ (Re.rep .greedy 1 0 [(Re.cc (CC.chr 97))]) (.view [97, 97, 97])).map (·.whole.matched) == some true
-- matching.cpp:102
#guard (runs false .match_ (Re.rep .greedy 0 0 [(Re.cc (CC.chr 97))]) (.view [])).map (·.whole.matched) == some true
-- matching.cpp:103
#guard (runs false .match_ (Re.rep .greedy 1 0 [(Re.cc (CC.chr 97))]) (.view [97])).map (·.whole.matched) == some true
-- matching.cpp:105
#guard (runs false .match_ (Re.seq [(Re.rep .greedy 0 0 [(Re.cc (CC.chr 97))]), (Re.str [120, 98])]) (.view [97, 97, 120, 98])).map (·.whole.matched) == some true
-- matching.cpp:106
#guard (runs false .match_ (Re.seq [(Re.rep .greedy 1 0 [(Re.cc (CC.chr 97))]), (Re.str [120, 98])]) (.view [97, 97, 120, 98])).map (·.whole.matched) == some true
-- matching.cpp:107
#guard (runs false .match_ (Re.seq [(Re.rep .greedy 0 0 [(Re.cc (CC.chr 97))]), (Re.str [120, 98])]) (.view [120, 98])).map (·.whole.matched) == some true
-- matching.cpp:108
#guard (runs false .match_ (Re.seq [(Re.rep .greedy 1 0 [(Re.cc (CC.chr 97))]), (Re.str [120, 98])]) (.view [97, 120, 98])).map (·.whole.matched) == some true
-- matching.cpp:110
#guard (runs false .match_ (Re.seq [(Re.rep .greedy 0 0 [(Re.cc (CC.chr 97))]), (Re.str [97, 98])]) (.view [97, 97, 97, 98])).map (·.whole.matched) == some true
-- matching.cpp:111
#guard (runs false .match_ (Re.seq [(Re.rep .greedy 1 0 [(Re.cc (CC.chr 97))]), (Re.str [97, 98])]) (.view [97, 97, 97, 98])).map (·.whole.matched) == some true
-- matching.cpp:112
#guard (runs false .match_ (Re.seq [(Re.rep .greedy 0 0 [(Re.cc (CC.chr 97))]), (Re.str [97, 98])]) (.view [97, 98])).map (·.whole.matched) == some true
-- matching.cpp:113
#guard (runs false .match_ (Re.seq [(Re.rep .greedy 1 0 [(Re.cc (CC.chr 97))]), (Re.str [97, 98])]) (.view [97, 97, 98])).map (·.whole.matched) == some true
-- matching.cpp:115
#guard (runs false .match_ (Re.seq [(Re.rep .greedy 2 5 [(Re.cc (CC.chr 97))]), (Re.str [97, 98])]) (.view [97, 97, 98])).map (·.whole.matched) == some false
-- matching.cpp:116
#guard (runs false .match_ (Re.seq [(Re.rep .greedy 2 5 [(Re.cc (CC.chr 97))]), (Re.str [97, 98])]) (.view [97, 97, 97, 98])).map (·.whole.matched) == some true
-- matching.cpp:117
#guard (runs false .match_ (Re.seq [(Re.rep .greedy 2 5 [(Re.cc (CC.chr 97))]), (Re.str [97, 98])]) (.view [97, 97, 97, 97, 98])).map (·.whole.matched) == some true
-- matching.cpp:118
#guard (runs false .match_ (Re.seq [(Re.rep .greedy 2 5 [(Re.cc (CC.chr 97))]), (Re.str [97, 98])]) (.view [97, 97, 97, 97, 97, 98])).map (·.whole.matched) == some true
-- matching.cpp:119
#guard (runs false .match_ (Re.seq [(Re.rep .greedy 2 5 [(Re.cc (CC.chr 97))]), (Re.str [97, 98])]) (.view [97, 97, 97, 97, 97, 97, 98])).map (·.whole.matched) == some true
-- matching.cpp:120
#guard (runs false .match_ (Re.seq [(Re.rep .greedy 2 5 [(Re.cc (CC.chr 97))]), (Re.str [97, 98])]) (.view [97, 97, 97, 97, 97, 97, 97, 98])).map (·.whole.matched) == some false
-- matching.cpp:123
#guard (runs false .match_ (Re.seq [(Re.rep .greedy 0 1 [(Re.rep .lazy 0 0 [(Re.cc (CC.chr 49))])]), (Re.cc (CC.chr 120))]) (.view [120])).map (·.whole.matched) == some true
-- matching.cpp:125
#guard (runs false .match_ (Re.seq [(Re.rep .greedy 0 1 [(Re.rep .lazy 0 1 [(Re.cc (CC.chr 49))])]), (Re.cc (CC.chr 120))]) (.view [49, 120])).map (·.whole.matched) == some true
-- matching.cpp:126
#guard (runs false .match_ (Re.seq [(Re.rep .greedy 0 1 [(Re.rep .lazy 0 0 [(Re.cc (CC.chr 49))])]), (Re.cc (CC.chr 120))]) (.view [49, 120])).map (·.whole.matched) == some true
-- matching.cpp:127
#guard (runs false .match_ (Re.seq [(Re.rep .greedy 0 1 [(Re.rep .lazy 0 0 [(Re.cc (CC.chr 49))])]), (Re.cc (CC.chr 120))]) (.view [49, 120])).map (·.whole.matched) == some true
-- matching.cpp:128
#guard (runs false .match_ (Re.seq [(Re.rep .poss 1 0 [(Re.rep .greedy 0 1 [(Re.cc (CC.chr 97))])]), (Re.cc (CC.chr 98))]) (.view [97, 97, 97, 98])).map (·.whole.matched) == some true
-- matching.cpp:130
#guard (runs false .match_ (Re.seq [(Re.rep .greedy 0 1 [(Re.rep .lazy 0 0 [(Re.cc (CC.chr 49))]), (Re.cc (CC.chr 121))]), (Re.cc (CC.chr 120))]) (.view [49, 121, 120])).map (·.whole.matched) == some true
-- matching.cpp:131
#guard (runs false .match_ (Re.rep .poss 1 0 [(Re.sel [Re.empty, (Re.cc (CC.chr 97))])]) (.view [97, 97, 97])).map (·.whole.matched) == some true
-- matching.cpp:133
#guard (runs false .match_ (Re.rep .greedy 1 0 [(Re.rep .greedy 0 0 [(Re.cc (CC.chr 120))])]) (.view [120])).map (·.whole.matched) == some true
-- matching.cpp:134
#guard (runs false .match_ (Re.rep .greedy 1 0 [(Re.rep .lazy 0 0 [(Re.cc (CC.chr 120))])]) (.view [120])).map (·.whole.matched) == some true
-- matching.cpp:135
#guard (runs false .match_ (Re.rep .greedy 1 0 [(Re.rep .poss 0 0 [(Re.cc (CC.chr 120))])]) (.view [120])).map (·.whole.matched) == some true
-- matching.cpp:137
#guard (runs false .match_ (Re.rep .lazy 1 0 [(Re.rep .greedy 0 0 [(Re.cc (CC.chr 120))])]) (.view [120])).map (·.whole.matched) == some true
-- matching.cpp:138
#guard (runs false .match_ (Re.rep .lazy 1 0 [(Re.rep .lazy 0 0 [(Re.cc (CC.chr 120))])]) (.view [120])).map (·.whole.matched) == some true
-- matching.cpp:139
#guard (runs false .match_ (Re.rep .lazy 1 0 [(Re.rep .poss 0 0 [(Re.cc (CC.chr 120))])]) (.view [120])).map (·.whole.matched) == some true
-- matching.cpp:141
#guard (runs false .match_ (Re.rep .poss 1 0 [(Re.rep .greedy 0 0 [(Re.cc (CC.chr 120))])]) (.view [120])).map (·.whole.matched) == some true
-- matching.cpp:142
#guard (runs false .match_ (Re.rep .poss 1 0 [(Re.rep .lazy 0 0 [(Re.cc (CC.chr 120))])]) (.view [120])).map (·.whole.matched) == some true
-- matching.cpp:143
#guard (runs false .match_ (Re.rep .poss 1 0 [(Re.rep .poss 0 0 [(Re.cc (CC.chr 120))])]) (.view [120])).map (·.whole.matched) == some true
-- matching.cpp:145
#guard (runs false .match_ (Re.seq [(Re.rep .greedy 1 0 [(Re.rep .greedy 0 0 [(Re.cc (CC.chr 120))])]), (Re.cc (CC.chr 121))]) (.view [120, 121])).map (·.whole.matched) == some true
-- matching.cpp:146
#guard (runs false .match_ (Re.seq [(Re.rep .greedy 1 0 [(Re.rep .lazy 0 0 [(Re.cc (CC.chr 120))])]), (Re.cc (CC.chr 121))]) (.view [120, 121])).map (·.whole.matched) == some true
-- matching.cpp:147
#guard (runs false .match_ (Re.seq [(Re.rep .greedy 1 0 [(Re.rep .poss 0 0 [(Re.cc (CC.chr 120))])]), (Re.cc (CC.chr 121))]) (.view [120, 121])).map (·.whole.matched) == some true
-- matching.cpp:149
#guard (runs false .match_ (Re.seq [(Re.rep .lazy 1 0 [(Re.rep .greedy 0 0 [(Re.cc (CC.chr 120))])]), (Re.cc (CC.chr 121))]) (.view [120, 121])).map (·.whole.matched) == some true
-- matching.cpp:150
#guard (runs false .match_ (Re.seq [(Re.rep .lazy 1 0 [(Re.rep .lazy 0 0 [(Re.cc (CC.chr 120))])]), (Re.cc (CC.chr 121))]) (.view [120, 121])).map (·.whole.matched) == some true
-- matching.cpp:151
#guard (runs false .match_ (Re.seq [(Re.rep .lazy 1 0 [(Re.rep .poss 0 0 [(Re.cc (CC.chr 120))])]), (Re.cc (CC.chr 121))]) (.view [120, 121])).map (·.whole.matched) == some true
-- matching.cpp:153
#guard (runs false .match_ (Re.seq [(Re.rep .poss 1 0 [(Re.rep .greedy 0 0 [(Re.cc (CC.chr 120))])]), (Re.cc (CC.chr 121))]) (.view [120, 121])).map (·.whole.matched) == some true
-- matching.cpp:154
#guard (runs false .match_ (Re.seq [(Re.rep .poss 1 0 [(Re.rep .lazy 0 0 [(Re.cc (CC.chr 120))])]), (Re.cc (CC.chr 121))]) (.view [120, 121])).map (·.whole.matched) == some true
-- matching.cpp:155
#guard (runs false .match_ (Re.seq [(Re.rep .poss 1 0 [(Re.rep .poss 0 0 [(Re.cc (CC.chr 120))])]), (Re.cc (CC.chr 121))]) (.view [120, 121])).map (·.whole.matched) == some true
-- matching.cpp:158
#guard (runs false .match_ (Re.seq [(Re.rep .greedy 0 0 [(Re.rep .greedy 1 0 [(Re.cc (CC.chr 120))])]), (Re.cc (CC.chr 121))]) (.view [120, 121])).map (·.whole.matched) == some true
-- matching.cpp:159
#guard (runs false .match_ (Re.seq [(Re.rep .greedy 0 0 [(Re.rep .lazy 1 0 [(Re.cc (CC.chr 120))])]), (Re.cc (CC.chr 121))]) (.view [120, 121])).map (·.whole.matched) == some true
-- matching.cpp:160
#guard (runs false .match_ (Re.seq [(Re.rep .greedy 0 0 [(Re.rep .poss 1 0 [(Re.cc (CC.chr 120))])]), (Re.cc (CC.chr 121))]) (.view [120, 121])).map (·.whole.matched) == some true
-- matching.cpp:162
#guard (runs false .match_ (Re.seq [(Re.rep .lazy 0 0 [(Re.rep .greedy 1 0 [(Re.cc (CC.chr 120))])]), (Re.cc (CC.chr 121))]) (.view [120, 121])).map (·.whole.matched) == some true
-- matching.cpp:163
#guard (runs false .match_ (Re.seq [(Re.rep .lazy 0 0 [(Re.rep .lazy 1 0 [(Re.cc (CC.chr 120))])]), (Re.cc (CC.chr 121))]) (.view [120, 121])).map (·.whole.matched) == some true
-- matching.cpp:164
#guard (runs false .match_ (Re.seq [(Re.rep .lazy 0 0 [(Re.rep .poss 1 0 [(Re.cc (CC.chr 120))])]), (Re.cc (CC.chr 121))]) (.view [120, 121])).map (·.whole.matched) == some true
-- matching.cpp:166
#guard (runs false .match_ (Re.seq [(Re.rep .poss 0 0 [(Re.rep .greedy 1 0 [(Re.cc (CC.chr 120))])]), (Re.cc (CC.chr 121))]) (.view [120, 121])).map (·.whole.matched) == some true
-- matching.cpp:167
#guard (runs false .match_ (Re.seq [(Re.rep .poss 0 0 [(Re.rep .lazy 1 0 [(Re.cc (CC.chr 120))])]), (Re.cc (CC.chr 121))]) (.view [120, 121])).map (·.whole.matched) == some true
-- matching.cpp:168
#guard (runs false .match_ (Re.seq [(Re.rep .poss 1 0 [(Re.rep .poss 0 0 [(Re.cc (CC.chr 120))])]), (Re.cc (CC.chr 121))]) (.view [120, 121])).map (·.whole.matched) == some true
-- matching.cpp:171
#guard (runs false .startsWith (Re.seq [(Re.cc (CC.chr 97)), (Re.boundary wordChars)]) (.view [97, 32])).map (·.whole.matched) == some true
-- matching.cpp:172
#guard (runs false .startsWith (Re.seq [(Re.cc (CC.chr 97)), (Re.boundary wordChars)]) (.u8 [97, 32])).map (·.whole.matched) == some true
-- matching.cpp:173
#guard (runs false .startsWith (Re.seq [(Re.rep .greedy 1 0 [(Re.cc (CC.chr 97))]), (Re.boundary wordChars), Re.any]) (.view [97, 97, 97, 97, 32])).map (·.whole.matched) == some true
-- matching.cpp:174
#guard (runs false .startsWith (Re.seq [(Re.rep .greedy 1 0 [Re.any]), (Re.boundary wordChars)]) (.view [32, 32, 97, 97, 97, 97])).map (·.whole.matched) == some true
-- matching.cpp:175
#guard (runs false .startsWith (Re.seq [(Re.rep .greedy 1 0 [(Re.cc (CC.chr 97))]), (Re.boundary wordChars), Re.any]) (.u8 [97, 97, 97, 97, 32])).map (·.whole.matched) == some true
-- matching.cpp:176
#guard (runs false .startsWith (Re.seq [(Re.rep .greedy 1 0 [Re.any]), (Re.boundary wordChars)]) (.u8 [32, 32, 97, 97, 97, 97])).map (·.whole.matched) == some true
-- matching.cpp:177
#guard (runs false .match_ (Re.seq [(Re.cc (CC.chr 97)), (Re.boundary wordChars), (Re.cc (CC.chr 32))]) (.cstr [97, 32, 0])).map (·.whole.matched) == some true
-- matching.cpp:178
#guard (runs false .match_ (Re.seq [(Re.cc (CC.chr 97)), (Re.notBoundary wordChars), (Re.cc (CC.chr 98))]) (.cstr [97, 98, 0])).map (·.whole.matched) == some true
-- matching.cpp:181
#guard (runs true .match_ Re.sBegin (.cstr [0])).map (·.whole.matched) == some true
-- matching.cpp:182
#guard (runs true .match_ Re.sEnd (.cstr [0])).map (·.whole.matched) == some true
-- matching.cpp:183
#guard (runs true .match_ Re.lBegin (.cstr [0])).map (·.whole.matched) == some true
-- matching.cpp:184
#guard (runs true .match_ Re.lEnd (.cstr [0])).map (·.whole.matched) == some true
-- matching.cpp:185
#guard (runs true .match_ Re.sEndLine (.cstr [0])).map (·.whole.matched) == some true
-- matching.cpp:186
#guard (runs true .match_ Re.any (.cstr [10, 0])).map (·.whole.matched) == some false
-- matching.cpp:187
#guard (runs true .startsWith (Re.rep .greedy 1 0 [Re.any]) (.cstr [97, 97, 97, 10, 98, 98, 98, 0])).map (·.whole.matched) == some true
-- matching.cpp:188
#guard (runs true .startsWith (Re.rep .greedy 1 0 [Re.any]) (.cstr [97, 97, 97, 10, 98, 98, 98, 0])).bind (fun c => c.whole.size) == some 3
-- matching.cpp:189
#guard (runs true .startsWith (Re.seq [(Re.rep .greedy 1 0 [Re.any]), Re.lEnd, (Re.cc (CC.chr 10))]) (.cstr [97, 97, 97, 10, 98, 98, 98, 0])).map (·.whole.matched) == some true
-- matching.cpp:190
#guard (runs true .startsWith (Re.seq [(Re.rep .greedy 1 0 [Re.any]), Re.lEnd, (Re.cc (CC.chr 10))]) (.cstr [97, 97, 97, 10, 98, 98, 98, 0])).bind (fun c => c.whole.size) == some 4
-- z_matching.cpp:21
#guard (runs false .match_ (Re.seq [(Re.rep .greedy 0 1 [(Re.rep .lazy 0 0 [Re.any])]), (Re.cc (CC.chr 120))]) (.view [120])).map (·.whole.matched) == some true
-- z_matching.cpp:22
#guard (runs false .match_ (Re.seq [(Re.rep .lazy 0 1 [(Re.rep .lazy 0 0 [Re.any])]), (Re.cc (CC.chr 120))]) (.view [49, 120])).map (·.whole.matched) == some true
-- z_matching.cpp:23
#guard (runs false .match_ (Re.seq [(Re.rep .greedy 0 1 [(Re.rep .lazy 0 0 [Re.any])]), (Re.cc (CC.chr 120))]) (.view [49, 120])).map (·.whole.matched) == some true
-- z_matching.cpp:24
#guard (runs false .match_ (Re.seq [(Re.rep .greedy 0 1 [(Re.rep .lazy 0 0 [(Re.cc (CC.chr 49))])]), (Re.cc (CC.chr 120))]) (.view [49, 120])).map (·.whole.matched) == some true
-- z_matching.cpp:25
#guard (runs false .match_ (Re.seq [(Re.rep .greedy 0 1 [(Re.rep .lazy 0 0 [(Re.cc (CC.chr 49))]), (Re.cc (CC.chr 121))]), (Re.cc (CC.chr 120))]) (.view [49, 121, 120])).map (·.whole.matched) == some true
-- z_matching.cpp:26
#guard (runs false .match_ (Re.seq [(Re.rep .poss 1 0 [(Re.rep .greedy 0 1 [(Re.cc (CC.chr 97))])]), (Re.cc (CC.chr 98))]) (.view [97, 97, 97, 98])).map (·.whole.matched) == some true
-- z_matching.cpp:27
#guard (runs false .match_ (Re.rep .poss 1 0 [(Re.sel [Re.empty, (Re.cc (CC.chr 97))])]) (.view [97, 97, 97])).map (·.whole.matched) == some true
-- z_matching.cpp:28
#guard (runs false .match_ (Re.rep .lazy 1 0 [(Re.sel [Re.empty, (Re.cc (CC.chr 97))])]) (.view [97, 97, 97])).map (·.whole.matched) == some true
-- z_matching.cpp:29
#guard (runs false .match_ (Re.rep .poss 1 0 [(Re.rep .lazy 0 0 [(Re.cc (CC.chr 97))])]) (.view [97, 97, 97, 97])).map (·.whole.matched) == some true
-- z_matching.cpp:30
#guard (runs false .match_ (Re.rep .lazy 0 0 [(Re.cc (CC.chr 98))]) (.view [])).map (·.whole.matched) == some true
-- z_matching.cpp:31
#guard (runs false .match_ (Re.rep .poss 1 0 [(Re.rep .lazy 0 0 [(Re.cc (CC.chr 97))]), (Re.rep .lazy 0 0 [(Re.cc (CC.chr 98))])]) (.view [97, 97, 97, 97])).map (·.whole.matched) == some true
-- z_matching.cpp:32
#guard (runs false .match_ (Re.rep .poss 1 0 [(Re.rep .lazy 0 0 [(Re.cc (CC.chr 97))]), (Re.rep .lazy 0 0 [(Re.cc (CC.chr 98))])]) (.view [97, 97, 97, 97, 98])).map (·.whole.matched) == some true
-- _bad_cycle.cpp:18
#guard (runs false .match_ (Re.rep .greedy 1 0 [(Re.sel [(Re.str [97, 98]), (Re.cc (CC.chr 97))])]) (.view [97, 98])).map (·.whole.matched) == some true

end Ctre.Tests

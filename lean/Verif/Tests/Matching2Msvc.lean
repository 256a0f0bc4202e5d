import Verif.Tests.Basic
/-
Tests, not proofs: the assertions of /repo/tests evaluated in the model.
Generated from /repo/tests/matching2-msvc-greedy.cpp.
-/
set_option maxRecDepth 10000
namespace Ctre.Tests

-- matching2-msvc-greedy.cpp:38
#guard found true [] .search (.narrow []) (.view [97, 98, 99]) == some true
-- matching2-msvc-greedy.cpp:39
#guard found true [] .match_ (.narrow [97, 98, 99]) (.view [97, 98, 99]) == some true
-- matching2-msvc-greedy.cpp:41
#guard found true [] .match_ (.narrow [97]) (.view [97]) == some true
-- matching2-msvc-greedy.cpp:42
#guard found true [] .search (.narrow [97]) (.view [97, 98, 99]) == some true
-- matching2-msvc-greedy.cpp:43
#guard found true [] .search (.narrow [98]) (.view [97, 98, 99]) == some true
-- matching2-msvc-greedy.cpp:44
#guard found true [] .match_ (.narrow [94, 98]) (.view [97, 98, 99]) == some false
-- matching2-msvc-greedy.cpp:45
#guard found true [] .match_ (.narrow [98]) (.view [97]) == some false
-- matching2-msvc-greedy.cpp:46
#guard found true [] .match_ (.narrow [46]) (.view [97]) == some true
-- matching2-msvc-greedy.cpp:47
#guard found true [] .search (.narrow [46]) (.view [97, 98, 99]) == some true
-- matching2-msvc-greedy.cpp:48
#guard found true [] .match_ (.narrow [91, 92, 45, 93]) (.view [45]) == some true
-- matching2-msvc-greedy.cpp:49
#guard found true [] .match_ (.narrow [91, 92, 92, 93]) (.view [92]) == some true
-- matching2-msvc-greedy.cpp:50
#guard found true [] .match_ (.narrow [91, 97, 45, 122, 93]) (.view [97]) == some true
-- matching2-msvc-greedy.cpp:51
#guard found true [] .match_ (.narrow [91, 97, 45, 122, 93]) (.view [102]) == some true
-- matching2-msvc-greedy.cpp:52
#guard found true [] .match_ (.narrow [91, 97, 45, 122, 93]) (.view [122]) == some true
-- matching2-msvc-greedy.cpp:53
#guard found true [] .match_ (.narrow [91, 97, 45, 122, 93]) (.view [90]) == some false
-- matching2-msvc-greedy.cpp:54
#guard found true [] .match_ (.narrow [92, 117, 48, 48, 53, 48]) (.view [80]) == some true
-- matching2-msvc-greedy.cpp:55
#guard found true [] .match_ (.narrow [91, 92, 117, 48, 48, 53, 48, 45, 92, 117, 48, 48, 53, 49, 93]) (.view [81]) == some true
-- matching2-msvc-greedy.cpp:56
#guard found true [] .match_ (.narrow [80]) (.view [80]) == some true
-- matching2-msvc-greedy.cpp:58
#guard found true [] .match_ (.narrow [94, 91, 92, 120, 51, 48, 45, 92, 120, 51, 57, 93, 43, 63, 36]) (.view [49, 50, 51, 52, 53, 54, 55, 56, 57]) == some true
-- matching2-msvc-greedy.cpp:59
#guard found true [] .match_ (.narrow [91, 97, 45, 122, 48, 45, 57, 93]) (.view [48]) == some true
-- matching2-msvc-greedy.cpp:60
#guard found true [] .match_ (.narrow [91, 97, 45, 122, 48, 45, 57, 93]) (.view [65]) == some false
-- matching2-msvc-greedy.cpp:61
#guard found true [] .match_ (.narrow [91, 91, 58, 120, 100, 105, 103, 105, 116, 58, 93, 93]) (.view [48]) == some true
-- matching2-msvc-greedy.cpp:62
#guard found true [] .match_ (.narrow [91, 91, 58, 120, 100, 105, 103, 105, 116, 58, 93, 93]) (.view [57]) == some true
-- matching2-msvc-greedy.cpp:63
#guard found true [] .match_ (.narrow [91, 91, 58, 120, 100, 105, 103, 105, 116, 58, 93, 93]) (.view [97]) == some true
-- matching2-msvc-greedy.cpp:64
#guard found true [] .match_ (.narrow [91, 91, 58, 120, 100, 105, 103, 105, 116, 58, 93, 93]) (.view [65]) == some true
-- matching2-msvc-greedy.cpp:65
#guard found true [] .match_ (.narrow [91, 91, 58, 120, 100, 105, 103, 105, 116, 58, 93, 93]) (.view [102]) == some true
-- matching2-msvc-greedy.cpp:66
#guard found true [] .match_ (.narrow [91, 91, 58, 120, 100, 105, 103, 105, 116, 58, 93, 93]) (.view [103]) == some false
-- matching2-msvc-greedy.cpp:67
#guard found true [] .match_ (.narrow [97, 98, 99, 100, 101, 102]) (.view [97, 98, 99, 100, 101, 102]) == some true
-- matching2-msvc-greedy.cpp:68
#guard found true [] .match_ (.narrow [97, 98, 99, 100, 101, 102]) (.view [97, 98, 99, 71, 101, 102]) == some false
-- matching2-msvc-greedy.cpp:69
#guard found true [] .match_ (.narrow []) (.view []) == some true
-- matching2-msvc-greedy.cpp:70
#guard found true [] .match_ (.narrow [40, 63, 58, 97, 124, 98, 124, 99, 41]) (.view [97]) == some true
-- matching2-msvc-greedy.cpp:71
#guard found true [] .match_ (.narrow [40, 63, 58, 97, 124, 98, 124, 99, 41]) (.view [98]) == some true
-- matching2-msvc-greedy.cpp:72
#guard found true [] .match_ (.narrow [40, 63, 58, 97, 124, 98, 124, 99, 41]) (.view [99]) == some true
-- matching2-msvc-greedy.cpp:73
#guard found true [] .match_ (.narrow [40, 63, 58, 97, 124, 98, 124, 99, 41]) (.view [100]) == some false
-- matching2-msvc-greedy.cpp:74
#guard found true [] .match_ (.narrow [40, 63, 58, 120, 121, 41, 63]) (.view [120, 121]) == some true
-- matching2-msvc-greedy.cpp:75
#guard found true [] .match_ (.narrow [40, 63, 58, 120, 121, 41, 63]) (.view []) == some true
-- matching2-msvc-greedy.cpp:76
#guard found true [] .search (.narrow [40, 63, 58, 120, 121, 41, 63]) (.view [122, 120, 121]) == some true
-- matching2-msvc-greedy.cpp:77
#guard found true [] .search (.narrow [40, 63, 58, 120, 121, 41, 63, 36]) (.view [122, 120, 121]) == some true
-- matching2-msvc-greedy.cpp:78
#guard found true [] .match_ (.narrow [126, 40, 63, 58, 120, 121, 41, 63, 36]) (.view [122, 120, 121]) == some false
-- matching2-msvc-greedy.cpp:80
#guard found true [] .match_ (.narrow [94, 97, 98, 99]) (.view [97, 98, 99]) == some true
-- matching2-msvc-greedy.cpp:81
#guard found true [] .match_ (.narrow [94, 100, 101, 102, 36]) (.view [100, 101, 102]) == some true
-- matching2-msvc-greedy.cpp:82
#guard found true [] .match_ (.narrow [97, 94]) (.view [97]) == some false
-- matching2-msvc-greedy.cpp:83
#guard found true [] .match_ (.narrow [36, 97]) (.view [97]) == some false
-- matching2-msvc-greedy.cpp:85
#guard found true [] .search (.narrow [97, 43, 63]) (.view [97, 97, 97, 120]) == some true
-- matching2-msvc-greedy.cpp:86
#guard found true [] .search (.narrow [97, 43, 63]) (.view [97, 120]) == some true
-- matching2-msvc-greedy.cpp:87
#guard found true [] .match_ (.narrow [97, 43, 63]) (.view [120]) == some false
-- matching2-msvc-greedy.cpp:89
#guard found true [] .search (.narrow [97, 43, 43]) (.view [97, 97, 97, 120]) == some true
-- matching2-msvc-greedy.cpp:90
#guard found true [] .search (.narrow [97, 43, 43]) (.view [97, 120]) == some true
-- matching2-msvc-greedy.cpp:91
#guard found true [] .match_ (.narrow [97, 43, 43]) (.view [120]) == some false
-- matching2-msvc-greedy.cpp:93
#guard found true [] .match_ (.narrow [97, 42, 63, 120]) (.view [97, 97, 97, 120]) == some true
-- matching2-msvc-greedy.cpp:94
#guard found true [] .match_ (.narrow [97, 42, 63, 120]) (.view [97, 120]) == some true
-- matching2-msvc-greedy.cpp:95
#guard found true [] .match_ (.narrow [97, 42, 63, 120]) (.view [120]) == some true
-- matching2-msvc-greedy.cpp:96
#guard found true [] .match_ (.narrow [97, 42, 63, 120]) (.view [121]) == some false
-- matching2-msvc-greedy.cpp:98
#guard found true [] .match_ (.narrow [97, 42, 43, 120]) (.view [97, 97, 97, 120]) == some true
-- matching2-msvc-greedy.cpp:99
#guard found true [] .match_ (.narrow [97, 42, 43, 120]) (.view [97, 120]) == some true
-- matching2-msvc-greedy.cpp:100
#guard found true [] .match_ (.narrow [97, 42, 43, 120]) (.view [120]) == some true
-- matching2-msvc-greedy.cpp:101
#guard found true [] .match_ (.narrow [97, 42, 43, 120]) (.view [121]) == some false
-- matching2-msvc-greedy.cpp:103
#guard found true [] .match_ (.narrow [97, 42, 43, 97, 98]) (.view [97, 97, 97, 98]) == some false
-- matching2-msvc-greedy.cpp:104
#guard found true [] .match_ (.narrow [97, 43, 43, 97, 98]) (.view [97, 97, 97, 98]) == some false
-- matching2-msvc-greedy.cpp:105
#guard found true [] .match_ (.narrow [97, 42, 43, 97, 98]) (.view [97, 98]) == some false
-- matching2-msvc-greedy.cpp:106
#guard found true [] .match_ (.narrow [97, 43, 43, 97, 98]) (.view [97, 97, 98]) == some false
-- matching2-msvc-greedy.cpp:108
#guard found true [] .match_ (.narrow [97, 42, 43, 98, 97]) (.view [97, 97, 98, 97]) == some true
-- matching2-msvc-greedy.cpp:109
#guard found true [] .match_ (.narrow [97, 43, 43, 98, 97]) (.view [97, 97, 98, 97]) == some true
-- matching2-msvc-greedy.cpp:110
#guard found true [] .match_ (.narrow [97, 42, 43, 98, 97]) (.view [98, 97]) == some true
-- matching2-msvc-greedy.cpp:111
#guard found true [] .match_ (.narrow [97, 43, 43, 98, 97]) (.view [97, 98, 97]) == some true
-- matching2-msvc-greedy.cpp:113
#guard found true [] .match_ (.narrow [97, 123, 51, 44, 125, 120]) (.view [97, 97, 97, 120]) == some true
-- matching2-msvc-greedy.cpp:114
#guard found true [] .match_ (.narrow [97, 123, 51, 44, 125, 120]) (.view [97, 97, 97, 97, 120]) == some true
-- matching2-msvc-greedy.cpp:116
#guard found true [] .match_ (.narrow [94, 97, 123, 53, 125]) (.view [97, 97, 97, 97, 97]) == some true
-- matching2-msvc-greedy.cpp:117
#guard found true [] .search (.narrow [94, 97, 123, 53, 125]) (.view [97, 97, 97, 97, 97, 97]) == some true
-- matching2-msvc-greedy.cpp:118
#guard found true [] .match_ (.narrow [94, 97, 123, 53, 125, 36]) (.view [97, 97, 97, 97, 97, 97]) == some false
-- matching2-msvc-greedy.cpp:120
#guard found true [] .match_ (.narrow [97, 42]) (.view [97, 97, 97]) == some true
-- matching2-msvc-greedy.cpp:121
#guard found true [] .match_ (.narrow [97, 43]) (.view [97, 97, 97]) == some true
-- matching2-msvc-greedy.cpp:122
#guard found true [] .match_ (.narrow [97, 42]) (.view []) == some true
-- matching2-msvc-greedy.cpp:123
#guard found true [] .match_ (.narrow [97, 43]) (.view [97]) == some true
-- matching2-msvc-greedy.cpp:125
#guard found true [] .match_ (.narrow [97, 42, 36]) (.view [97, 97, 97]) == some true
-- matching2-msvc-greedy.cpp:126
#guard found true [] .match_ (.narrow [97, 43, 36]) (.view [97, 97, 97]) == some true
-- matching2-msvc-greedy.cpp:127
#guard found true [] .match_ (.narrow [97, 42, 36]) (.view []) == some true
-- matching2-msvc-greedy.cpp:128
#guard found true [] .match_ (.narrow [97, 43, 36]) (.view [97]) == some true
-- matching2-msvc-greedy.cpp:130
#guard found true [] .match_ (.narrow [97, 42, 120, 98]) (.view [97, 97, 120, 98]) == some true
-- matching2-msvc-greedy.cpp:131
#guard found true [] .match_ (.narrow [97, 43, 120, 98]) (.view [97, 97, 120, 98]) == some true
-- matching2-msvc-greedy.cpp:132
#guard found true [] .match_ (.narrow [97, 42, 120, 98]) (.view [120, 98]) == some true
-- matching2-msvc-greedy.cpp:133
#guard found true [] .match_ (.narrow [97, 43, 120, 98]) (.view [97, 120, 98]) == some true
-- matching2-msvc-greedy.cpp:135
#guard found true [] .match_ (.narrow [97, 42, 97, 98]) (.view [97, 97, 97, 98]) == some true
-- matching2-msvc-greedy.cpp:136
#guard found true [] .match_ (.narrow [97, 43, 97, 98]) (.view [97, 97, 97, 98]) == some true
-- matching2-msvc-greedy.cpp:137
#guard found true [] .match_ (.narrow [97, 42, 97, 98]) (.view [97, 98]) == some true
-- matching2-msvc-greedy.cpp:138
#guard found true [] .match_ (.narrow [97, 43, 97, 98]) (.view [97, 97, 98]) == some true
-- matching2-msvc-greedy.cpp:140
#guard found true [] .match_ (.narrow [94, 97, 123, 50, 44, 53, 125, 97, 98]) (.view [97, 97, 98]) == some false
-- matching2-msvc-greedy.cpp:141
#guard found true [] .match_ (.narrow [94, 97, 123, 50, 44, 53, 125, 97, 98]) (.view [97, 97, 97, 98]) == some true
-- matching2-msvc-greedy.cpp:142
#guard found true [] .match_ (.narrow [94, 97, 123, 50, 44, 53, 125, 97, 98]) (.view [97, 97, 97, 97, 98]) == some true
-- matching2-msvc-greedy.cpp:143
#guard found true [] .match_ (.narrow [94, 97, 123, 50, 44, 53, 125, 97, 98]) (.view [97, 97, 97, 97, 97, 98]) == some true
-- matching2-msvc-greedy.cpp:144
#guard found true [] .match_ (.narrow [94, 97, 123, 50, 44, 53, 125, 97, 98]) (.view [97, 97, 97, 97, 97, 97, 98]) == some true
-- matching2-msvc-greedy.cpp:145
#guard found true [] .match_ (.narrow [94, 97, 123, 50, 44, 53, 125, 97, 98]) (.view [97, 97, 97, 97, 97, 97, 97, 98]) == some false
-- matching2-msvc-greedy.cpp:147
#guard found true [] .match_ (.narrow [91, 97, 45, 122, 93, 43, 91, 94, 97, 45, 122, 93, 43]) (.view [97, 98, 99, 100, 101, 102, 49, 50, 51, 52, 53, 54]) == some true
-- matching2-msvc-greedy.cpp:149
#guard found true [] .match_ (.narrow [40, 97, 98, 99, 41]) (.view [97, 98, 99]) == some true
-- matching2-msvc-greedy.cpp:150
#guard found true [] .match_ (.narrow [40, 97, 98, 99, 41, 43]) (.view [97, 98, 99]) == some true
-- matching2-msvc-greedy.cpp:151
#guard found true [] .match_ (.narrow [40, 97, 98, 99, 41, 43]) (.view [97, 98, 99, 97, 98, 99]) == some true
-- matching2-msvc-greedy.cpp:152
#guard found true [] .match_ (.narrow [40, 97, 98, 99, 41, 43]) (.view [97, 98, 99, 97, 98, 99, 97, 98, 99]) == some true
-- matching2-msvc-greedy.cpp:154
#guard found true [] .match_ (.narrow [40, 63, 60, 110, 97, 109, 101, 62, 97, 98, 99, 41]) (.view [97, 98, 99]) == some true
-- matching2-msvc-greedy.cpp:155
#guard found true [] .match_ (.narrow [40, 63, 60, 110, 97, 109, 101, 62, 97, 98, 99, 41, 43]) (.view [97, 98, 99]) == some true
-- matching2-msvc-greedy.cpp:156
#guard found true [] .match_ (.narrow [40, 63, 60, 110, 97, 109, 101, 62, 97, 98, 99, 41, 43]) (.view [97, 98, 99, 97, 98, 99]) == some true
-- matching2-msvc-greedy.cpp:157
#guard found true [] .match_ (.narrow [40, 63, 60, 110, 97, 109, 101, 62, 97, 98, 99, 41, 43]) (.view [97, 98, 99, 97, 98, 99, 97, 98, 99]) == some true
-- matching2-msvc-greedy.cpp:158
#guard found true [] .match_ (.narrow [40, 63, 60, 110, 97, 109, 101, 62, 97, 98, 99, 41, 43]) (.view [110, 97, 109, 101]) == some false
-- matching2-msvc-greedy.cpp:160
#guard group true .search (.narrow [94, 40, 91, 97, 45, 122, 93, 43, 41]) (.view [97, 98, 99, 100, 101, 102, 49, 50, 51, 52]) 0 == some [97, 98, 99, 100, 101, 102]
-- matching2-msvc-greedy.cpp:161
#guard group true .match_ (.narrow [94, 40, 91, 97, 45, 122, 93, 43, 41, 49, 50, 51, 52]) (.view [97, 98, 99, 100, 101, 102, 49, 50, 51, 52]) 0 == some [97, 98, 99, 100, 101, 102, 49, 50, 51, 52]
-- matching2-msvc-greedy.cpp:162
#guard group true .search (.narrow [94, 40, 91, 97, 45, 122, 93, 41]) (.view [97, 98, 99, 100, 101, 102, 49, 50, 51, 52]) 0 == some [97]
-- matching2-msvc-greedy.cpp:164
#guard found true [] .match_ (.narrow [94, 40, 91, 48, 45, 57, 93, 43, 91, 97, 45, 122, 93, 43, 41, 43]) (.view [49, 50, 51, 97, 98, 99, 52, 53, 54, 100, 101, 102]) == some true
-- matching2-msvc-greedy.cpp:165
#guard group true .match_ (.narrow [94, 40, 91, 48, 45, 57, 93, 43, 91, 97, 45, 122, 93, 43, 41, 43]) (.view [49, 50, 51, 97, 98, 99, 52, 53, 54, 100, 101, 102]) 1 == some [52, 53, 54, 100, 101, 102]
-- matching2-msvc-greedy.cpp:166
#guard group true .match_ (.narrow [94, 40, 91, 48, 45, 57, 93, 43, 91, 97, 45, 122, 93, 43, 41, 43]) (.view [49, 50, 51, 97, 98, 99, 52, 53, 54, 100, 101, 102]) 0 == some [49, 50, 51, 97, 98, 99, 52, 53, 54, 100, 101, 102]
-- matching2-msvc-greedy.cpp:168
#guard found true [] .match_ (.narrow [94, 40, 91, 48, 45, 57, 93, 43, 43, 91, 97, 45, 122, 93, 43, 43, 41, 43]) (.view [49, 50, 51, 97, 98, 99, 52, 53, 54, 100, 101, 102]) == some true
-- matching2-msvc-greedy.cpp:169
#guard group true .match_ (.narrow [94, 40, 91, 48, 45, 57, 93, 43, 43, 91, 97, 45, 122, 93, 43, 43, 41, 43]) (.view [49, 50, 51, 97, 98, 99, 52, 53, 54, 100, 101, 102]) 1 == some [52, 53, 54, 100, 101, 102]
-- matching2-msvc-greedy.cpp:170
#guard group true .match_ (.narrow [94, 40, 91, 48, 45, 57, 93, 43, 43, 91, 97, 45, 122, 93, 43, 43, 41, 43]) (.view [49, 50, 51, 97, 98, 99, 52, 53, 54, 100, 101, 102]) 0 == some [49, 50, 51, 97, 98, 99, 52, 53, 54, 100, 101, 102]
-- matching2-msvc-greedy.cpp:172
#guard found true [] .search (.narrow [94, 40, 91, 48, 45, 57, 93, 43, 63, 91, 97, 45, 122, 93, 43, 63, 41, 43]) (.view [49, 50, 51, 97, 98, 99, 52, 53, 54, 100, 101, 102]) == some true
-- matching2-msvc-greedy.cpp:173
#guard group true .search (.narrow [94, 40, 91, 48, 45, 57, 93, 43, 63, 91, 97, 45, 122, 93, 43, 63, 41, 43]) (.view [49, 50, 51, 97, 98, 99, 52, 53, 54, 100, 101, 102]) 1 == some [49, 50, 51, 97]
-- matching2-msvc-greedy.cpp:174
#guard group true .search (.narrow [94, 40, 91, 48, 45, 57, 93, 43, 63, 91, 97, 45, 122, 93, 43, 63, 41, 43]) (.view [49, 50, 51, 97, 98, 99, 52, 53, 54, 100, 101, 102]) 0 == some [49, 50, 51, 97]
-- matching2-msvc-greedy.cpp:176
#guard found true [] .match_ (.narrow [94, 40, 91, 48, 45, 57, 93, 43, 63, 91, 97, 45, 122, 93, 43, 43, 41, 43]) (.view [49, 50, 51, 97, 98, 99, 52, 53, 54, 100, 101, 102]) == some true
-- matching2-msvc-greedy.cpp:177
#guard group true .match_ (.narrow [94, 40, 91, 48, 45, 57, 93, 43, 63, 91, 97, 45, 122, 93, 43, 43, 41, 43]) (.view [49, 50, 51, 97, 98, 99, 52, 53, 54, 100, 101, 102]) 1 == some [52, 53, 54, 100, 101, 102]
-- matching2-msvc-greedy.cpp:178
#guard group true .match_ (.narrow [94, 40, 91, 48, 45, 57, 93, 43, 63, 91, 97, 45, 122, 93, 43, 43, 41, 43]) (.view [49, 50, 51, 97, 98, 99, 52, 53, 54, 100, 101, 102]) 0 == some [49, 50, 51, 97, 98, 99, 52, 53, 54, 100, 101, 102]
-- matching2-msvc-greedy.cpp:180
#guard group true .match_ (.narrow [94, 40, 91, 97, 45, 122, 93, 123, 50, 125, 41, 40, 91, 97, 45, 122, 93, 123, 50, 125, 41]) (.view [97, 98, 99, 100]) 2 == some [99, 100]
-- matching2-msvc-greedy.cpp:184
#guard found true [] .match_ (.narrow [94, 40, 91, 97, 45, 122, 93, 43, 41, 58, 92, 103, 123, 49, 125, 36]) (.view [97, 98, 99, 58, 97, 98, 99]) == some true
-- matching2-msvc-greedy.cpp:185
#guard group true .match_ (.narrow [94, 40, 91, 97, 45, 122, 93, 43, 41, 58, 92, 103, 123, 49, 125, 36]) (.view [97, 98, 99, 58, 97, 98, 99]) 1 == some [97, 98, 99]
-- matching2-msvc-greedy.cpp:186
#guard found true [] .match_ (.narrow [94, 40, 91, 97, 45, 122, 93, 43, 41, 58, 92, 103, 123, 49, 125, 36]) (.view [97, 98, 99, 58, 97, 98, 99, 101]) == some false
-- matching2-msvc-greedy.cpp:187
#guard found true [] .match_ (.narrow [94, 40, 91, 97, 45, 122, 93, 43, 41, 92, 103, 123, 49, 125, 36]) (.view [97, 98, 99, 97, 98, 99]) == some true
-- matching2-msvc-greedy.cpp:188
#guard found true [] .match_ (.narrow [94, 40, 91, 97, 45, 122, 93, 43, 41, 92, 103, 123, 49, 125, 36]) (.view [97, 98, 99, 97, 98, 99, 100]) == some false
-- matching2-msvc-greedy.cpp:189
#guard accepted (.narrow [94, 40, 91, 97, 45, 122, 93, 43, 41, 92, 103, 123, 45, 49, 125, 36]) == some true
-- matching2-msvc-greedy.cpp:190
#guard found true [] .match_ (.narrow [94, 40, 91, 97, 45, 122, 93, 43, 41, 92, 103, 123, 45, 49, 125, 36]) (.view [97, 98, 99, 97, 98, 99]) == some true
-- matching2-msvc-greedy.cpp:191
#guard accepted (.narrow [94, 40, 91, 97, 45, 122, 93, 43, 41, 92, 103, 123, 45, 50, 125, 36]) == some false
-- matching2-msvc-greedy.cpp:194
#guard found true [] .match_ (.narrow [94, 40, 63, 60, 116, 101, 120, 116, 62, 91, 97, 45, 122, 93, 43, 41, 58, 92, 103, 123, 116, 101, 120, 116, 125, 36]) (.view [97, 98, 99, 58, 97, 98, 99]) == some true
-- matching2-msvc-greedy.cpp:196
#guard found true [] .match_ (.narrow [94, 97, 98, 99, 36]) (.view [97, 98, 99]) == some true
-- matching2-msvc-greedy.cpp:197
#guard found true [] .match_ (.narrow [94, 97, 98, 99, 36]) (.view [97, 98, 99]) == some true
-- matching2-msvc-greedy.cpp:199
#guard found true [] .match_ (.narrow [94, 97, 98, 99, 36]) (.view [97, 98, 99]) == some true
-- matching2-msvc-greedy.cpp:200
#guard found true [] .match_ (.narrow [94, 97, 98, 99, 36]) (.view [97, 98, 99]) == some true
-- matching2-msvc-greedy.cpp:202
#guard found true [] .match_ (.narrow [92, 40, 92, 41]) (.view [40, 41]) == some true
-- matching2-msvc-greedy.cpp:203
#guard found true [] .match_ (.narrow [92, 91, 92, 93]) (.view [91, 93]) == some true
-- matching2-msvc-greedy.cpp:204
#guard found true [] .match_ (.narrow [92, 91, 92, 93]) (.view [91, 93]) == some true
-- matching2-msvc-greedy.cpp:206
#guard found true [] .match_ (.narrow [92, 91, 40, 91, 65, 45, 90, 93, 42, 63, 41, 92, 93]) (.view [91, 93]) == some true
-- matching2-msvc-greedy.cpp:207
#guard found true [] .match_ (.narrow [92, 91, 40, 91, 65, 45, 90, 93, 42, 63, 41, 92, 93]) (.view [91, 85, 82, 76, 93]) == some true
-- matching2-msvc-greedy.cpp:209
#guard found true [] .match_ (.narrow [92, 91, 40, 91, 92, 115, 92, 83, 93, 42, 63, 41, 92, 93, 92, 40, 40, 91, 92, 115, 92, 83, 93, 42, 63, 41, 92, 41]) (.cstr [91, 85, 82, 76, 93, 40, 104, 116, 116, 112, 115, 58, 47, 47, 99, 112, 112, 46, 102, 97, 105, 108, 47, 99, 116, 114, 101, 41, 0]) == some true
-- matching2-msvc-greedy.cpp:211
#guard found true [] .match_ (.narrow [97, 98, 99]) (.cstr [97, 98, 99, 0]) == some true
-- matching2-msvc-greedy.cpp:212
#guard found true [] .match_ (.narrow [91, 95, 93]) (.cstr [95, 0]) == some true
-- matching2-msvc-greedy.cpp:213
#guard found true [] .match_ (.narrow [91, 40, 41, 93]) (.cstr [40, 0]) == some true
-- matching2-msvc-greedy.cpp:214
#guard found true [] .match_ (.narrow [91, 36, 93]) (.cstr [36, 0]) == some true
-- matching2-msvc-greedy.cpp:215
#guard found true [] .match_ (.narrow [91, 42, 93]) (.cstr [42, 0]) == some true
-- matching2-msvc-greedy.cpp:216
#guard found true [] .match_ (.narrow [91, 43, 93]) (.cstr [43, 0]) == some true
-- matching2-msvc-greedy.cpp:217
#guard found true [] .match_ (.narrow [91, 63, 93]) (.cstr [63, 0]) == some true
-- matching2-msvc-greedy.cpp:218
#guard found true [] .match_ (.narrow [91, 123, 125, 93]) (.cstr [123, 0]) == some true
-- matching2-msvc-greedy.cpp:219
#guard found true [] .match_ (.narrow [91, 40, 45, 41, 93]) (.cstr [40, 0]) == some true
-- matching2-msvc-greedy.cpp:220
#guard found true [] .match_ (.narrow [91, 40, 45, 41, 93]) (.cstr [41, 0]) == some true
-- matching2-msvc-greedy.cpp:222
#guard found true [] .match_ (.narrow [91, 65, 45, 90, 95, 97, 45, 122, 93]) (.cstr [97, 0]) == some true
-- matching2-msvc-greedy.cpp:223
#guard found true [] .match_ (.narrow [91, 65, 45, 90, 95, 97, 45, 122, 93]) (.cstr [95, 0]) == some true
-- matching2-msvc-greedy.cpp:224
#guard found true [] .match_ (.narrow [91, 65, 45, 90, 95, 97, 45, 122, 93]) (.cstr [90, 0]) == some true
-- matching2-msvc-greedy.cpp:229
#guard found true [] .match_ (.narrow [60]) (.cstr [60, 0]) == some true
-- matching2-msvc-greedy.cpp:230
#guard found true [] .match_ (.narrow [40, 60, 41]) (.cstr [60, 0]) == some true
-- matching2-msvc-greedy.cpp:231
#guard found true [] .match_ (.narrow [40, 60, 62, 41]) (.cstr [60, 62, 0]) == some true
-- matching2-msvc-greedy.cpp:232
#guard found true [] .match_ (.narrow [40, 60, 62, 63, 41]) (.cstr [60, 0]) == some true
-- matching2-msvc-greedy.cpp:233
#guard found true [] .match_ (.narrow [40, 60, 63, 62, 41]) (.cstr [62, 0]) == some true
-- matching2-msvc-greedy.cpp:234
#guard found true [] .match_ (.narrow [40, 41]) (.cstr [0]) == some true
-- matching2-msvc-greedy.cpp:237
#guard combined andThen true (.narrow [91, 97, 45, 122, 93]) (.narrow [91, 48, 45, 57, 93]) (.cstr [97, 57, 0]) == some true
-- matching2-msvc-greedy.cpp:238
#guard combined orPattern true (.narrow [97]) (.narrow [98]) (.cstr [97, 0]) == some true
-- matching2-msvc-greedy.cpp:239
#guard combined orPattern true (.narrow [97]) (.narrow [98]) (.cstr [98, 0]) == some true
-- matching2-msvc-greedy.cpp:240
#guard combined orPattern true (.narrow [97]) (.narrow [98]) (.cstr [99, 0]) == some false
-- matching2-msvc-greedy.cpp:242
#guard group true .match_ (.narrow [40, 40, 97, 41, 40, 98, 41, 41]) (.view [97, 98]) 0 == some [97, 98]
-- matching2-msvc-greedy.cpp:243
#guard group true .match_ (.narrow [40, 40, 97, 41, 40, 98, 41, 41]) (.view [97, 98]) 1 == some [97, 98]
-- matching2-msvc-greedy.cpp:244
#guard group true .match_ (.narrow [40, 40, 97, 41, 40, 98, 41, 41]) (.view [97, 98]) 2 == some [97]
-- matching2-msvc-greedy.cpp:245
#guard group true .match_ (.narrow [40, 40, 97, 41, 40, 98, 41, 41]) (.view [97, 98]) 3 == some [98]
-- matching2-msvc-greedy.cpp:247
#guard group true .search (.narrow [94, 120, 40, 63, 61, 121, 41]) (.view [120, 121]) 0 == some [120]
-- matching2-msvc-greedy.cpp:248
#guard group true .search (.narrow [94, 120, 40, 63, 33, 97, 41]) (.view [120, 121]) 0 == some [120]
-- matching2-msvc-greedy.cpp:250
#guard found true [] .match_ (.narrow [97, 40, 63, 33, 51, 41, 91, 48, 45, 57, 93]) (.view [97, 48]) == some true
-- matching2-msvc-greedy.cpp:251
#guard found true [] .match_ (.narrow [97, 40, 63, 33, 51, 41, 91, 48, 45, 57, 93]) (.view [97, 57]) == some true
-- matching2-msvc-greedy.cpp:252
#guard found true [] .match_ (.narrow [97, 40, 63, 33, 51, 41, 91, 48, 45, 57, 93]) (.view [97, 51]) == some false
-- matching2-msvc-greedy.cpp:254
#guard found true [] .match_ (.narrow [46, 42, 40, 46, 41, 92, 103, 123, 49, 125, 46, 42]) (.view [97, 98, 99, 100, 101, 102, 103, 104, 105, 106, 107]) == some false
-- matching2-msvc-greedy.cpp:255
#guard found true [] .match_ (.narrow [46, 42, 40, 46, 41, 92, 103, 123, 49, 125, 46, 42]) (.view [97, 97, 98, 99, 100, 101, 102, 103, 104, 105, 106, 107]) == some true
-- matching2-msvc-greedy.cpp:256
#guard found true [] .match_ (.narrow [46, 42, 40, 46, 41, 92, 103, 123, 49, 125, 46, 42]) (.view [97, 98, 99, 100, 101, 102, 102, 103, 104, 105, 106, 107]) == some true
-- matching2-msvc-greedy.cpp:258
#guard found true [] .match_ (.narrow [40, 63, 61, 46, 42, 40, 46, 41, 92, 103, 123, 49, 125, 41, 91, 97, 45, 122, 93, 43]) (.view [97, 98, 99, 100, 101, 102, 102, 103, 104, 105, 106, 107]) == some true
-- matching2-msvc-greedy.cpp:259
#guard found true [] .match_ (.narrow [40, 63, 61, 46, 42, 40, 46, 41, 92, 103, 123, 49, 125, 123, 50, 125, 41, 91, 97, 45, 122, 93, 43]) (.view [97, 98, 99, 100, 100, 101, 102, 102, 103, 104, 105, 106, 107]) == some false
-- matching2-msvc-greedy.cpp:260
#guard found true [] .match_ (.narrow [40, 63, 61, 46, 42, 40, 46, 41, 92, 103, 123, 49, 125, 123, 50, 125, 41, 91, 97, 45, 122, 93, 43]) (.view [97, 98, 99, 100, 100, 100, 101, 102, 102, 103, 104, 105, 106, 107]) == some true
-- matching2-msvc-greedy.cpp:262
#guard found true [] .match_ (.narrow [40, 63, 33, 46, 42, 40, 46, 41, 92, 103, 123, 49, 125, 41, 91, 97, 45, 122, 93, 43]) (.view [97, 98, 99, 100, 101, 102, 103, 104]) == some true
-- matching2-msvc-greedy.cpp:263
#guard found true [] .match_ (.narrow [40, 63, 33, 46, 42, 40, 46, 41, 92, 103, 123, 49, 125, 41, 91, 97, 45, 122, 93, 43]) (.view [97, 98, 99, 100, 101, 101, 102, 103, 104]) == some false
-- matching2-msvc-greedy.cpp:265
#guard found true [] .match_ (.narrow [95]) (.view [95]) == some true
-- matching2-msvc-greedy.cpp:266
#guard found true [] .match_ (.narrow [91, 60, 93]) (.view [60]) == some true
-- matching2-msvc-greedy.cpp:267
#guard found true [] .match_ (.narrow [91, 62, 93]) (.view [62]) == some true
-- matching2-msvc-greedy.cpp:268
#guard found true [] .match_ (.narrow [91, 60, 62, 93]) (.view [60]) == some true
-- matching2-msvc-greedy.cpp:269
#guard found true [] .match_ (.narrow [91, 60, 62, 93, 43]) (.view [62, 60]) == some true
-- matching2-msvc-greedy.cpp:271
#guard found true [] .match_ (.narrow [60, 91, 97, 45, 122, 93, 43, 62]) (.view [60, 97, 108, 111, 104, 97, 62]) == some true
-- matching2-msvc-greedy.cpp:272
#guard found true [] .match_ (.narrow [40, 60, 91, 97, 45, 122, 93, 43, 62, 41, 92, 103, 123, 49, 125]) (.view [60, 97, 108, 111, 104, 97, 62, 60, 97, 108, 111, 104, 97, 62]) == some true
-- matching2-msvc-greedy.cpp:275
#guard found true [] .match_ (.narrow [91, 94, 92, 94, 93]) (.view [97]) == some true
-- matching2-msvc-greedy.cpp:276
#guard found true [] .match_ (.narrow [91, 94, 94, 93]) (.view [97]) == some true
-- matching2-msvc-greedy.cpp:277
#guard found true [] .match_ (.narrow [91, 92, 45, 93]) (.view [45]) == some true
-- matching2-msvc-greedy.cpp:278
#guard found true [] .match_ (.narrow [91, 92, 45, 45, 92, 45, 93]) (.view [45]) == some true
-- matching2-msvc-greedy.cpp:281
#guard found true [] .match_ (.narrow [91, 97, 45, 122, 93, 43, 97, 98, 99]) (.cstr [120, 120, 120, 97, 98, 99, 0]) == some true

end Ctre.Tests

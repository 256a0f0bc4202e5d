import Verif.Tests.Basic
/-
Tests, not proofs: the assertions of /repo/tests evaluated in the model.
Generated from /repo/tests/matching2.cpp.
-/
set_option maxRecDepth 10000
namespace Ctre.Tests

-- matching2.cpp:36
#guard found false [] .search (.narrow []) (.view [97, 98, 99]) == some true
-- matching2.cpp:37
#guard found false [] .match_ (.narrow [97, 98, 99]) (.view [97, 98, 99]) == some true
-- matching2.cpp:39
#guard found false [] .match_ (.narrow [97]) (.view [97]) == some true
-- matching2.cpp:40
#guard found false [] .search (.narrow [97]) (.view [97, 98, 99]) == some true
-- matching2.cpp:41
#guard found false [] .search (.narrow [98]) (.view [97, 98, 99]) == some true
-- matching2.cpp:42
#guard found false [] .match_ (.narrow [94, 98]) (.view [97, 98, 99]) == some false
-- matching2.cpp:43
#guard found false [] .match_ (.narrow [98]) (.view [97]) == some false
-- matching2.cpp:44
#guard found false [] .match_ (.narrow [46]) (.view [97]) == some true
-- matching2.cpp:45
#guard found false [] .search (.narrow [46]) (.view [97, 98, 99]) == some true
-- matching2.cpp:46
#guard found false [] .match_ (.narrow [91, 92, 45, 93]) (.view [45]) == some true
-- matching2.cpp:47
#guard found false [] .match_ (.narrow [91, 92, 92, 93]) (.view [92]) == some true
-- matching2.cpp:48
#guard found false [] .match_ (.narrow [91, 97, 45, 122, 93]) (.view [97]) == some true
-- matching2.cpp:49
#guard found false [] .match_ (.narrow [91, 97, 45, 122, 93]) (.view [102]) == some true
-- matching2.cpp:50
#guard found false [] .match_ (.narrow [91, 97, 45, 122, 93]) (.view [122]) == some true
-- matching2.cpp:51
#guard found false [] .match_ (.narrow [91, 97, 45, 122, 93]) (.view [90]) == some false
-- matching2.cpp:52
#guard found false [] .match_ (.narrow [92, 117, 48, 48, 53, 48]) (.view [80]) == some true
-- matching2.cpp:53
#guard found false [] .match_ (.narrow [91, 92, 117, 48, 48, 53, 48, 45, 92, 117, 48, 48, 53, 49, 93]) (.view [81]) == some true
-- matching2.cpp:54
#guard found false [] .match_ (.narrow [80]) (.view [80]) == some true
-- matching2.cpp:56
#guard found false [] .match_ (.narrow [94, 91, 92, 120, 51, 48, 45, 92, 120, 51, 57, 93, 43, 63, 36]) (.view [49, 50, 51, 52, 53, 54, 55, 56, 57]) == some true
-- matching2.cpp:57
#guard found false [] .match_ (.narrow [91, 97, 45, 122, 48, 45, 57, 93]) (.view [48]) == some true
-- matching2.cpp:58
#guard found false [] .match_ (.narrow [91, 97, 45, 122, 48, 45, 57, 93]) (.view [65]) == some false
-- matching2.cpp:59
#guard found false [] .match_ (.narrow [91, 91, 58, 120, 100, 105, 103, 105, 116, 58, 93, 93]) (.view [48]) == some true
-- matching2.cpp:60
#guard found false [] .match_ (.narrow [91, 91, 58, 120, 100, 105, 103, 105, 116, 58, 93, 93]) (.view [57]) == some true
-- matching2.cpp:61
#guard found false [] .match_ (.narrow [91, 91, 58, 120, 100, 105, 103, 105, 116, 58, 93, 93]) (.view [97]) == some true
-- matching2.cpp:62
#guard found false [] .match_ (.narrow [91, 91, 58, 120, 100, 105, 103, 105, 116, 58, 93, 93]) (.view [65]) == some true
-- matching2.cpp:63
#guard found false [] .match_ (.narrow [91, 91, 58, 120, 100, 105, 103, 105, 116, 58, 93, 93]) (.view [102]) == some true
-- matching2.cpp:64
#guard found false [] .match_ (.narrow [91, 91, 58, 120, 100, 105, 103, 105, 116, 58, 93, 93]) (.view [103]) == some false
-- matching2.cpp:65
#guard found false [] .match_ (.narrow [97, 98, 99, 100, 101, 102]) (.view [97, 98, 99, 100, 101, 102]) == some true
-- matching2.cpp:66
#guard found false [] .match_ (.narrow [97, 98, 99, 100, 101, 102]) (.view [97, 98, 99, 71, 101, 102]) == some false
-- matching2.cpp:67
#guard found false [] .match_ (.narrow []) (.view []) == some true
-- matching2.cpp:68
#guard found false [] .match_ (.narrow [40, 63, 58, 97, 124, 98, 124, 99, 41]) (.view [97]) == some true
-- matching2.cpp:69
#guard found false [] .match_ (.narrow [40, 63, 58, 97, 124, 98, 124, 99, 41]) (.view [98]) == some true
-- matching2.cpp:70
#guard found false [] .match_ (.narrow [40, 63, 58, 97, 124, 98, 124, 99, 41]) (.view [99]) == some true
-- matching2.cpp:71
#guard found false [] .match_ (.narrow [40, 63, 58, 97, 124, 98, 124, 99, 41]) (.view [100]) == some false
-- matching2.cpp:72
#guard found false [] .match_ (.narrow [40, 63, 58, 120, 121, 41, 63]) (.view [120, 121]) == some true
-- matching2.cpp:73
#guard found false [] .match_ (.narrow [40, 63, 58, 120, 121, 41, 63]) (.view []) == some true
-- matching2.cpp:74
#guard found false [] .search (.narrow [40, 63, 58, 120, 121, 41, 63]) (.view [122, 120, 121]) == some true
-- matching2.cpp:75
#guard found false [] .search (.narrow [40, 63, 58, 120, 121, 41, 63, 36]) (.view [122, 120, 121]) == some true
-- matching2.cpp:76
#guard found false [] .match_ (.narrow [126, 40, 63, 58, 120, 121, 41, 63, 36]) (.view [122, 120, 121]) == some false
-- matching2.cpp:78
#guard found false [] .match_ (.narrow [94, 97, 98, 99]) (.view [97, 98, 99]) == some true
-- matching2.cpp:79
#guard found false [] .match_ (.narrow [94, 100, 101, 102, 36]) (.view [100, 101, 102]) == some true
-- matching2.cpp:80
#guard found false [] .match_ (.narrow [97, 94]) (.view [97]) == some false
-- matching2.cpp:81
#guard found false [] .match_ (.narrow [36, 97]) (.view [97]) == some false
-- matching2.cpp:83
#guard found false [] .search (.narrow [97, 43, 63]) (.view [97, 97, 97, 120]) == some true
-- matching2.cpp:84
#guard found false [] .search (.narrow [97, 43, 63]) (.view [97, 120]) == some true
-- matching2.cpp:85
#guard found false [] .match_ (.narrow [97, 43, 63]) (.view [120]) == some false
-- matching2.cpp:87
#guard found false [] .search (.narrow [97, 43, 43]) (.view [97, 97, 97, 120]) == some true
-- matching2.cpp:88
#guard found false [] .search (.narrow [97, 43, 43]) (.view [97, 120]) == some true
-- matching2.cpp:89
#guard found false [] .match_ (.narrow [97, 43, 43]) (.view [120]) == some false
-- matching2.cpp:91
#guard found false [] .match_ (.narrow [97, 42, 63, 120]) (.view [97, 97, 97, 120]) == some true
-- matching2.cpp:92
#guard found false [] .match_ (.narrow [97, 42, 63, 120]) (.view [97, 120]) == some true
-- matching2.cpp:93
#guard found false [] .match_ (.narrow [97, 42, 63, 120]) (.view [120]) == some true
-- matching2.cpp:94
#guard found false [] .match_ (.narrow [97, 42, 63, 120]) (.view [121]) == some false
-- matching2.cpp:96
#guard found false [] .match_ (.narrow [97, 42, 43, 120]) (.view [97, 97, 97, 120]) == some true
-- matching2.cpp:97
#guard found false [] .match_ (.narrow [97, 42, 43, 120]) (.view [97, 120]) == some true
-- matching2.cpp:98
#guard found false [] .match_ (.narrow [97, 42, 43, 120]) (.view [120]) == some true
-- matching2.cpp:99
#guard found false [] .match_ (.narrow [97, 42, 43, 120]) (.view [121]) == some false
-- matching2.cpp:101
#guard found false [] .match_ (.narrow [97, 42, 43, 97, 98]) (.view [97, 97, 97, 98]) == some false
-- matching2.cpp:102
#guard found false [] .match_ (.narrow [97, 43, 43, 97, 98]) (.view [97, 97, 97, 98]) == some false
-- matching2.cpp:103
#guard found false [] .match_ (.narrow [97, 42, 43, 97, 98]) (.view [97, 98]) == some false
-- matching2.cpp:104
#guard found false [] .match_ (.narrow [97, 43, 43, 97, 98]) (.view [97, 97, 98]) == some false
-- matching2.cpp:106
#guard found false [] .match_ (.narrow [97, 42, 43, 98, 97]) (.view [97, 97, 98, 97]) == some true
-- matching2.cpp:107
#guard found false [] .match_ (.narrow [97, 43, 43, 98, 97]) (.view [97, 97, 98, 97]) == some true
-- matching2.cpp:108
#guard found false [] .match_ (.narrow [97, 42, 43, 98, 97]) (.view [98, 97]) == some true
-- matching2.cpp:109
#guard found false [] .match_ (.narrow [97, 43, 43, 98, 97]) (.view [97, 98, 97]) == some true
-- matching2.cpp:111
#guard found false [] .match_ (.narrow [97, 123, 51, 44, 125, 120]) (.view [97, 97, 97, 120]) == some true
-- matching2.cpp:112
#guard found false [] .match_ (.narrow [97, 123, 51, 44, 125, 120]) (.view [97, 97, 97, 97, 120]) == some true
-- matching2.cpp:114
#guard found false [] .match_ (.narrow [94, 97, 123, 53, 125]) (.view [97, 97, 97, 97, 97]) == some true
-- matching2.cpp:115
#guard found false [] .search (.narrow [94, 97, 123, 53, 125]) (.view [97, 97, 97, 97, 97, 97]) == some true
-- matching2.cpp:116
#guard found false [] .match_ (.narrow [94, 97, 123, 53, 125, 36]) (.view [97, 97, 97, 97, 97, 97]) == some false
-- matching2.cpp:118
#guard found false [] .match_ (.narrow [97, 42]) (.view [97, 97, 97]) == some true
-- matching2.cpp:119
#guard found false [] .match_ (.narrow [97, 43]) (.view [97, 97, 97]) == some true
-- matching2.cpp:120
#guard found false [] .match_ (.narrow [97, 42]) (.view []) == some true
-- matching2.cpp:121
#guard found false [] .match_ (.narrow [97, 43]) (.view [97]) == some true
-- matching2.cpp:123
#guard found false [] .match_ (.narrow [97, 42, 36]) (.view [97, 97, 97]) == some true
-- matching2.cpp:124
#guard found false [] .match_ (.narrow [97, 43, 36]) (.view [97, 97, 97]) == some true
-- matching2.cpp:125
#guard found false [] .match_ (.narrow [97, 42, 36]) (.view []) == some true
-- matching2.cpp:126
#guard found false [] .match_ (.narrow [97, 43, 36]) (.view [97]) == some true
-- matching2.cpp:128
#guard found false [] .match_ (.narrow [97, 42, 120, 98]) (.view [97, 97, 120, 98]) == some true
-- matching2.cpp:129
#guard found false [] .match_ (.narrow [97, 43, 120, 98]) (.view [97, 97, 120, 98]) == some true
-- matching2.cpp:130
#guard found false [] .match_ (.narrow [97, 42, 120, 98]) (.view [120, 98]) == some true
-- matching2.cpp:131
#guard found false [] .match_ (.narrow [97, 43, 120, 98]) (.view [97, 120, 98]) == some true
-- matching2.cpp:133
#guard found false [] .match_ (.narrow [97, 42, 97, 98]) (.view [97, 97, 97, 98]) == some true
-- matching2.cpp:134
#guard found false [] .match_ (.narrow [97, 43, 97, 98]) (.view [97, 97, 97, 98]) == some true
-- matching2.cpp:135
#guard found false [] .match_ (.narrow [97, 42, 97, 98]) (.view [97, 98]) == some true
-- matching2.cpp:136
#guard found false [] .match_ (.narrow [97, 43, 97, 98]) (.view [97, 97, 98]) == some true
-- matching2.cpp:138
#guard found false [] .match_ (.narrow [94, 97, 123, 50, 44, 53, 125, 97, 98]) (.view [97, 97, 98]) == some false
-- matching2.cpp:139
#guard found false [] .match_ (.narrow [94, 97, 123, 50, 44, 53, 125, 97, 98]) (.view [97, 97, 97, 98]) == some true
-- matching2.cpp:140
#guard found false [] .match_ (.narrow [94, 97, 123, 50, 44, 53, 125, 97, 98]) (.view [97, 97, 97, 97, 98]) == some true
-- matching2.cpp:141
#guard found false [] .match_ (.narrow [94, 97, 123, 50, 44, 53, 125, 97, 98]) (.view [97, 97, 97, 97, 97, 98]) == some true
-- matching2.cpp:142
#guard found false [] .match_ (.narrow [94, 97, 123, 50, 44, 53, 125, 97, 98]) (.view [97, 97, 97, 97, 97, 97, 98]) == some true
-- matching2.cpp:143
#guard found false [] .match_ (.narrow [94, 97, 123, 50, 44, 53, 125, 97, 98]) (.view [97, 97, 97, 97, 97, 97, 97, 98]) == some false
-- matching2.cpp:145
#guard found false [] .match_ (.narrow [91, 97, 45, 122, 93, 43, 91, 94, 97, 45, 122, 93, 43]) (.view [97, 98, 99, 100, 101, 102, 49, 50, 51, 52, 53, 54]) == some true
-- matching2.cpp:147
#guard found false [] .match_ (.narrow [40, 97, 98, 99, 41]) (.view [97, 98, 99]) == some true
-- matching2.cpp:148
#guard found false [] .match_ (.narrow [40, 97, 98, 99, 41, 43]) (.view [97, 98, 99]) == some true
-- matching2.cpp:149
#guard found false [] .match_ (.narrow [40, 97, 98, 99, 41, 43]) (.view [97, 98, 99, 97, 98, 99]) == some true
-- matching2.cpp:150
#guard found false [] .match_ (.narrow [40, 97, 98, 99, 41, 43]) (.view [97, 98, 99, 97, 98, 99, 97, 98, 99]) == some true
-- matching2.cpp:152
#guard found false [] .match_ (.narrow [40, 63, 60, 110, 97, 109, 101, 62, 97, 98, 99, 41]) (.view [97, 98, 99]) == some true
-- matching2.cpp:153
#guard found false [] .match_ (.narrow [40, 63, 60, 110, 97, 109, 101, 62, 97, 98, 99, 41, 43]) (.view [97, 98, 99]) == some true
-- matching2.cpp:154
#guard found false [] .match_ (.narrow [40, 63, 60, 110, 97, 109, 101, 62, 97, 98, 99, 41, 43]) (.view [97, 98, 99, 97, 98, 99]) == some true
-- matching2.cpp:155
#guard found false [] .match_ (.narrow [40, 63, 60, 110, 97, 109, 101, 62, 97, 98, 99, 41, 43]) (.view [97, 98, 99, 97, 98, 99, 97, 98, 99]) == some true
-- matching2.cpp:156
#guard found false [] .match_ (.narrow [40, 63, 60, 110, 97, 109, 101, 62, 97, 98, 99, 41, 43]) (.view [110, 97, 109, 101]) == some false
-- matching2.cpp:158
#guard group false .search (.narrow [94, 40, 91, 97, 45, 122, 93, 43, 41]) (.view [97, 98, 99, 100, 101, 102, 49, 50, 51, 52]) 0 == some [97, 98, 99, 100, 101, 102]
-- matching2.cpp:159
#guard group false .match_ (.narrow [94, 40, 91, 97, 45, 122, 93, 43, 41, 49, 50, 51, 52]) (.view [97, 98, 99, 100, 101, 102, 49, 50, 51, 52]) 0 == some [97, 98, 99, 100, 101, 102, 49, 50, 51, 52]
-- matching2.cpp:160
#guard group false .search (.narrow [94, 40, 91, 97, 45, 122, 93, 41]) (.view [97, 98, 99, 100, 101, 102, 49, 50, 51, 52]) 0 == some [97]
-- matching2.cpp:162
#guard found false [] .match_ (.narrow [94, 40, 91, 48, 45, 57, 93, 43, 91, 97, 45, 122, 93, 43, 41, 43]) (.view [49, 50, 51, 97, 98, 99, 52, 53, 54, 100, 101, 102]) == some true
-- matching2.cpp:163
#guard group false .match_ (.narrow [94, 40, 91, 48, 45, 57, 93, 43, 91, 97, 45, 122, 93, 43, 41, 43]) (.view [49, 50, 51, 97, 98, 99, 52, 53, 54, 100, 101, 102]) 1 == some [52, 53, 54, 100, 101, 102]
-- matching2.cpp:164
#guard group false .match_ (.narrow [94, 40, 91, 48, 45, 57, 93, 43, 91, 97, 45, 122, 93, 43, 41, 43]) (.view [49, 50, 51, 97, 98, 99, 52, 53, 54, 100, 101, 102]) 0 == some [49, 50, 51, 97, 98, 99, 52, 53, 54, 100, 101, 102]
-- matching2.cpp:166
#guard found false [] .match_ (.narrow [94, 40, 91, 48, 45, 57, 93, 43, 43, 91, 97, 45, 122, 93, 43, 43, 41, 43]) (.view [49, 50, 51, 97, 98, 99, 52, 53, 54, 100, 101, 102]) == some true
-- matching2.cpp:167
#guard group false .match_ (.narrow [94, 40, 91, 48, 45, 57, 93, 43, 43, 91, 97, 45, 122, 93, 43, 43, 41, 43]) (.view [49, 50, 51, 97, 98, 99, 52, 53, 54, 100, 101, 102]) 1 == some [52, 53, 54, 100, 101, 102]
-- matching2.cpp:168
#guard group false .match_ (.narrow [94, 40, 91, 48, 45, 57, 93, 43, 43, 91, 97, 45, 122, 93, 43, 43, 41, 43]) (.view [49, 50, 51, 97, 98, 99, 52, 53, 54, 100, 101, 102]) 0 == some [49, 50, 51, 97, 98, 99, 52, 53, 54, 100, 101, 102]
-- matching2.cpp:170
#guard found false [] .search (.narrow [94, 40, 91, 48, 45, 57, 93, 43, 63, 91, 97, 45, 122, 93, 43, 63, 41, 43]) (.view [49, 50, 51, 97, 98, 99, 52, 53, 54, 100, 101, 102]) == some true
-- matching2.cpp:171
#guard group false .search (.narrow [94, 40, 91, 48, 45, 57, 93, 43, 63, 91, 97, 45, 122, 93, 43, 63, 41, 43]) (.view [49, 50, 51, 97, 98, 99, 52, 53, 54, 100, 101, 102]) 1 == some [49, 50, 51, 97]
-- matching2.cpp:172
#guard group false .search (.narrow [94, 40, 91, 48, 45, 57, 93, 43, 63, 91, 97, 45, 122, 93, 43, 63, 41, 43]) (.view [49, 50, 51, 97, 98, 99, 52, 53, 54, 100, 101, 102]) 0 == some [49, 50, 51, 97]
-- matching2.cpp:174
#guard found false [] .match_ (.narrow [94, 40, 91, 48, 45, 57, 93, 43, 63, 91, 97, 45, 122, 93, 43, 43, 41, 43]) (.view [49, 50, 51, 97, 98, 99, 52, 53, 54, 100, 101, 102]) == some true
-- matching2.cpp:175
#guard group false .match_ (.narrow [94, 40, 91, 48, 45, 57, 93, 43, 63, 91, 97, 45, 122, 93, 43, 43, 41, 43]) (.view [49, 50, 51, 97, 98, 99, 52, 53, 54, 100, 101, 102]) 1 == some [52, 53, 54, 100, 101, 102]
-- matching2.cpp:176
#guard group false .match_ (.narrow [94, 40, 91, 48, 45, 57, 93, 43, 63, 91, 97, 45, 122, 93, 43, 43, 41, 43]) (.view [49, 50, 51, 97, 98, 99, 52, 53, 54, 100, 101, 102]) 0 == some [49, 50, 51, 97, 98, 99, 52, 53, 54, 100, 101, 102]
-- matching2.cpp:178
#guard group false .match_ (.narrow [94, 40, 91, 97, 45, 122, 93, 123, 50, 125, 41, 40, 91, 97, 45, 122, 93, 123, 50, 125, 41]) (.view [97, 98, 99, 100]) 2 == some [99, 100]
-- matching2.cpp:182
#guard found false [] .match_ (.narrow [94, 40, 91, 97, 45, 122, 93, 43, 41, 58, 92, 103, 123, 49, 125, 36]) (.view [97, 98, 99, 58, 97, 98, 99]) == some true
-- matching2.cpp:183
#guard group false .match_ (.narrow [94, 40, 91, 97, 45, 122, 93, 43, 41, 58, 92, 103, 123, 49, 125, 36]) (.view [97, 98, 99, 58, 97, 98, 99]) 1 == some [97, 98, 99]
-- matching2.cpp:184
#guard found false [] .match_ (.narrow [94, 40, 91, 97, 45, 122, 93, 43, 41, 58, 92, 103, 123, 49, 125, 36]) (.view [97, 98, 99, 58, 97, 98, 99, 101]) == some false
-- matching2.cpp:185
#guard found false [] .match_ (.narrow [94, 40, 91, 97, 45, 122, 93, 43, 41, 92, 103, 123, 49, 125, 36]) (.view [97, 98, 99, 97, 98, 99]) == some true
-- matching2.cpp:186
#guard found false [] .match_ (.narrow [94, 40, 91, 97, 45, 122, 93, 43, 41, 92, 103, 123, 49, 125, 36]) (.view [97, 98, 99, 97, 98, 99, 100]) == some false
-- matching2.cpp:187
#guard accepted (.narrow [94, 40, 91, 97, 45, 122, 93, 43, 41, 92, 103, 123, 45, 49, 125, 36]) == some true
-- matching2.cpp:188
#guard found false [] .match_ (.narrow [94, 40, 91, 97, 45, 122, 93, 43, 41, 92, 103, 123, 45, 49, 125, 36]) (.view [97, 98, 99, 97, 98, 99]) == some true
-- matching2.cpp:189
#guard accepted (.narrow [94, 40, 91, 97, 45, 122, 93, 43, 41, 92, 103, 123, 45, 50, 125, 36]) == some false
-- matching2.cpp:192
#guard found false [] .match_ (.narrow [94, 40, 63, 60, 116, 101, 120, 116, 62, 91, 97, 45, 122, 93, 43, 41, 58, 92, 103, 123, 116, 101, 120, 116, 125, 36]) (.view [97, 98, 99, 58, 97, 98, 99]) == some true
-- matching2.cpp:194
#guard found false [] .match_ (.narrow [94, 97, 98, 99, 36]) (.view [97, 98, 99]) == some true
-- matching2.cpp:195
#guard found false [] .match_ (.narrow [94, 97, 98, 99, 36]) (.view [97, 98, 99]) == some true
-- matching2.cpp:197
#guard found false [] .match_ (.narrow [94, 97, 98, 99, 36]) (.view [97, 98, 99]) == some true
-- matching2.cpp:198
#guard found false [] .match_ (.narrow [94, 97, 98, 99, 36]) (.view [97, 98, 99]) == some true
-- matching2.cpp:200
#guard found false [] .match_ (.narrow [92, 40, 92, 41]) (.view [40, 41]) == some true
-- matching2.cpp:201
#guard found false [] .match_ (.narrow [92, 91, 92, 93]) (.view [91, 93]) == some true
-- matching2.cpp:202
#guard found false [] .match_ (.narrow [92, 91, 92, 93]) (.view [91, 93]) == some true
-- matching2.cpp:204
#guard found false [] .match_ (.narrow [92, 91, 40, 91, 65, 45, 90, 93, 42, 63, 41, 92, 93]) (.view [91, 93]) == some true
-- matching2.cpp:205
#guard found false [] .match_ (.narrow [92, 91, 40, 91, 65, 45, 90, 93, 42, 63, 41, 92, 93]) (.view [91, 85, 82, 76, 93]) == some true
-- matching2.cpp:207
#guard found false [] .match_ (.narrow [92, 91, 40, 91, 92, 115, 92, 83, 93, 42, 63, 41, 92, 93, 92, 40, 40, 91, 92, 115, 92, 83, 93, 42, 63, 41, 92, 41]) (.cstr [91, 85, 82, 76, 93, 40, 104, 116, 116, 112, 115, 58, 47, 47, 99, 112, 112, 46, 102, 97, 105, 108, 47, 99, 116, 114, 101, 41, 0]) == some true
-- matching2.cpp:209
#guard found false [] .match_ (.narrow [92, 115]) (.cstr [32, 0]) == some true
-- matching2.cpp:210
#guard found false [] .match_ (.narrow [91, 91, 58, 115, 112, 97, 99, 101, 58, 93, 93]) (.cstr [32, 0]) == some true
-- matching2.cpp:211
#guard found false [] .match_ (.narrow [92, 104]) (.cstr [32, 0]) == some true
-- matching2.cpp:212
#guard found false [] .match_ (.narrow [92, 104]) (.cstr [8201, 0]) == some true
-- matching2.cpp:213
#guard found false [] .match_ (.narrow [92, 118]) (.cstr [10, 0]) == some true
-- matching2.cpp:215
#guard found false [] .match_ (.narrow [92, 83]) (.cstr [65, 0]) == some true
-- matching2.cpp:216
#guard found false [] .match_ (.narrow [92, 72]) (.cstr [65, 0]) == some true
-- matching2.cpp:217
#guard found false [] .match_ (.narrow [92, 86]) (.cstr [65, 0]) == some true
-- matching2.cpp:220
#guard found false [] .match_ (.narrow [97, 98, 99]) (.cstr [97, 98, 99, 0]) == some true
-- matching2.cpp:221
#guard found false [] .match_ (.narrow [91, 95, 93]) (.cstr [95, 0]) == some true
-- matching2.cpp:222
#guard found false [] .match_ (.narrow [91, 40, 41, 93]) (.cstr [40, 0]) == some true
-- matching2.cpp:223
#guard found false [] .match_ (.narrow [91, 36, 93]) (.cstr [36, 0]) == some true
-- matching2.cpp:224
#guard found false [] .match_ (.narrow [91, 42, 93]) (.cstr [42, 0]) == some true
-- matching2.cpp:225
#guard found false [] .match_ (.narrow [91, 43, 93]) (.cstr [43, 0]) == some true
-- matching2.cpp:226
#guard found false [] .match_ (.narrow [91, 63, 93]) (.cstr [63, 0]) == some true
-- matching2.cpp:227
#guard found false [] .match_ (.narrow [91, 123, 125, 93]) (.cstr [123, 0]) == some true
-- matching2.cpp:228
#guard found false [] .match_ (.narrow [91, 40, 45, 41, 93]) (.cstr [40, 0]) == some true
-- matching2.cpp:229
#guard found false [] .match_ (.narrow [91, 40, 45, 41, 93]) (.cstr [41, 0]) == some true
-- matching2.cpp:231
#guard found false [] .match_ (.narrow [91, 65, 45, 90, 95, 97, 45, 122, 93]) (.cstr [97, 0]) == some true
-- matching2.cpp:232
#guard found false [] .match_ (.narrow [91, 65, 45, 90, 95, 97, 45, 122, 93]) (.cstr [95, 0]) == some true
-- matching2.cpp:233
#guard found false [] .match_ (.narrow [91, 65, 45, 90, 95, 97, 45, 122, 93]) (.cstr [90, 0]) == some true
-- matching2.cpp:237
#guard found false [] .match_ (.narrow [60]) (.cstr [60, 0]) == some true
-- matching2.cpp:238
#guard found false [] .match_ (.narrow [40, 60, 41]) (.cstr [60, 0]) == some true
-- matching2.cpp:239
#guard found false [] .match_ (.narrow [40, 60, 62, 41]) (.cstr [60, 62, 0]) == some true
-- matching2.cpp:240
#guard found false [] .match_ (.narrow [40, 60, 62, 63, 41]) (.cstr [60, 0]) == some true
-- matching2.cpp:241
#guard found false [] .match_ (.narrow [40, 60, 63, 62, 41]) (.cstr [62, 0]) == some true
-- matching2.cpp:242
#guard found false [] .match_ (.narrow [40, 41]) (.cstr [0]) == some true
-- matching2.cpp:245
#guard combined andThen false (.narrow [91, 97, 45, 122, 93]) (.narrow [91, 48, 45, 57, 93]) (.cstr [97, 57, 0]) == some true
-- matching2.cpp:246
#guard combined orPattern false (.narrow [97]) (.narrow [98]) (.cstr [97, 0]) == some true
-- matching2.cpp:247
#guard combined orPattern false (.narrow [97]) (.narrow [98]) (.cstr [98, 0]) == some true
-- matching2.cpp:248
#guard combined orPattern false (.narrow [97]) (.narrow [98]) (.cstr [99, 0]) == some false
-- matching2.cpp:250
#guard group false .match_ (.narrow [40, 40, 97, 41, 40, 98, 41, 41]) (.view [97, 98]) 0 == some [97, 98]
-- matching2.cpp:251
#guard group false .match_ (.narrow [40, 40, 97, 41, 40, 98, 41, 41]) (.view [97, 98]) 1 == some [97, 98]
-- matching2.cpp:252
#guard group false .match_ (.narrow [40, 40, 97, 41, 40, 98, 41, 41]) (.view [97, 98]) 2 == some [97]
-- matching2.cpp:253
#guard group false .match_ (.narrow [40, 40, 97, 41, 40, 98, 41, 41]) (.view [97, 98]) 3 == some [98]
-- matching2.cpp:255
#guard group false .search (.narrow [94, 120, 40, 63, 61, 121, 41]) (.view [120, 121]) 0 == some [120]
-- matching2.cpp:256
#guard group false .search (.narrow [94, 120, 40, 63, 33, 97, 41]) (.view [120, 121]) 0 == some [120]
-- matching2.cpp:258
#guard found false [] .match_ (.narrow [97, 40, 63, 33, 51, 41, 91, 48, 45, 57, 93]) (.view [97, 48]) == some true
-- matching2.cpp:259
#guard found false [] .match_ (.narrow [97, 40, 63, 33, 51, 41, 91, 48, 45, 57, 93]) (.view [97, 57]) == some true
-- matching2.cpp:260
#guard found false [] .match_ (.narrow [97, 40, 63, 33, 51, 41, 91, 48, 45, 57, 93]) (.view [97, 51]) == some false
-- matching2.cpp:262
#guard found false [] .match_ (.narrow [46, 42, 40, 46, 41, 92, 103, 123, 49, 125, 46, 42]) (.view [97, 98, 99, 100, 101, 102, 103, 104, 105, 106, 107]) == some false
-- matching2.cpp:263
#guard found false [] .match_ (.narrow [46, 42, 40, 46, 41, 92, 103, 123, 49, 125, 46, 42]) (.view [97, 97, 98, 99, 100, 101, 102, 103, 104, 105, 106, 107]) == some true
-- matching2.cpp:264
#guard found false [] .match_ (.narrow [46, 42, 40, 46, 41, 92, 103, 123, 49, 125, 46, 42]) (.view [97, 98, 99, 100, 101, 102, 102, 103, 104, 105, 106, 107]) == some true
-- matching2.cpp:266
#guard found false [] .match_ (.narrow [40, 63, 61, 46, 42, 40, 46, 41, 92, 103, 123, 49, 125, 41, 91, 97, 45, 122, 93, 43]) (.view [97, 98, 99, 100, 101, 102, 102, 103, 104, 105, 106, 107]) == some true
-- matching2.cpp:267
#guard found false [] .match_ (.narrow [40, 63, 61, 46, 42, 40, 46, 41, 92, 103, 123, 49, 125, 123, 50, 125, 41, 91, 97, 45, 122, 93, 43]) (.view [97, 98, 99, 100, 100, 101, 102, 102, 103, 104, 105, 106, 107]) == some false
-- matching2.cpp:268
#guard found false [] .match_ (.narrow [40, 63, 61, 46, 42, 40, 46, 41, 92, 103, 123, 49, 125, 123, 50, 125, 41, 91, 97, 45, 122, 93, 43]) (.view [97, 98, 99, 100, 100, 100, 101, 102, 102, 103, 104, 105, 106, 107]) == some true
-- matching2.cpp:270
#guard found false [] .match_ (.narrow [40, 63, 33, 46, 42, 40, 46, 41, 92, 103, 123, 49, 125, 41, 91, 97, 45, 122, 93, 43]) (.view [97, 98, 99, 100, 101, 102, 103, 104]) == some true
-- matching2.cpp:271
#guard found false [] .match_ (.narrow [40, 63, 33, 46, 42, 40, 46, 41, 92, 103, 123, 49, 125, 41, 91, 97, 45, 122, 93, 43]) (.view [97, 98, 99, 100, 101, 101, 102, 103, 104]) == some false
-- matching2.cpp:273
#guard found false [] .match_ (.narrow [95]) (.view [95]) == some true
-- matching2.cpp:274
#guard found false [] .match_ (.narrow [91, 60, 93]) (.view [60]) == some true
-- matching2.cpp:275
#guard found false [] .match_ (.narrow [91, 62, 93]) (.view [62]) == some true
-- matching2.cpp:276
#guard found false [] .match_ (.narrow [91, 60, 62, 93]) (.view [60]) == some true
-- matching2.cpp:277
#guard found false [] .match_ (.narrow [91, 60, 62, 93, 43]) (.view [62, 60]) == some true
-- matching2.cpp:279
#guard found false [] .match_ (.narrow [60, 91, 97, 45, 122, 93, 43, 62]) (.view [60, 97, 108, 111, 104, 97, 62]) == some true
-- matching2.cpp:280
#guard found false [] .match_ (.narrow [40, 60, 91, 97, 45, 122, 93, 43, 62, 41, 92, 103, 123, 49, 125]) (.view [60, 97, 108, 111, 104, 97, 62, 60, 97, 108, 111, 104, 97, 62]) == some true
-- matching2.cpp:283
#guard found false [] .match_ (.narrow [91, 94, 92, 94, 93]) (.view [97]) == some true
-- matching2.cpp:284
#guard found false [] .match_ (.narrow [91, 94, 94, 93]) (.view [97]) == some true
-- matching2.cpp:285
#guard found false [] .match_ (.narrow [91, 92, 45, 93]) (.view [45]) == some true
-- matching2.cpp:287
#guard found false [] .match_ (.narrow [91, 92, 45, 45, 92, 45, 93]) (.view [45]) == some true
-- matching2.cpp:290
#guard found false [] .match_ (.narrow [40, 124, 97, 41, 43]) (.view [97, 97, 97, 97, 97, 97]) == some true
-- matching2.cpp:293
#guard found false [] .match_ (.narrow [34]) (.view [34]) == some true
-- matching2.cpp:294
#guard found false [] .match_ (.narrow [91, 34, 93]) (.view [34]) == some true
-- matching2.cpp:295
#guard found false [] .match_ (.narrow [91, 94, 34, 93]) (.view [97]) == some true
-- matching2.cpp:296
#guard found false [] .match_ (.narrow [60]) (.view [60]) == some true
-- matching2.cpp:297
#guard found false [] .match_ (.narrow [91, 60, 93]) (.view [60]) == some true
-- matching2.cpp:298
#guard found false [] .match_ (.narrow [92, 60]) (.view [60]) == some true
-- matching2.cpp:299
#guard found false [] .match_ (.narrow [91, 92, 60, 93]) (.view [60]) == some true
-- matching2.cpp:300
#guard found false [] .match_ (.narrow [91, 94, 60, 93]) (.view [97]) == some true
-- matching2.cpp:303
#guard found false [] .match_ (.narrow [91, 92, 43, 92, 45, 93]) (.view [43]) == some true
-- matching2.cpp:304
#guard found false [] .match_ (.narrow [91, 92, 43, 92, 45, 93]) (.view [45]) == some true
-- matching2.cpp:305
#guard found false [] .match_ (.narrow [91, 91, 58, 112, 117, 110, 99, 116, 58, 93, 93]) (.cstr [45, 0]) == some true
-- matching2.cpp:306
#guard found false [] .match_ (.narrow [91, 91, 58, 112, 117, 110, 99, 116, 58, 93, 93]) (.cstr [43, 0]) == some true
-- matching2.cpp:307
#guard found false [] .search (.narrow [91, 92, 43, 92, 45, 93]) (.view [97, 43, 99]) == some true
-- matching2.cpp:308
#guard found false [] .match_ (.narrow [94, 40, 63, 61, 46, 42, 63, 91, 92, 43, 92, 45, 93, 41, 91, 97, 45, 122, 32, 91, 58, 112, 117, 110, 99, 116, 58, 93, 93, 123, 56, 44, 125, 36]) (.view [97, 98, 99, 100, 101, 102, 103, 45]) == some true
-- matching2.cpp:309
#guard found false [] .match_ (.narrow [94, 40, 63, 61, 46, 42, 63, 91, 92, 43, 92, 45, 93, 41, 91, 97, 45, 122, 32, 91, 58, 112, 117, 110, 99, 116, 58, 93, 93, 123, 56, 44, 125, 36]) (.view [97, 98, 99, 100, 101, 102, 103, 43]) == some true

end Ctre.Tests

import Verif.Tests.Basic
/-
Tests, not proofs: the assertions of /repo/tests evaluated in the model.
Generated from /repo/tests/ci.cpp, /repo/tests/is_prime.cpp, /repo/tests/matching3.cpp, /repo/tests/msvc.cpp, /repo/tests/range.cpp.
-/
set_option maxRecDepth 10000
namespace Ctre.Tests

-- matching3.cpp:31
#guard found false [] .match_ (.narrow [98, 108, 97, 98, 108, 97]) (.cstr [98, 108, 97, 98, 108, 97, 0]) == some true
-- matching3.cpp:32
#guard found false [] .match_ (.narrow [98, 108, 97, 98, 108, 97]) (.cstr [98, 108, 97, 98, 108, 97, 50, 0]) == some false
-- matching3.cpp:34
#guard found false [] .search (.narrow []) (.cstr [97, 98, 99, 0]) == some true
-- matching3.cpp:35
#guard found false [] .match_ (.narrow [97, 98, 99]) (.cstr [97, 98, 99, 0]) == some true
-- matching3.cpp:37
#guard found false [] .match_ (.narrow [97]) (.cstr [97, 0]) == some true
-- matching3.cpp:38
#guard found false [] .search (.narrow [97]) (.cstr [97, 98, 99, 0]) == some true
-- matching3.cpp:39
#guard found false [] .search (.narrow [98]) (.cstr [97, 98, 99, 0]) == some true
-- matching3.cpp:40
#guard found false [] .match_ (.narrow [94, 98]) (.cstr [97, 98, 99, 0]) == some false
-- matching3.cpp:41
#guard found false [] .match_ (.narrow [98]) (.cstr [97, 0]) == some false
-- matching3.cpp:42
#guard found false [] .match_ (.narrow [46]) (.cstr [97, 0]) == some true
-- matching3.cpp:43
#guard found false [] .search (.narrow [46]) (.cstr [97, 98, 99, 0]) == some true
-- matching3.cpp:44
#guard found false [] .match_ (.narrow [91, 92, 45, 93]) (.cstr [45, 0]) == some true
-- matching3.cpp:45
#guard found false [] .match_ (.narrow [91, 92, 92, 93]) (.cstr [92, 0]) == some true
-- matching3.cpp:46
#guard found false [] .match_ (.narrow [91, 97, 45, 122, 93]) (.cstr [97, 0]) == some true
-- matching3.cpp:47
#guard found false [] .match_ (.narrow [91, 97, 45, 122, 93]) (.cstr [102, 0]) == some true
-- matching3.cpp:48
#guard found false [] .match_ (.narrow [91, 97, 45, 122, 93]) (.cstr [122, 0]) == some true
-- matching3.cpp:49
#guard found false [] .match_ (.narrow [91, 97, 45, 122, 93]) (.cstr [90, 0]) == some false
-- matching3.cpp:50
#guard found false [] .match_ (.narrow [94, 91, 92, 120, 51, 48, 45, 92, 120, 51, 57, 93, 43, 63, 36]) (.cstr [49, 50, 51, 52, 53, 54, 55, 56, 57, 0]) == some true
-- matching3.cpp:51
#guard found false [] .match_ (.narrow [91, 97, 45, 122, 48, 45, 57, 93]) (.cstr [48, 0]) == some true
-- matching3.cpp:52
#guard found false [] .match_ (.narrow [91, 97, 45, 122, 48, 45, 57, 93]) (.cstr [65, 0]) == some false
-- matching3.cpp:53
#guard found false [] .match_ (.narrow [91, 91, 58, 120, 100, 105, 103, 105, 116, 58, 93, 93]) (.cstr [48, 0]) == some true
-- matching3.cpp:54
#guard found false [] .match_ (.narrow [91, 91, 58, 120, 100, 105, 103, 105, 116, 58, 93, 93]) (.cstr [57, 0]) == some true
-- matching3.cpp:55
#guard found false [] .match_ (.narrow [91, 91, 58, 120, 100, 105, 103, 105, 116, 58, 93, 93]) (.cstr [97, 0]) == some true
-- matching3.cpp:56
#guard found false [] .match_ (.narrow [91, 91, 58, 120, 100, 105, 103, 105, 116, 58, 93, 93]) (.cstr [65, 0]) == some true
-- matching3.cpp:57
#guard found false [] .match_ (.narrow [91, 91, 58, 120, 100, 105, 103, 105, 116, 58, 93, 93]) (.cstr [102, 0]) == some true
-- matching3.cpp:58
#guard found false [] .match_ (.narrow [91, 91, 58, 120, 100, 105, 103, 105, 116, 58, 93, 93]) (.cstr [103, 0]) == some false
-- matching3.cpp:59
#guard found false [] .match_ (.narrow [97, 98, 99, 100, 101, 102]) (.cstr [97, 98, 99, 100, 101, 102, 0]) == some true
-- matching3.cpp:60
#guard found false [] .match_ (.narrow [97, 98, 99, 100, 101, 102]) (.cstr [97, 98, 99, 71, 101, 102, 0]) == some false
-- matching3.cpp:61
#guard found false [] .match_ (.narrow []) (.cstr [0]) == some true
-- matching3.cpp:62
#guard found false [] .match_ (.narrow [40, 63, 58, 97, 124, 98, 124, 99, 41]) (.cstr [97, 0]) == some true
-- matching3.cpp:63
#guard found false [] .match_ (.narrow [40, 63, 58, 97, 124, 98, 124, 99, 41]) (.cstr [98, 0]) == some true
-- matching3.cpp:64
#guard found false [] .match_ (.narrow [40, 63, 58, 97, 124, 98, 124, 99, 41]) (.cstr [99, 0]) == some true
-- matching3.cpp:65
#guard found false [] .match_ (.narrow [40, 63, 58, 97, 124, 98, 124, 99, 41]) (.cstr [100, 0]) == some false
-- matching3.cpp:66
#guard found false [] .match_ (.narrow [40, 63, 58, 120, 121, 41, 63]) (.cstr [120, 121, 0]) == some true
-- matching3.cpp:67
#guard found false [] .match_ (.narrow [40, 63, 58, 120, 121, 41, 63]) (.cstr [0]) == some true
-- matching3.cpp:68
#guard found false [] .search (.narrow [40, 63, 58, 120, 121, 41, 63]) (.cstr [122, 120, 121, 0]) == some true
-- matching3.cpp:69
#guard found false [] .search (.narrow [40, 63, 58, 120, 121, 41, 63, 36]) (.cstr [122, 120, 121, 0]) == some true
-- matching3.cpp:70
#guard found false [] .match_ (.narrow [126, 40, 63, 58, 120, 121, 41, 63, 36]) (.cstr [122, 120, 121, 0]) == some false
-- matching3.cpp:72
#guard found false [] .match_ (.narrow [94, 97, 98, 99]) (.cstr [97, 98, 99, 0]) == some true
-- matching3.cpp:73
#guard found false [] .match_ (.narrow [94, 100, 101, 102, 36]) (.cstr [100, 101, 102, 0]) == some true
-- matching3.cpp:74
#guard found false [] .match_ (.narrow [97, 94]) (.cstr [97, 0]) == some false
-- matching3.cpp:75
#guard found false [] .match_ (.narrow [36, 97]) (.cstr [97, 0]) == some false
-- matching3.cpp:77
#guard found false [] .search (.narrow [97, 43, 63]) (.cstr [97, 97, 97, 120, 0]) == some true
-- matching3.cpp:78
#guard found false [] .search (.narrow [97, 43, 63]) (.cstr [97, 120, 0]) == some true
-- matching3.cpp:79
#guard found false [] .match_ (.narrow [97, 43, 63]) (.cstr [120, 0]) == some false
-- matching3.cpp:81
#guard found false [] .search (.narrow [97, 43, 43]) (.cstr [97, 97, 97, 120, 0]) == some true
-- matching3.cpp:82
#guard found false [] .search (.narrow [97, 43, 43]) (.cstr [97, 120, 0]) == some true
-- matching3.cpp:83
#guard found false [] .match_ (.narrow [97, 43, 43]) (.cstr [120, 0]) == some false
-- matching3.cpp:85
#guard found false [] .match_ (.narrow [97, 42, 63, 120]) (.cstr [97, 97, 97, 120, 0]) == some true
-- matching3.cpp:86
#guard found false [] .match_ (.narrow [97, 42, 63, 120]) (.cstr [97, 120, 0]) == some true
-- matching3.cpp:87
#guard found false [] .match_ (.narrow [97, 42, 63, 120]) (.cstr [120, 0]) == some true
-- matching3.cpp:88
#guard found false [] .match_ (.narrow [97, 42, 63, 120]) (.cstr [121, 0]) == some false
-- matching3.cpp:90
#guard found false [] .match_ (.narrow [97, 42, 43, 120]) (.cstr [97, 97, 97, 120, 0]) == some true
-- matching3.cpp:91
#guard found false [] .match_ (.narrow [97, 42, 43, 120]) (.cstr [97, 120, 0]) == some true
-- matching3.cpp:92
#guard found false [] .match_ (.narrow [97, 42, 43, 120]) (.cstr [120, 0]) == some true
-- matching3.cpp:93
#guard found false [] .match_ (.narrow [97, 42, 43, 120]) (.cstr [121, 0]) == some false
-- matching3.cpp:95
#guard found false [] .match_ (.narrow [97, 42, 43, 97, 98]) (.cstr [97, 97, 97, 98, 0]) == some false
-- matching3.cpp:96
#guard found false [] .match_ (.narrow [97, 43, 43, 97, 98]) (.cstr [97, 97, 97, 98, 0]) == some false
-- matching3.cpp:97
#guard found false [] .match_ (.narrow [97, 42, 43, 97, 98]) (.cstr [97, 98, 0]) == some false
-- matching3.cpp:98
#guard found false [] .match_ (.narrow [97, 43, 43, 97, 98]) (.cstr [97, 97, 98, 0]) == some false
-- matching3.cpp:100
#guard found false [] .match_ (.narrow [97, 42, 43, 98, 97]) (.cstr [97, 97, 98, 97, 0]) == some true
-- matching3.cpp:101
#guard found false [] .match_ (.narrow [97, 43, 43, 98, 97]) (.cstr [97, 97, 98, 97, 0]) == some true
-- matching3.cpp:102
#guard found false [] .match_ (.narrow [97, 42, 43, 98, 97]) (.cstr [98, 97, 0]) == some true
-- matching3.cpp:103
#guard found false [] .match_ (.narrow [97, 43, 43, 98, 97]) (.cstr [97, 98, 97, 0]) == some true
-- matching3.cpp:105
#guard found false [] .match_ (.narrow [97, 123, 51, 44, 125, 120]) (.cstr [97, 97, 97, 120, 0]) == some true
-- matching3.cpp:106
#guard found false [] .match_ (.narrow [97, 123, 51, 44, 125, 120]) (.cstr [97, 97, 97, 97, 120, 0]) == some true
-- matching3.cpp:108
#guard found false [] .match_ (.narrow [94, 97, 123, 53, 125]) (.cstr [97, 97, 97, 97, 97, 0]) == some true
-- matching3.cpp:109
#guard found false [] .search (.narrow [94, 97, 123, 53, 125]) (.cstr [97, 97, 97, 97, 97, 97, 0]) == some true
-- matching3.cpp:110
#guard found false [] .match_ (.narrow [94, 97, 123, 53, 125, 36]) (.cstr [97, 97, 97, 97, 97, 97, 0]) == some false
-- matching3.cpp:112
#guard found false [] .match_ (.narrow [97, 42]) (.cstr [97, 97, 97, 0]) == some true
-- matching3.cpp:113
#guard found false [] .match_ (.narrow [97, 43]) (.cstr [97, 97, 97, 0]) == some true
-- matching3.cpp:114
#guard found false [] .match_ (.narrow [97, 42]) (.cstr [0]) == some true
-- matching3.cpp:115
#guard found false [] .match_ (.narrow [97, 43]) (.cstr [97, 0]) == some true
-- matching3.cpp:117
#guard found false [] .match_ (.narrow [97, 42, 36]) (.cstr [97, 97, 97, 0]) == some true
-- matching3.cpp:118
#guard found false [] .match_ (.narrow [97, 43, 36]) (.cstr [97, 97, 97, 0]) == some true
-- matching3.cpp:119
#guard found false [] .match_ (.narrow [97, 42, 36]) (.cstr [0]) == some true
-- matching3.cpp:120
#guard found false [] .match_ (.narrow [97, 43, 36]) (.cstr [97, 0]) == some true
-- matching3.cpp:122
#guard found false [] .match_ (.narrow [97, 42, 120, 98]) (.cstr [97, 97, 120, 98, 0]) == some true
-- matching3.cpp:123
#guard found false [] .match_ (.narrow [97, 43, 120, 98]) (.cstr [97, 97, 120, 98, 0]) == some true
-- matching3.cpp:124
#guard found false [] .match_ (.narrow [97, 42, 120, 98]) (.cstr [120, 98, 0]) == some true
-- matching3.cpp:125
#guard found false [] .match_ (.narrow [97, 43, 120, 98]) (.cstr [97, 120, 98, 0]) == some true
-- matching3.cpp:127
#guard found false [] .match_ (.narrow [97, 42, 97, 98]) (.cstr [97, 97, 97, 98, 0]) == some true
-- matching3.cpp:128
#guard found false [] .match_ (.narrow [97, 43, 97, 98]) (.cstr [97, 97, 97, 98, 0]) == some true
-- matching3.cpp:129
#guard found false [] .match_ (.narrow [97, 42, 97, 98]) (.cstr [97, 98, 0]) == some true
-- matching3.cpp:130
#guard found false [] .match_ (.narrow [97, 43, 97, 98]) (.cstr [97, 97, 98, 0]) == some true
-- matching3.cpp:132
#guard found false [] .match_ (.narrow [94, 97, 123, 50, 44, 53, 125, 97, 98]) (.cstr [97, 97, 98, 0]) == some false
-- matching3.cpp:133
#guard found false [] .match_ (.narrow [94, 97, 123, 50, 44, 53, 125, 97, 98]) (.cstr [97, 97, 97, 98, 0]) == some true
-- matching3.cpp:134
#guard found false [] .match_ (.narrow [94, 97, 123, 50, 44, 53, 125, 97, 98]) (.cstr [97, 97, 97, 97, 98, 0]) == some true
-- matching3.cpp:135
#guard found false [] .match_ (.narrow [94, 97, 123, 50, 44, 53, 125, 97, 98]) (.cstr [97, 97, 97, 97, 97, 98, 0]) == some true
-- matching3.cpp:136
#guard found false [] .match_ (.narrow [94, 97, 123, 50, 44, 53, 125, 97, 98]) (.cstr [97, 97, 97, 97, 97, 97, 98, 0]) == some true
-- matching3.cpp:137
#guard found false [] .match_ (.narrow [94, 97, 123, 50, 44, 53, 125, 97, 98]) (.cstr [97, 97, 97, 97, 97, 97, 97, 98, 0]) == some false
-- matching3.cpp:139
#guard found false [] .match_ (.narrow [40, 97, 98, 99, 41]) (.cstr [97, 98, 99, 0]) == some true
-- matching3.cpp:140
#guard found false [] .match_ (.narrow [40, 97, 98, 99, 41, 43]) (.cstr [97, 98, 99, 0]) == some true
-- matching3.cpp:141
#guard found false [] .match_ (.narrow [40, 97, 98, 99, 41, 43]) (.cstr [97, 98, 99, 97, 98, 99, 0]) == some true
-- matching3.cpp:142
#guard found false [] .match_ (.narrow [40, 97, 98, 99, 41, 43]) (.cstr [97, 98, 99, 97, 98, 99, 97, 98, 99, 0]) == some true
-- matching3.cpp:144
#guard found false [] .match_ (.narrow [40, 63, 60, 110, 97, 109, 101, 62, 97, 98, 99, 41]) (.cstr [97, 98, 99, 0]) == some true
-- matching3.cpp:145
#guard found false [] .match_ (.narrow [40, 63, 60, 110, 97, 109, 101, 62, 97, 98, 99, 41, 43]) (.cstr [97, 98, 99, 0]) == some true
-- matching3.cpp:146
#guard found false [] .match_ (.narrow [40, 63, 60, 110, 97, 109, 101, 62, 97, 98, 99, 41, 43]) (.cstr [97, 98, 99, 97, 98, 99, 0]) == some true
-- matching3.cpp:147
#guard found false [] .match_ (.narrow [40, 63, 60, 110, 97, 109, 101, 62, 97, 98, 99, 41, 43]) (.cstr [97, 98, 99, 97, 98, 99, 97, 98, 99, 0]) == some true
-- matching3.cpp:148
#guard found false [] .match_ (.narrow [40, 63, 60, 110, 97, 109, 101, 62, 97, 98, 99, 41, 43]) (.cstr [110, 97, 109, 101, 0]) == some false
-- matching3.cpp:154
#guard found false [] .match_ (.narrow [94, 40, 91, 48, 45, 57, 93, 43, 91, 97, 45, 122, 93, 43, 41, 43]) (.cstr [49, 50, 51, 97, 98, 99, 52, 53, 54, 100, 101, 102, 0]) == some true
-- matching3.cpp:158
#guard found false [] .match_ (.narrow [94, 40, 91, 48, 45, 57, 93, 43, 43, 91, 97, 45, 122, 93, 43, 43, 41, 43]) (.cstr [49, 50, 51, 97, 98, 99, 52, 53, 54, 100, 101, 102, 0]) == some true
-- matching3.cpp:162
#guard found false [] .search (.narrow [94, 40, 91, 48, 45, 57, 93, 43, 63, 91, 97, 45, 122, 93, 43, 63, 41, 43]) (.cstr [49, 50, 51, 97, 98, 99, 52, 53, 54, 100, 101, 102, 0]) == some true
-- matching3.cpp:166
#guard found false [] .match_ (.narrow [94, 40, 91, 48, 45, 57, 93, 43, 63, 91, 97, 45, 122, 93, 43, 43, 41, 43]) (.cstr [49, 50, 51, 97, 98, 99, 52, 53, 54, 100, 101, 102, 0]) == some true
-- matching3.cpp:173
#guard found false [] .match_ (.narrow [94, 40, 91, 97, 45, 122, 93, 43, 41, 58, 92, 103, 123, 49, 125, 36]) (.view [97, 98, 99, 58, 97, 98, 99]) == some true
-- matching3.cpp:175
#guard found false [] .match_ (.narrow [94, 40, 91, 97, 45, 122, 93, 43, 41, 58, 92, 103, 123, 49, 125, 36]) (.view [97, 98, 99, 58, 97, 98, 99, 101]) == some false
-- matching3.cpp:176
#guard found false [] .match_ (.narrow [94, 40, 91, 97, 45, 122, 93, 43, 41, 92, 103, 123, 49, 125, 36]) (.view [97, 98, 99, 97, 98, 99]) == some true
-- matching3.cpp:177
#guard found false [] .match_ (.narrow [94, 40, 91, 97, 45, 122, 93, 43, 41, 92, 103, 123, 49, 125, 36]) (.view [97, 98, 99, 97, 98, 99, 100]) == some false
-- matching3.cpp:179
#guard found false [] .match_ (.narrow [94, 40, 91, 97, 45, 122, 93, 43, 41, 92, 103, 123, 45, 49, 125, 36]) (.view [97, 98, 99, 97, 98, 99]) == some true
-- matching3.cpp:182
#guard found false [] .match_ (.narrow [94, 40, 63, 60, 116, 101, 120, 116, 62, 91, 97, 45, 122, 93, 43, 41, 58, 92, 103, 123, 116, 101, 120, 116, 125, 36]) (.view [97, 98, 99, 58, 97, 98, 99]) == some true
-- matching3.cpp:184
#guard found false [] .match_ (.narrow [94, 97, 98, 99, 36]) (.cstr [97, 98, 99, 0]) == some true
-- matching3.cpp:191
#guard found false [] .match_ (.narrow [92, 91, 92, 93]) (.cstr [91, 93, 0]) == some true
-- matching3.cpp:193
#guard found false [] .match_ (.narrow [97, 43, 40, 63, 33, 98, 41]) (.cstr [97, 97, 97, 97, 97, 97, 0]) == some true
-- matching3.cpp:194
#guard found false [] .match_ (.narrow [97, 43, 40, 63, 33, 98, 41, 46]) (.cstr [97, 97, 97, 97, 97, 97, 99, 0]) == some true
-- matching3.cpp:195
#guard found false [] .match_ (.narrow [97, 43, 40, 63, 61, 98, 41, 46]) (.cstr [97, 97, 97, 97, 97, 97, 98, 0]) == some true
-- matching3.cpp:197
#guard found false [] .match_ (.narrow [97, 43, 43, 97]) (.view [97, 97, 97]) == some false
-- matching3.cpp:198
#guard found false [] .match_ (.narrow [97, 43, 43, 97, 42, 43]) (.view [97, 97, 97]) == some true
-- matching3.cpp:200
#guard found false [] .match_ (.narrow [94, 40, 92, 119, 43, 41]) (.cstr [87, 79, 82, 68, 0]) == some true
-- matching3.cpp:203
#guard found false [] .match_ (.narrow [40, 63, 61, 102, 111, 111, 41, 102, 111, 111]) (.cstr [102, 111, 111, 0]) == some true
-- matching3.cpp:204
#guard found false [] .match_ (.narrow [40, 63, 33, 110, 111, 116, 102, 111, 111, 41, 102, 111, 111]) (.cstr [102, 111, 111, 0]) == some true
-- matching3.cpp:206
#guard found false [] .match_ (.narrow [97, 98, 40, 63, 60, 61, 97, 98, 41, 102, 111, 111]) (.cstr [97, 98, 102, 111, 111, 0]) == some true
-- matching3.cpp:207
#guard found false [] .match_ (.narrow [97, 98, 40, 63, 60, 33, 102, 111, 111, 41, 102, 111, 111]) (.cstr [97, 98, 102, 111, 111, 0]) == some true
-- matching3.cpp:210
#guard found false [] .match_ (.narrow [40, 63, 105, 41, 65, 66, 40, 63, 99, 41, 65, 66]) (.cstr [97, 98, 65, 66, 0]) == some true
-- matching3.cpp:214
#guard found false [] .match_ (.narrow [120, 43, 63]) (.cstr [120, 0]) == some true
-- matching3.cpp:215
#guard found false [] .match_ (.narrow [120, 43]) (.cstr [120, 0]) == some true
-- matching3.cpp:216
#guard found false [] .match_ (.narrow [120, 43, 63]) (.cstr [120, 0]) == some true
-- matching3.cpp:217
#guard found false [] .match_ (.narrow [120, 43]) (.cstr [120, 0]) == some true
-- matching3.cpp:218
#guard found false [] .match_ (.narrow [120, 43, 63]) (.u8 [120]) == some true
-- matching3.cpp:219
#guard found false [] .match_ (.narrow [120, 43]) (.u8 [120]) == some true
-- matching3.cpp:220
#guard found false [] .search (.narrow [40, 63, 60, 33, 97, 41, 98]) (.cstr [120, 98, 0]) == some true
-- matching3.cpp:221
#guard found false [] .search (.narrow [40, 63, 60, 33, 97, 41, 98]) (.cstr [120, 98, 0]) == some true
-- matching3.cpp:222
#guard found false [] .search (.narrow [40, 63, 60, 33, 97, 41, 98]) (.u8 [120, 98]) == some true
-- matching3.cpp:226
#guard found false [] .search (.utf8 [40, 63, 60, 33, 196, 155, 41, 98]) (.u8 [196, 141, 98]) == some true
-- matching3.cpp:227
#guard found false [] .search (.utf8 [40, 63, 60, 61, 196, 155, 41, 98]) (.u8 [196, 141, 98]) == some false
-- matching3.cpp:230
#guard found false [] .match_ (.narrow [40, 63, 62, 97, 98, 99, 41, 63]) (.cstr [97, 98, 99, 0]) == some true
-- matching3.cpp:231
#guard found false [] .match_ (.narrow [40, 63, 62, 97, 98, 99, 41, 63]) (.cstr [0]) == some true
-- matching3.cpp:233
#guard found false [] .match_ (.narrow [32, 63, 91, 92, 112, 123, 78, 125, 93]) (.cstr [32, 49, 0]) == some true
-- matching3.cpp:234
#guard found false [] .match_ (.narrow [32, 63, 92, 112, 123, 78, 125]) (.cstr [32, 49, 0]) == some true
-- matching3.cpp:235
#guard found false [] .match_ (.narrow [32, 63, 92, 112, 123, 78, 125, 43]) (.cstr [32, 49, 50, 51, 52, 0]) == some true
-- matching3.cpp:238
#guard found false [] .search (.narrow [40, 63, 60, 61, 98, 97, 124, 99, 100, 41, 115]) (.cstr [98, 97, 115, 0]) == some true
-- matching3.cpp:239
#guard found false [] .search (.narrow [40, 63, 60, 33, 98, 97, 124, 99, 100, 41, 115]) (.cstr [98, 97, 115, 0]) == some false
-- matching3.cpp:240
#guard found false [] .search (.narrow [40, 63, 60, 61, 98, 97, 124, 99, 100, 41, 115]) (.cstr [99, 100, 115, 0]) == some true
-- matching3.cpp:241
#guard found false [] .search (.narrow [40, 63, 60, 33, 98, 97, 124, 99, 100, 41, 115]) (.cstr [99, 100, 115, 0]) == some false
-- matching3.cpp:244
#guard found false [] .match_ (.narrow [91, 94, 93]) (.cstr [97, 0]) == some true
-- matching3.cpp:245
#guard found false [] .match_ (.narrow [91, 94, 93]) (.cstr [0]) == some false
-- matching3.cpp:246
#guard found false [] .match_ (.narrow [91, 94, 93, 43]) (.cstr [120, 0]) == some true
-- matching3.cpp:247
#guard found false [] .match_ (.narrow [91, 94, 93, 63]) (.cstr [0]) == some true
-- ci.cpp:20
#guard found false [.caseSensitive] .match_ (.narrow [97, 108, 111, 104, 97]) (.cstr [97, 108, 111, 104, 97, 0]) == some true
-- ci.cpp:21
#guard found false [.caseSensitive] .match_ (.narrow [97, 108, 111, 104, 97]) (.cstr [65, 76, 79, 72, 65, 0]) == some false
-- ci.cpp:23
#guard found false [.caseSensitive] .match_ (.narrow [91, 97, 45, 122, 93, 43]) (.cstr [97, 108, 111, 104, 97, 0]) == some true
-- ci.cpp:24
#guard found false [.caseSensitive] .match_ (.narrow [91, 97, 45, 122, 93, 43]) (.cstr [65, 76, 79, 72, 65, 0]) == some false
-- ci.cpp:26
#guard found false [.caseInsensitive] .match_ (.narrow [97, 108, 111, 104, 97]) (.cstr [97, 108, 111, 104, 97, 0]) == some true
-- ci.cpp:27
#guard found false [.caseInsensitive] .match_ (.narrow [97, 108, 111, 104, 97]) (.cstr [65, 76, 79, 72, 65, 0]) == some true
-- ci.cpp:29
#guard found false [.caseInsensitive] .match_ (.narrow [91, 97, 45, 122, 93, 43]) (.cstr [97, 108, 111, 104, 97, 0]) == some true
-- ci.cpp:30
#guard found false [.caseInsensitive] .match_ (.narrow [91, 97, 45, 122, 93, 43]) (.cstr [65, 76, 79, 72, 65, 0]) == some true
-- ci.cpp:32
#guard found false [.caseInsensitive] .match_ (.narrow [91, 97, 45, 122, 93, 43]) (.cstr [57, 0]) == some false
-- ci.cpp:33
#guard found false [.caseInsensitive] .match_ (.narrow [91, 97, 45, 122, 93, 43]) (.cstr [32, 0]) == some false
-- ci.cpp:35
#guard found false [.caseInsensitive] .match_ (.narrow [91, 97, 45, 90, 93, 43]) (.cstr [57, 0]) == some false
-- ci.cpp:36
#guard found false [.caseInsensitive] .match_ (.narrow [91, 97, 45, 90, 93, 43]) (.cstr [32, 0]) == some false
-- ci.cpp:38
#guard found false [.caseInsensitive] .match_ (.narrow [91, 97, 45, 90, 93, 43]) (.cstr [122, 0]) == some false
-- ci.cpp:39
#guard found false [.caseInsensitive] .match_ (.narrow [91, 97, 45, 90, 93, 43]) (.cstr [122, 0]) == some false
-- is_prime.cpp:11
#guard found false [] .match_ (.narrow [46, 63, 124, 40, 46, 46, 43, 63, 41, 92, 103, 123, 49, 125, 43]) (.view []) == some true
-- is_prime.cpp:12
#guard found false [] .match_ (.narrow [46, 63, 124, 40, 46, 46, 43, 63, 41, 92, 103, 123, 49, 125, 43]) (.view [97]) == some true
-- is_prime.cpp:13
#guard found false [] .match_ (.narrow [46, 63, 124, 40, 46, 46, 43, 63, 41, 92, 103, 123, 49, 125, 43]) (.view [97, 97]) == some false
-- is_prime.cpp:14
#guard found false [] .match_ (.narrow [46, 63, 124, 40, 46, 46, 43, 63, 41, 92, 103, 123, 49, 125, 43]) (.view [97, 97, 97]) == some false
-- is_prime.cpp:15
#guard found false [] .match_ (.narrow [46, 63, 124, 40, 46, 46, 43, 63, 41, 92, 103, 123, 49, 125, 43]) (.view [97, 97, 97, 97]) == some true
-- is_prime.cpp:16
#guard found false [] .match_ (.narrow [46, 63, 124, 40, 46, 46, 43, 63, 41, 92, 103, 123, 49, 125, 43]) (.view [97, 97, 97, 97, 97]) == some false
-- is_prime.cpp:17
#guard found false [] .match_ (.narrow [46, 63, 124, 40, 46, 46, 43, 63, 41, 92, 103, 123, 49, 125, 43]) (.view [97, 97, 97, 97, 97, 97]) == some true
-- is_prime.cpp:18
#guard found false [] .match_ (.narrow [46, 63, 124, 40, 46, 46, 43, 63, 41, 92, 103, 123, 49, 125, 43]) (.view [97, 97, 97, 97, 97, 97, 97]) == some false
-- is_prime.cpp:19
#guard found false [] .match_ (.narrow [46, 63, 124, 40, 46, 46, 43, 63, 41, 92, 103, 123, 49, 125, 43]) (.view [97, 97, 97, 97, 97, 97, 97, 97]) == some true
-- is_prime.cpp:20
#guard found false [] .match_ (.narrow [46, 63, 124, 40, 46, 46, 43, 63, 41, 92, 103, 123, 49, 125, 43]) (.view [97, 97, 97, 97, 97, 97, 97, 97, 97]) == some true
-- is_prime.cpp:21
#guard found false [] .match_ (.narrow [46, 63, 124, 40, 46, 46, 43, 63, 41, 92, 103, 123, 49, 125, 43]) (.view [97, 97, 97, 97, 97, 97, 97, 97, 97, 97]) == some true
-- is_prime.cpp:22
#guard found false [] .match_ (.narrow [46, 63, 124, 40, 46, 46, 43, 63, 41, 92, 103, 123, 49, 125, 43]) (.view [97, 97, 97, 97, 97, 97, 97, 97, 97, 97, 97]) == some false
-- msvc.cpp:12
#guard found false [] .match_ (.narrow [94, 91, 92, 120, 51, 48, 45, 92, 120, 51, 57, 93, 43, 63, 36]) (.view [49, 50, 51, 52, 53, 54, 55, 56, 57]) == some true
-- msvc.cpp:13
#guard found false [] .match_ (.narrow []) (.view []) == some true
-- msvc.cpp:41
#guard found false [] .match_ (.narrow [104, 101, 108, 108, 111]) (.view [104, 101, 108, 108, 111]) == some true
-- range.cpp:21
#guard firsts (.narrow [40, 63, 60, 102, 105, 114, 115, 116, 62, 91, 48, 45, 57, 93, 41, 91, 48, 45, 57, 93, 43, 43]) (.view [49, 50, 51, 44, 52, 53, 54, 44, 55, 54, 56]) == [[49, 50, 51], [52, 53, 54], [55, 54, 56]]

end Ctre.Tests

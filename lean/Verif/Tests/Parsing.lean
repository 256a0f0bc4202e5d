import Verif.Tests.Basic
/-
Tests, not proofs: the assertions of /repo/tests evaluated in the model.
Generated from /repo/tests/mode.cpp, /repo/tests/msvc.cpp, /repo/tests/parsing.cpp.
-/
set_option maxRecDepth 10000
namespace Ctre.Tests

-- parsing.cpp:21
#guard accepted (.narrow []) == some true
-- parsing.cpp:22
#guard accepted (.narrow [46]) == some true
-- parsing.cpp:23
#guard accepted (.narrow [97]) == some true
-- parsing.cpp:24
#guard accepted (.narrow [97, 98]) == some true
-- parsing.cpp:25
#guard accepted (.narrow [97, 124, 98]) == some true
-- parsing.cpp:26
#guard accepted (.narrow [97, 124]) == some true
-- parsing.cpp:27
#guard accepted (.narrow [124, 98]) == some true
-- parsing.cpp:28
#guard accepted (.narrow [124]) == some true
-- parsing.cpp:29
#guard accepted (.narrow [110]) == some true
-- parsing.cpp:32
#guard accepted (.narrow [120, 63]) == some true
-- parsing.cpp:33
#guard accepted (.narrow [120, 63, 63]) == some true
-- parsing.cpp:34
#guard accepted (.narrow [120, 63, 43]) == some true
-- parsing.cpp:35
#guard accepted (.narrow [120, 42]) == some true
-- parsing.cpp:36
#guard accepted (.narrow [120, 42, 43]) == some true
-- parsing.cpp:37
#guard accepted (.narrow [120, 42, 63]) == some true
-- parsing.cpp:38
#guard accepted (.narrow [120, 43]) == some true
-- parsing.cpp:39
#guard accepted (.narrow [120, 43, 43]) == some true
-- parsing.cpp:40
#guard accepted (.narrow [120, 43, 63]) == some true
-- parsing.cpp:41
#guard accepted (.narrow [120, 123, 49, 125]) == some true
-- parsing.cpp:42
#guard accepted (.narrow [120, 123, 49, 44, 52, 125]) == some true
-- parsing.cpp:43
#guard accepted (.narrow [120, 123, 49, 44, 52, 125, 43]) == some true
-- parsing.cpp:44
#guard accepted (.narrow [120, 123, 49, 44, 52, 125, 63]) == some true
-- parsing.cpp:45
#guard accepted (.narrow [120, 123, 49, 44, 125]) == some true
-- parsing.cpp:46
#guard accepted (.narrow [120, 123, 49, 44, 125, 43]) == some true
-- parsing.cpp:47
#guard accepted (.narrow [120, 123, 49, 44, 125, 63]) == some true
-- parsing.cpp:50
#guard accepted (.narrow [91, 97, 98, 99, 93]) == some true
-- parsing.cpp:51
#guard accepted (.narrow [91, 97, 45, 99, 93]) == some true
-- parsing.cpp:52
#guard accepted (.narrow [91, 97, 45, 99, 101, 45, 103, 93]) == some true
-- parsing.cpp:53
#guard accepted (.narrow [91, 120, 97, 45, 99, 93]) == some true
-- parsing.cpp:54
#guard accepted (.narrow [91, 97, 45, 99, 121, 93]) == some true
-- parsing.cpp:55
#guard accepted (.narrow [92, 100]) == some true
-- parsing.cpp:56
#guard accepted (.narrow [92, 68]) == some true
-- parsing.cpp:57
#guard accepted (.narrow [92, 115]) == some true
-- parsing.cpp:58
#guard accepted (.narrow [92, 83]) == some true
-- parsing.cpp:59
#guard accepted (.narrow [92, 119]) == some true
-- parsing.cpp:60
#guard accepted (.narrow [92, 87]) == some true
-- parsing.cpp:63
#guard accepted (.narrow [94]) == some true
-- parsing.cpp:64
#guard accepted (.narrow [36]) == some true
-- parsing.cpp:67
#guard accepted (.narrow [92, 110]) == some true
-- parsing.cpp:68
#guard accepted (.narrow [92, 114]) == some true
-- parsing.cpp:69
#guard accepted (.narrow [92, 116]) == some true
-- parsing.cpp:70
#guard accepted (.narrow [92, 48]) == some true
-- parsing.cpp:71
#guard accepted (.narrow [92, 120, 65, 66]) == some true
-- parsing.cpp:72
#guard accepted (.narrow [92, 120, 123, 65, 125]) == some true
-- parsing.cpp:73
#guard accepted (.narrow [92, 120, 123, 65, 66, 67, 68, 69, 70, 125]) == some true
-- parsing.cpp:74
#guard accepted (.narrow [92, 120, 123, 65, 66, 67, 68, 69, 70, 71, 125]) == some false
-- parsing.cpp:77
#guard accepted (.narrow [91, 91, 58, 97, 108, 112, 104, 97, 58, 93, 91, 58, 100, 105, 103, 105, 116, 58, 93, 93]) == some true
-- parsing.cpp:78
#guard accepted (.narrow [91, 94, 91, 58, 97, 108, 112, 104, 97, 58, 93, 91, 58, 100, 105, 103, 105, 116, 58, 93, 93]) == some true
-- parsing.cpp:79
#guard accepted (.narrow [91, 91, 58, 94, 97, 108, 112, 104, 97, 58, 93, 91, 58, 94, 100, 105, 103, 105, 116, 58, 93, 93]) == some true
-- parsing.cpp:80
#guard accepted (.narrow [91, 91, 58, 97, 108, 112, 104, 97, 58, 93, 91, 58, 100, 105, 103, 105, 116, 58, 93, 93, 43]) == some true
-- parsing.cpp:83
#guard accepted (.narrow [60, 110, 111, 116, 32, 99, 97, 112, 116, 117, 114, 101, 62]) == some true
-- parsing.cpp:84
#guard accepted (.narrow [40, 110, 111, 110, 110, 97, 109, 101, 41]) == some true
-- parsing.cpp:85
#guard accepted (.narrow [40, 110, 111, 110, 60, 110, 97, 109, 101, 62, 41]) == some true
-- parsing.cpp:86
#guard accepted (.narrow [40, 63, 58, 110, 111, 110, 99, 97, 112, 116, 117, 114, 101, 41]) == some true
-- parsing.cpp:87
#guard accepted (.narrow [40, 63, 58, 110, 111, 110, 60, 99, 97, 112, 62, 116, 117, 114, 101, 41]) == some true
-- parsing.cpp:88
#guard accepted (.narrow [40, 63, 60, 104, 101, 108, 108, 111, 62, 58, 110, 97, 109, 101, 100, 41]) == some true
-- parsing.cpp:91
#guard accepted (.narrow []) == some true
-- parsing.cpp:92
#guard accepted (.narrow [40, 46, 42, 41, 46, 42]) == some true
-- parsing.cpp:93
#guard accepted (.narrow [40, 63, 61, 94, 41, 98]) == some true
-- parsing.cpp:94
#guard accepted (.narrow [40, 97, 42, 41, 42]) == some true
-- parsing.cpp:95
#guard accepted (.narrow [40, 97, 98, 41, 42, 99]) == some true
-- parsing.cpp:96
#guard accepted (.narrow [40, 116, 111, 117, 114, 124, 116, 111, 124, 116, 41, 43]) == some true
-- parsing.cpp:97
#guard accepted (.narrow [40, 116, 111, 117, 114, 124, 116, 111, 124, 116, 111, 117, 114, 110, 97, 109, 101, 110, 116, 41, 43]) == some true
-- parsing.cpp:98
#guard accepted (.narrow [40, 116, 111, 117, 114, 124, 116, 111, 124, 116, 111, 117, 114, 110, 97, 109, 101, 110, 116, 41, 43, 10, 116, 111, 117, 114, 110, 97]) == some true
-- parsing.cpp:99
#guard accepted (.narrow [45, 46, 42, 44, 46, 42, 45]) == some true
-- parsing.cpp:101: this assertion runs the grammar without the actions; with them the pattern is not accepted
#guard !(accepted (.narrow [45, 92, 40, 46, 42, 92, 41, 44, 92, 49, 45]) == some true)
-- parsing.cpp:102
#guard accepted (.narrow [65, 91, 91, 58, 108, 111, 119, 101, 114, 58, 93, 93, 66]) == some true
-- parsing.cpp:103
#guard accepted (.narrow [65, 91, 94, 91, 58, 108, 111, 119, 101, 114, 58, 93, 48, 45, 57, 93, 66]) == some true
-- parsing.cpp:104
#guard accepted (.narrow [65, 91, 94, 91, 58, 108, 111, 119, 101, 114, 58, 93, 93, 66]) == some true
-- parsing.cpp:107
#guard accepted (.narrow [91, 92, 110, 93, 43]) == some true
-- parsing.cpp:108
#guard accepted (.narrow [91, 94, 92, 48, 93, 42]) == some true
-- parsing.cpp:109
#guard accepted (.narrow [91, 94, 92, 87, 93]) == some true
-- parsing.cpp:113
#guard accepted (.narrow [91, 97, 98, 102, 111, 114, 93, 42]) == some true
-- parsing.cpp:114
#guard accepted (.narrow [91, 97, 99, 101, 49, 45, 57, 93, 42]) == some true
-- parsing.cpp:115
#guard accepted (.narrow [91, 97, 99, 101, 49, 45, 57, 93, 43]) == some true
-- parsing.cpp:116
#guard accepted (.narrow [91, 97, 99, 101, 49, 45, 57, 93, 92, 123, 49, 44, 92, 125]) == some true
-- parsing.cpp:117
#guard accepted (.narrow [91, 97, 99, 101, 49, 45, 57, 93, 123, 49, 44, 125]) == some true
-- parsing.cpp:118
#guard accepted (.narrow [92, 40, 46, 42, 92, 41, 46, 42]) == some true
-- parsing.cpp:119
#guard accepted (.narrow [92, 40, 97, 42, 92, 41, 42]) == some true
-- parsing.cpp:120
#guard accepted (.narrow [92, 40, 97, 98, 92, 41, 42, 99]) == some true
-- parsing.cpp:121
#guard accepted (.narrow [92, 100, 91, 92, 87, 93, 107]) == some true
-- parsing.cpp:122
#guard accepted (.narrow [94, 91, 97, 45, 102, 93, 36]) == some true
-- parsing.cpp:123
#guard accepted (.narrow [94, 91, 97, 93, 36]) == some true
-- parsing.cpp:124
#guard accepted (.narrow [94, 91, 97, 98, 93, 36]) == some true
-- parsing.cpp:125
#guard accepted (.narrow [47]) == some true
-- parsing.cpp:126
#guard accepted (.narrow [91, 47, 93]) == some true
-- parsing.cpp:127
#guard accepted (.narrow [91, 92, 91, 93]) == some true
-- parsing.cpp:128
#guard accepted (.narrow [91, 92, 91, 45, 97, 93]) == some true
-- parsing.cpp:129
#guard accepted (.narrow [91, 92, 91, 45, 92, 91, 93]) == some true
-- parsing.cpp:130
#guard accepted (.narrow [91, 47, 45, 47, 93]) == some true
-- parsing.cpp:131
#guard accepted (.narrow [91, 33, 45, 47, 93]) == some true
-- parsing.cpp:132
#guard accepted (.narrow [91, 124, 93]) == some true
-- parsing.cpp:133
#guard accepted (.narrow [94, 97, 98, 99]) == some true
-- parsing.cpp:134
#guard accepted (.narrow [97]) == some true
-- parsing.cpp:135
#guard accepted (.narrow [97, 40, 63, 61, 94, 41, 98]) == some true
-- parsing.cpp:136
#guard accepted (.narrow [97, 42]) == some true
-- parsing.cpp:137
#guard accepted (.narrow [97, 42, 63]) == some true
-- parsing.cpp:138
#guard accepted (.narrow [97, 46, 92, 123, 51, 44, 53, 92, 125, 99]) == some true
-- parsing.cpp:139
#guard accepted (.narrow [97, 46, 99]) == some true
-- parsing.cpp:140
#guard accepted (.narrow [97, 46, 123, 51, 44, 53, 125, 99]) == some true
-- parsing.cpp:141
#guard accepted (.narrow [97, 92, 123, 49, 48, 48, 48, 48, 48, 48, 48, 48, 48, 48, 48, 48, 48, 48, 48, 48, 48, 92, 125]) == some true
-- parsing.cpp:142
#guard accepted (.narrow [97, 98]) == some true
-- parsing.cpp:143
#guard accepted (.narrow [97, 98, 42, 99]) == some true
-- parsing.cpp:144
#guard accepted (.narrow [97, 98, 92, 123, 51, 44, 53, 92, 125, 99]) == some true
-- parsing.cpp:145
#guard accepted (.narrow [97, 98, 99, 36]) == some true
-- parsing.cpp:146
#guard accepted (.narrow [97, 98, 123, 51, 44, 53, 125, 99]) == some true
-- parsing.cpp:147
#guard accepted (.narrow [97, 123, 49, 48, 48, 48, 48, 48, 48, 48, 48, 48, 48, 48, 48, 48, 48, 48, 48, 48, 125]) == some true
-- parsing.cpp:148
#guard accepted (.narrow [98, 42]) == some true
-- parsing.cpp:149
#guard accepted (.narrow [98, 97]) == some true
-- parsing.cpp:150
#guard accepted (.narrow [98, 99]) == some true
-- parsing.cpp:151
#guard accepted (.narrow [99, 100, 40, 40, 101, 41, 102, 103, 41, 104, 105]) == some true
-- parsing.cpp:152
#guard accepted (.narrow [99, 100, 40, 40, 101, 41, 102, 103, 41, 104, 105, 124, 40, 122, 41]) == some true
-- parsing.cpp:153
#guard accepted (.narrow [99, 100, 92, 40, 92, 40, 101, 92, 41, 102, 103, 92, 41, 104, 105]) == some true
-- parsing.cpp:154
#guard accepted (.narrow [99, 100, 101, 102, 103, 104, 105]) == some true
-- parsing.cpp:155
#guard accepted (.narrow [113, 91, 94, 117, 93]) == some true
-- parsing.cpp:156
#guard accepted (.narrow [116, 111, 117, 114, 10, 10, 116, 111, 117, 114, 110, 97, 109, 101, 110, 116]) == some true
-- parsing.cpp:157
#guard accepted (.narrow [116, 111, 117, 114, 10, 116, 111, 10, 116, 111, 117, 114, 110, 97, 109, 101, 110, 116]) == some true
-- parsing.cpp:158
#guard accepted (.narrow [116, 111, 117, 114, 124, 116, 111, 124, 116, 111, 117, 114, 110, 97, 109, 101, 110, 116]) == some true
-- parsing.cpp:159
#guard accepted (.narrow [122]) == some true
-- parsing.cpp:160
#guard accepted (.narrow [61, 33]) == some true
-- parsing.cpp:161
#guard accepted (.narrow [91, 61, 33, 93]) == some true
-- parsing.cpp:162
#guard accepted (.narrow [40, 61, 33, 41]) == some true
-- parsing.cpp:163
#guard accepted (.narrow [40, 63, 33, 116, 101, 115, 116, 41]) == some true
-- parsing.cpp:164
#guard accepted (.narrow [40, 63, 61, 116, 101, 115, 116, 41]) == some true
-- parsing.cpp:165
#guard accepted (.narrow [94, 40, 63, 61, 46, 42, 40, 46, 41, 92, 103, 123, 49, 125, 43, 46, 42, 41, 91, 97, 45, 122, 93, 43]) == some true
-- parsing.cpp:166
#guard accepted (.narrow [94, 40, 63, 61, 46, 42, 40, 97, 41, 92, 103, 123, 49, 125, 46, 42, 41, 36]) == some true
-- parsing.cpp:168
#guard accepted (.narrow [92, 98]) == some true
-- parsing.cpp:169
#guard accepted (.narrow [92, 65]) == some true
-- parsing.cpp:170
#guard accepted (.narrow [91, 92, 65, 93]) == some false
-- parsing.cpp:171
#guard accepted (.narrow [92, 105]) == some false
-- parsing.cpp:172
#guard accepted (.narrow [40, 46, 42, 41, 92, 49]) == some true
-- mode.cpp:29
#guard accepted (.narrow [40, 63, 41]) == some false
-- mode.cpp:30
#guard accepted (.narrow [40, 63, 105, 41]) == some true
-- mode.cpp:31
#guard accepted (.narrow [40, 63, 105, 99, 41]) == some true
-- mode.cpp:32
#guard accepted (.narrow [40, 63, 105, 99, 115, 109, 41]) == some true
-- mode.cpp:35
#guard accepted (.narrow [40, 63, 105, 41, 120]) == some true
-- mode.cpp:36
#guard accepted (.narrow [40, 63, 105, 99, 41, 120]) == some true
-- mode.cpp:37
#guard accepted (.narrow [40, 63, 105, 99, 115, 109, 41, 120]) == some true
-- mode.cpp:40
#guard accepted (.narrow [121, 40, 63, 105, 41]) == some true
-- mode.cpp:41
#guard accepted (.narrow [121, 40, 63, 105, 99, 41]) == some true
-- mode.cpp:42
#guard accepted (.narrow [121, 40, 63, 105, 99, 115, 109, 41]) == some true
-- mode.cpp:44
#guard accepted (.narrow [40, 63, 105, 41, 84, 111, 109, 124, 83, 97, 119, 121, 101, 114, 124, 72, 117, 99, 107, 108, 101, 98, 101, 114, 114, 121, 124, 70, 105, 110, 110]) == some true
-- msvc.cpp:24
#guard accepted (.narrow []) == some true

end Ctre.Tests

import Verif.Model.Basic
/-!
# Tables of the SQL parser (`src/sql/parser.rs`)

`src/sql/parser.rs` is the output of LALRPOP 0.19.8 for `src/sql/parser.lalrpop`; it is checked in, and the
SHA3-256 sum in its second line is the one of `src/sql/parser.lalrpop` in the same commit.  This file
transcribes its tables.  Rows of the action table list the entries that are not zero.
-/

namespace Verif.Sql.Parser

/-- `__ACTION` (`src/sql/parser.rs` L79-126), states 0 to 23. -/
def actionRows0 : List (List (Nat × Int)) := [
  -- state 0
  [(18, 127), (28, 128), (30, 4), (35, 5), (43, 129), (64, 6), (71, 7), (73, 8), (76, 9)],
  -- state 1
  [(2, -181), (34, 131), (44, 132), (51, 12), (59, 133), (70, 134)],
  -- state 2
  [(28, 135), (43, 136), (64, 6), (71, 14), (73, 8)],
  -- state 3
  [(79, 138)],
  -- state 4
  [(28, 128), (43, 129), (62, 140), (64, 6), (71, 7), (73, 8), (76, 9)],
  -- state 5
  [(1, -172), (3, -172), (4, -172), (6, -172), (14, 141), (21, -172), (24, -172), (25, -172),
   (26, -172), (27, -172), (31, 142), (53, -172), (55, -172), (68, -172), (69, -172), (78, -172),
   (79, -172), (80, -172), (81, -172), (82, -172)],
  -- state 6
  [(79, 138)],
  -- state 7
  [(1, 20)],
  -- state 8
  [(79, 138)],
  -- state 9
  [(64, 6), (73, 8)],
  -- state 10
  [(2, -180), (51, 12)],
  -- state 11
  [(1, 21), (4, 22), (6, 23), (21, 24), (24, 167), (25, 168), (26, 169), (27, 25), (53, 26), (55, 170),
   (68, 27), (69, 28), (78, 171), (79, 138), (80, 172), (81, 173), (82, 174)],
  -- state 12
  [(2, -177), (34, 131), (44, 132), (51, 12), (59, 133), (70, 134)],
  -- state 13
  [(79, 138)],
  -- state 14
  [(82, 174)],
  -- state 15
  [(79, 138)],
  -- state 16
  [(79, 138)],
  -- state 17
  [(79, 138)],
  -- state 18
  [(1, 21), (3, 184), (4, 22), (6, 23), (21, 24), (24, 167), (25, 168), (26, 169), (27, 25), (53, 26),
   (55, 170), (68, 27), (69, 28), (78, 171), (79, 138), (80, 172), (81, 173), (82, 174)],
  -- state 19
  [(1, 21), (4, 22), (6, 23), (21, 24), (24, 167), (25, 168), (26, 169), (27, 25), (53, 26), (55, 170),
   (68, 27), (69, 28), (78, 171), (79, 138), (80, 172), (81, 173), (82, 174)],
  -- state 20
  [(1, 21), (4, 22), (6, 23), (21, 24), (24, 167), (25, 168), (26, 169), (27, 25), (53, 26), (55, 170),
   (64, 6), (68, 27), (69, 28), (73, 8), (76, 9), (78, 171), (79, 138), (80, 172), (81, 173),
   (82, 174)],
  -- state 21
  [(1, 21), (4, 22), (6, 23), (24, 167), (25, 168), (26, 169), (27, 25), (55, 170), (68, 27), (69, 28),
   (78, 171), (79, 138), (80, 172), (81, 173), (82, 174)],
  -- state 22
  [(1, 21), (4, 22), (6, 23), (24, 167), (25, 168), (26, 169), (27, 25), (55, 170), (68, 27), (69, 28),
   (78, 171), (79, 138), (80, 172), (81, 173), (82, 174)],
  -- state 23
  [(1, 21), (4, 22), (6, 23), (21, 24), (24, 167), (25, 168), (26, 169), (27, 25), (53, 26), (55, 170),
   (68, 27), (69, 28), (74, 64), (78, 171), (79, 138), (80, 172), (81, 173), (82, 174)]
]

/-- `__ACTION` (`src/sql/parser.rs` L127-174), states 24 to 47. -/
def actionRows1 : List (List (Nat × Int)) := [
  -- state 24
  [(82, 174)],
  -- state 25
  [(1, 21), (4, 22), (6, 23), (21, 24), (24, 167), (25, 168), (26, 169), (27, 25), (55, 170), (68, 27),
   (69, 28), (78, 171), (79, 138), (80, 172), (81, 173), (82, 174)],
  -- state 26
  [(82, 174)],
  -- state 27
  [(82, 174)],
  -- state 28
  [(1, 21), (4, 22), (6, 23), (21, 24), (24, 167), (25, 168), (26, 169), (27, 25), (53, 26), (55, 170),
   (68, 27), (69, 28), (78, 171), (79, 138), (80, 172), (81, 173), (82, 174)],
  -- state 29
  [(2, -176), (51, 12)],
  -- state 30
  [(79, 138)],
  -- state 31
  [(79, 138)],
  -- state 32
  [(75, 70)],
  -- state 33
  [(28, 128), (43, 129), (64, 6), (71, 7), (73, 8), (76, 9)],
  -- state 34
  [(1, 72), (64, 6), (73, 8)],
  -- state 35
  [(2, -149), (5, -149), (16, 73), (34, -149), (37, -149), (39, -149), (44, -149), (51, -149),
   (59, -149), (70, -149), (75, -149), (79, 138)],
  -- state 36
  [(2, -163), (34, -163), (37, 78), (39, 209), (44, -163), (51, -163), (59, -163), (70, -163),
   (75, 70)],
  -- state 37
  [(79, 138)],
  -- state 38
  [(79, 138)],
  -- state 39
  [(1, 20)],
  -- state 40
  [(79, 138)],
  -- state 41
  [(79, 138)],
  -- state 42
  [(1, 21), (4, 22), (6, 23), (24, 167), (25, 168), (26, 169), (27, 25), (55, 170), (68, 27), (69, 28),
   (78, 171), (79, 138), (80, 172), (81, 173), (82, 174)],
  -- state 43
  [(1, 21), (4, 22), (6, 23), (24, 167), (25, 168), (26, 169), (27, 25), (55, 170), (68, 27), (69, 28),
   (78, 171), (79, 138), (80, 172), (81, 173), (82, 174)],
  -- state 44
  [(1, 21), (4, 22), (6, 23), (24, 167), (25, 168), (26, 169), (27, 25), (55, 170), (68, 27), (69, 28),
   (78, 171), (79, 138), (80, 172), (81, 173), (82, 174)],
  -- state 45
  [(1, 21), (4, 22), (6, 23), (21, 24), (24, 167), (25, 168), (26, 169), (27, 25), (53, 26), (55, 170),
   (68, 27), (69, 28), (78, 171), (79, 138), (80, 172), (81, 173), (82, 174)],
  -- state 46
  [(1, 21), (4, 22), (6, 23), (24, 167), (25, 168), (26, 169), (27, 25), (55, 170), (68, 27), (69, 28),
   (78, 171), (79, 138), (80, 172), (81, 173), (82, 174)],
  -- state 47
  [(1, 21), (4, 22), (6, 23), (24, 167), (25, 168), (26, 169), (27, 25), (55, 170), (68, 27), (69, 28),
   (78, 171), (79, 138), (80, 172), (81, 173), (82, 174)]
]

/-- `__ACTION` (`src/sql/parser.rs` L175-222), states 48 to 71. -/
def actionRows2 : List (List (Nat × Int)) := [
  -- state 48
  [(1, 21), (4, 22), (6, 23), (24, 167), (25, 168), (26, 169), (27, 25), (55, 170), (68, 27), (69, 28),
   (78, 171), (79, 138), (80, 172), (81, 173), (82, 174)],
  -- state 49
  [(1, 21), (4, 22), (6, 23), (24, 167), (25, 168), (26, 169), (27, 25), (55, 170), (68, 27), (69, 28),
   (78, 171), (79, 138), (80, 172), (81, 173), (82, 174)],
  -- state 50
  [(1, 21), (4, 22), (6, 23), (24, 167), (25, 168), (26, 169), (27, 25), (55, 170), (68, 27), (69, 28),
   (78, 171), (79, 138), (80, 172), (81, 173), (82, 174)],
  -- state 51
  [(1, 21), (4, 22), (6, 23), (24, 167), (25, 168), (26, 169), (27, 25), (55, 170), (68, 27), (69, 28),
   (78, 171), (79, 138), (80, 172), (81, 173), (82, 174)],
  -- state 52
  [(1, 21), (4, 22), (6, 23), (24, 167), (25, 168), (26, 169), (27, 25), (55, 170), (68, 27), (69, 28),
   (78, 171), (79, 138), (80, 172), (81, 173), (82, 174)],
  -- state 53
  [(1, 82), (79, 138)],
  -- state 54
  [(1, 21), (4, 22), (6, 23), (24, 167), (25, 168), (26, 169), (27, 25), (55, 170), (68, 27), (69, 28),
   (78, 171), (79, 138), (80, 172), (81, 173), (82, 174)],
  -- state 55
  [(1, 21), (4, 22), (6, 23), (21, 24), (24, 167), (25, 168), (26, 169), (27, 25), (53, 26), (55, 170),
   (68, 27), (69, 28), (78, 171), (79, 138), (80, 172), (81, 173), (82, 174)],
  -- state 56
  [(1, 21), (4, 22), (6, 23), (21, 24), (24, 167), (25, 168), (26, 169), (27, 25), (53, 26), (55, 170),
   (68, 27), (69, 28), (78, 171), (79, 138), (80, 172), (81, 173), (82, 174)],
  -- state 57
  [(1, 21), (4, 22), (6, 23), (24, 167), (25, 168), (26, 169), (27, 25), (55, 170), (68, 27), (69, 28),
   (78, 171), (79, 138), (80, 172), (81, 173), (82, 174)],
  -- state 58
  [(1, 21), (4, 22), (6, 23), (24, 167), (25, 168), (26, 169), (27, 25), (55, 170), (68, 27), (69, 28),
   (78, 171), (79, 138), (80, 172), (81, 173), (82, 174)],
  -- state 59
  [(1, 21), (4, 22), (6, 23), (21, 24), (24, 167), (25, 168), (26, 169), (27, 25), (53, 26), (55, 170),
   (68, 27), (69, 28), (78, 171), (79, 138), (80, 172), (81, 173), (82, 174)],
  -- state 60
  [(64, 6), (73, 8)],
  -- state 61
  [(74, 64)],
  -- state 62
  [(32, 86), (33, 243), (74, 64)],
  -- state 63
  [(1, 21), (4, 22), (6, 23), (21, 24), (24, 167), (25, 168), (26, 169), (27, 25), (53, 26), (55, 170),
   (68, 27), (69, 28), (78, 171), (79, 138), (80, 172), (81, 173), (82, 174)],
  -- state 64
  [(2, -136), (5, -136), (17, 246), (22, 88), (29, 247), (51, -136)],
  -- state 65
  [(75, 70)],
  -- state 66
  [(1, 72), (64, 6), (73, 8)],
  -- state 67
  [(79, 138)],
  -- state 68
  [(79, 138)],
  -- state 69
  [(1, 21), (4, 22), (6, 23), (21, 24), (24, 167), (25, 168), (26, 169), (27, 25), (53, 26), (55, 170),
   (68, 27), (69, 28), (78, 171), (79, 138), (80, 172), (81, 173), (82, 174)],
  -- state 70
  [(64, 6), (73, 8)],
  -- state 71
  [(79, 138)]
]

/-- `__ACTION` (`src/sql/parser.rs` L223-270), states 72 to 95. -/
def actionRows3 : List (List (Nat × Int)) := [
  -- state 72
  [(79, 138)],
  -- state 73
  [(3, 255), (79, 138)],
  -- state 74
  [(1, 21), (4, 22), (6, 23), (21, 24), (24, 167), (25, 168), (26, 169), (27, 25), (53, 26), (55, 170),
   (68, 27), (69, 28), (78, 171), (79, 138), (80, 172), (81, 173), (82, 174)],
  -- state 75
  [(2, -167), (34, -167), (39, 209), (44, -167), (51, -167), (59, -167), (70, -167), (75, 70)],
  -- state 76
  [(2, -162), (34, -162), (39, 209), (44, -162), (51, -162), (59, -162), (70, -162)],
  -- state 77
  [(1, 96), (79, 138)],
  -- state 78
  [(5, 99), (75, 70)],
  -- state 79
  [(1, 21), (4, 22), (6, 23), (21, 24), (24, 167), (25, 168), (26, 169), (27, 25), (53, 26), (55, 170),
   (68, 27), (69, 28), (78, 171), (79, 138), (80, 172), (81, 173), (82, 174)],
  -- state 80
  [(64, 6), (73, 8), (76, 9)],
  -- state 81
  [(1, 21), (2, 267), (4, 22), (6, 23), (21, 24), (24, 167), (25, 168), (26, 169), (27, 25), (53, 26),
   (55, 170), (64, 6), (68, 27), (69, 28), (73, 8), (76, 9), (78, 171), (79, 138), (80, 172), (81, 173),
   (82, 174)],
  -- state 82
  [(1, 21), (4, 22), (6, 23), (24, 167), (25, 168), (26, 169), (27, 25), (55, 170), (68, 27), (69, 28),
   (78, 171), (79, 138), (80, 172), (81, 173), (82, 174)],
  -- state 83
  [(1, 103), (79, 138)],
  -- state 84
  [(32, 86), (33, 272), (74, 64)],
  -- state 85
  [(1, 21), (4, 22), (6, 23), (21, 24), (24, 167), (25, 168), (26, 169), (27, 25), (53, 26), (55, 170),
   (68, 27), (69, 28), (78, 171), (79, 138), (80, 172), (81, 173), (82, 174)],
  -- state 86
  [(2, -136), (5, -136), (17, 246), (29, 247), (51, -136)],
  -- state 87
  [(79, 138)],
  -- state 88
  [(1, 21), (4, 22), (6, 23), (21, 24), (24, 167), (25, 168), (26, 169), (27, 25), (53, 26), (55, 170),
   (68, 27), (69, 28), (78, 171), (79, 138), (80, 172), (81, 173), (82, 174)],
  -- state 89
  [(64, 6), (73, 8)],
  -- state 90
  [(5, 99), (75, 70)],
  -- state 91
  [(79, 138)],
  -- state 92
  [(2, -166), (34, -166), (39, 209), (44, -166), (51, -166), (59, -166), (70, -166)],
  -- state 93
  [(2, -204), (5, -204), (16, 105), (23, -204), (34, -204), (38, -204), (39, -204), (42, -204),
   (44, -204), (48, -204), (49, -204), (51, -204), (52, -204), (57, -204), (59, -204), (63, -204),
   (70, -204), (72, -204), (75, -204), (79, 138)],
  -- state 94
  [(2, -198), (5, -198), (23, 286), (34, -198), (38, 287), (39, -198), (42, 288), (44, -198), (48, 289),
   (49, 290), (51, -198), (52, 107), (59, -198), (63, 291), (70, -198), (75, -198)],
  -- state 95
  [(1, 96), (64, 6), (73, 8), (76, 9), (79, 138)]
]

/-- `__ACTION` (`src/sql/parser.rs` L271-318), states 96 to 119. -/
def actionRows4 : List (List (Nat × Int)) := [
  -- state 96
  [(1, 21), (4, 22), (6, 23), (21, 24), (24, 167), (25, 168), (26, 169), (27, 25), (53, 26), (55, 170),
   (68, 27), (69, 28), (78, 171), (79, 138), (80, 172), (81, 173), (82, 174)],
  -- state 97
  [(79, 138)],
  -- state 98
  [(79, 138)],
  -- state 99
  [(79, 138)],
  -- state 100
  [(1, 21), (4, 22), (6, 23), (21, 24), (24, 167), (25, 168), (26, 169), (27, 25), (53, 26), (55, 170),
   (68, 27), (69, 28), (78, 171), (79, 138), (80, 172), (81, 173), (82, 174)],
  -- state 101
  [(1, 21), (4, 22), (6, 23), (24, 167), (25, 168), (26, 169), (27, 25), (55, 170), (68, 27), (69, 28),
   (78, 171), (79, 138), (80, 172), (81, 173), (82, 174)],
  -- state 102
  [(1, 21), (2, 305), (4, 22), (6, 23), (21, 24), (24, 167), (25, 168), (26, 169), (27, 25), (53, 26),
   (55, 170), (64, 6), (68, 27), (69, 28), (73, 8), (76, 9), (78, 171), (79, 138), (80, 172), (81, 173),
   (82, 174)],
  -- state 103
  [(1, 21), (4, 22), (6, 23), (21, 24), (24, 167), (25, 168), (26, 169), (27, 25), (53, 26), (55, 170),
   (68, 27), (69, 28), (78, 171), (79, 138), (80, 172), (81, 173), (82, 174)],
  -- state 104
  [(79, 138)],
  -- state 105
  [(1, 96), (79, 138)],
  -- state 106
  [(38, 287), (42, 288), (48, 314), (49, 290), (63, 291)],
  -- state 107
  [(1, 96), (79, 138)],
  -- state 108
  [(2, 316), (23, 286), (38, 287), (42, 288), (48, 289), (49, 290), (52, 107), (63, 291)],
  -- state 109
  [(1, 21), (4, 22), (6, 23), (24, 167), (25, 168), (26, 169), (27, 25), (55, 170), (68, 27), (69, 28),
   (78, 171), (79, 138), (80, 172), (81, 173), (82, 174)],
  -- state 110
  [(57, 116), (72, 321)],
  -- state 111
  [(2, -199), (5, -199), (23, 286), (34, -199), (38, 287), (39, -199), (42, 288), (44, -199), (48, 289),
   (49, 290), (51, -199), (52, 107), (59, -199), (63, 291), (70, -199), (75, -199)],
  -- state 112
  [(2, -206), (5, -206), (16, 105), (23, -206), (34, -206), (38, -206), (39, -206), (42, -206),
   (44, -206), (48, -206), (49, -206), (51, -206), (52, -206), (57, -206), (59, -206), (63, -206),
   (70, -206), (72, -206), (75, -206), (79, 138)],
  -- state 113
  [(1, 21), (4, 22), (6, 23), (21, 24), (24, 167), (25, 168), (26, 169), (27, 25), (53, 26), (55, 170),
   (68, 27), (69, 28), (78, 171), (79, 138), (80, 172), (81, 173), (82, 174)],
  -- state 114
  [(64, 6), (73, 8), (76, 9)],
  -- state 115
  [(1, 21), (4, 22), (6, 23), (21, 24), (24, 167), (25, 168), (26, 169), (27, 25), (53, 26), (55, 170),
   (68, 27), (69, 28), (78, 171), (79, 138), (80, 172), (81, 173), (82, 174)],
  -- state 116
  [(79, 138)],
  -- state 117
  [],
  -- state 118
  [],
  -- state 119
  []
]

/-- `__ACTION` (`src/sql/parser.rs` L319-366), states 120 to 143. -/
def actionRows5 : List (List (Nat × Int)) := [
  -- state 120
  [],
  -- state 121
  [(2, -169), (34, -169), (44, -169), (51, -169), (59, -169), (70, -169)],
  -- state 122
  [],
  -- state 123
  [],
  -- state 124
  [],
  -- state 125
  [],
  -- state 126
  [(36, 15)],
  -- state 127
  [(37, 16)],
  -- state 128
  [(45, 18)],
  -- state 129
  [(2, -179)],
  -- state 130
  [(64, -62), (73, -62)],
  -- state 131
  [(64, -61), (73, -61)],
  -- state 132
  [(20, 29)],
  -- state 133
  [(14, 175), (64, -59), (73, -59)],
  -- state 134
  [(37, 31)],
  -- state 135
  [(45, 32)],
  -- state 136
  [(7, 179)],
  -- state 137
  [(0, -82), (1, -82), (2, -82), (3, -82), (4, -82), (5, -82), (6, -82), (7, -82), (8, -82), (9, -82),
   (10, -82), (11, -82), (12, -82), (13, -82), (15, -82), (16, -82), (17, -82), (19, -82), (22, -82),
   (23, -82), (29, -82), (32, -82), (33, -82), (34, -82), (37, -82), (38, -82), (39, -82), (40, -82),
   (41, -82), (42, -82), (44, -82), (46, -82), (47, -82), (48, -82), (49, -82), (50, -82), (51, -82),
   (52, -82), (53, -82), (54, -82), (56, -82), (57, -82), (58, -82), (59, -82), (63, -82), (64, -82),
   (65, -82), (67, -82), (70, -82), (72, -82), (73, -82), (74, -82), (75, -82), (77, -82), (79, -82)],
  -- state 138
  [],
  -- state 139
  [(61, 34)],
  -- state 140
  [(1, -171), (3, -171), (4, -171), (6, -171), (21, -171), (24, -171), (25, -171), (26, -171),
   (27, -171), (53, -171), (55, -171), (68, -171), (69, -171), (78, -171), (79, -171), (80, -171),
   (81, -171), (82, -171)],
  -- state 141
  [(1, -173), (3, -173), (4, -173), (6, -173), (21, -173), (24, -173), (25, -173), (26, -173),
   (27, -173), (53, -173), (55, -173), (68, -173), (69, -173), (78, -173), (79, -173), (80, -173),
   (81, -173), (82, -173)],
  -- state 142
  [(0, -146), (1, -146), (2, -146), (3, -146), (4, -146), (5, -146), (6, -146), (7, 38), (8, -146),
   (9, -146), (10, -146), (11, -146), (12, -146), (13, -146), (15, -146), (16, -146), (17, -146),
   (19, -146), (22, -146), (23, -146), (29, -146), (32, -146), (33, -146), (34, -146), (37, -146),
   (38, -146), (39, -146), (40, -146), (41, -146), (42, -146), (44, -146), (46, -146), (47, -146),
   (48, -146), (49, -146), (50, -146), (51, -146), (52, -146), (53, -146), (54, -146), (56, -146),
   (57, -146), (58, -146), (59, -146), (63, -146), (64, -146), (65, -146), (67, -146), (70, -146),
   (72, -146), (73, -146), (74, -146), (75, -146), (77, -146), (79, -146)],
  -- state 143
  [(65, 39)]
]

/-- `__ACTION` (`src/sql/parser.rs` L367-414), states 144 to 167. -/
def actionRows6 : List (List (Nat × Int)) := [
  -- state 144
  [(2, -209), (5, -209), (34, -209), (44, -209), (51, -209), (59, -209), (70, -209)],
  -- state 145
  [(2, -168), (5, 40), (34, -168), (44, -168), (51, -168), (59, -168), (70, -168)],
  -- state 146
  [(5, -32), (28, -32), (43, -32), (64, -32), (71, -32), (73, -32)],
  -- state 147
  [(5, 41), (28, -200), (43, -200), (64, -200), (71, -200), (73, -200)],
  -- state 148
  [(1, 42), (16, 187)],
  -- state 149
  [(2, -170), (34, -170), (44, -170), (51, -170), (59, -170), (70, -170)],
  -- state 150
  [(2, -178)],
  -- state 151
  [(0, -34), (2, -34), (4, 43), (5, -34), (6, 44), (9, -34), (10, -34), (11, -34), (12, -34), (13, -34),
   (15, -34), (16, -34), (17, -34), (19, -34), (22, -34), (23, -34), (29, -34), (32, -34), (33, -34),
   (34, -34), (37, -34), (38, -34), (39, -34), (40, -34), (41, -34), (42, -34), (44, -34), (46, -34),
   (47, -34), (48, -34), (49, -34), (50, -34), (51, -34), (52, -34), (53, -34), (54, -34), (56, -34),
   (58, -34), (59, -34), (63, -34), (67, -34), (70, -34), (74, -34), (75, -34), (77, 45), (79, -34)],
  -- state 152
  [(2, -127), (5, -127), (15, 46), (16, -127), (17, -127), (22, -127), (23, -127), (29, -127),
   (32, -127), (33, -127), (34, -127), (37, -127), (38, -127), (39, -127), (40, -127), (42, -127),
   (44, -127), (48, -127), (49, -127), (51, -127), (52, -127), (56, -127), (58, -127), (59, -127),
   (63, -127), (67, -127), (70, -127), (74, -127), (75, -127), (79, -127)],
  -- state 153
  [(2, -58), (5, -58), (15, -58), (16, -58), (17, -58), (22, -58), (23, -58), (29, -58), (32, -58),
   (33, -58), (34, -58), (37, -58), (38, -58), (39, -58), (40, -58), (42, -58), (44, -58), (48, -58),
   (49, -58), (51, -58), (52, -58), (56, -58), (58, -58), (59, -58), (63, -58), (67, -58), (70, -58),
   (74, -58), (75, -58), (79, -58)],
  -- state 154
  [(0, 47), (2, -57), (5, -57), (9, 48), (10, 49), (11, 50), (12, 51), (13, 52), (15, -57), (16, -57),
   (17, -57), (19, 53), (22, -57), (23, -57), (29, -57), (32, -57), (33, -57), (34, -57), (37, -57),
   (38, -57), (39, -57), (40, -57), (41, 54), (42, -57), (44, -57), (46, 188), (47, 189), (48, -57),
   (49, -57), (50, 55), (51, -57), (52, -57), (53, 190), (54, 191), (56, -57), (58, -57), (59, -57),
   (63, -57), (67, -57), (70, -57), (74, -57), (75, -57), (79, -57)],
  -- state 155
  [(2, -122), (5, -122), (15, -122), (16, -122), (17, -122), (22, -122), (23, -122), (29, -122),
   (32, -122), (33, -122), (34, -122), (37, -122), (38, -122), (39, -122), (40, -122), (42, -122),
   (44, -122), (48, -122), (49, -122), (51, -122), (52, -122), (56, -122), (58, -122), (59, -122),
   (63, -122), (67, -122), (70, -122), (74, -122), (75, -122), (79, -122)],
  -- state 156
  [(2, -105), (5, 56), (56, 57)],
  -- state 157
  [(0, -144), (2, -144), (3, -144), (4, -144), (5, -144), (6, -144), (8, -144), (9, -144), (10, -144),
   (11, -144), (12, -144), (13, -144), (15, -144), (16, -144), (17, -144), (19, -144), (22, -144),
   (23, -144), (29, -144), (32, -144), (33, -144), (34, -144), (37, -144), (38, -144), (39, -144),
   (40, -144), (41, -144), (42, -144), (44, -144), (46, -144), (47, -144), (48, -144), (49, -144),
   (50, -144), (51, -144), (52, -144), (53, -144), (54, -144), (56, -144), (58, -144), (59, -144),
   (63, -144), (67, -144), (70, -144), (74, -144), (75, -144), (77, -144), (79, -144)],
  -- state 158
  [(0, -12), (2, -12), (3, 58), (4, -12), (5, -12), (6, -12), (8, 59), (9, -12), (10, -12), (11, -12),
   (12, -12), (13, -12), (15, -12), (16, -12), (17, -12), (19, -12), (22, -12), (23, -12), (29, -12),
   (32, -12), (33, -12), (34, -12), (37, -12), (38, -12), (39, -12), (40, -12), (41, -12), (42, -12),
   (44, -12), (46, -12), (47, -12), (48, -12), (49, -12), (50, -12), (51, -12), (52, -12), (53, -12),
   (54, -12), (56, -12), (58, -12), (59, -12), (63, -12), (67, -12), (70, -12), (74, -12), (75, -12),
   (77, -12), (79, -12)],
  -- state 159
  [(2, -16), (5, -16), (15, -16), (16, -16), (17, -16), (22, -16), (23, -16), (29, -16), (32, -16),
   (33, -16), (34, -16), (37, -16), (38, -16), (39, -16), (40, -16), (42, -16), (44, -16), (48, -16),
   (49, -16), (51, -16), (52, -16), (56, -16), (58, -16), (59, -16), (63, -16), (67, -16), (70, -16),
   (74, -16), (75, -16), (79, -16)],
  -- state 160
  [(0, -110), (2, -110), (3, -110), (4, -110), (5, -110), (6, -110), (8, -110), (9, -110), (10, -110),
   (11, -110), (12, -110), (13, -110), (15, -110), (16, -110), (17, -110), (19, -110), (22, -110),
   (23, -110), (29, -110), (32, -110), (33, -110), (34, -110), (37, -110), (38, -110), (39, -110),
   (40, -110), (41, -110), (42, -110), (44, -110), (46, -110), (47, -110), (48, -110), (49, -110),
   (50, -110), (51, -110), (52, -110), (53, -110), (54, -110), (56, -110), (58, -110), (59, -110),
   (63, -110), (67, -110), (70, -110), (74, -110), (75, -110), (77, -110), (79, -110)],
  -- state 161
  [(2, -72), (5, -72), (16, -72), (17, -72), (22, -72), (23, -72), (29, -72), (32, -72), (33, -72),
   (34, -72), (37, -72), (38, -72), (39, -72), (40, -72), (42, -72), (44, -72), (48, -72), (49, -72),
   (51, -72), (52, -72), (56, -72), (58, 60), (59, -72), (63, -72), (67, -72), (70, -72), (74, -72),
   (75, -72), (79, -72)],
  -- state 162
  [(0, -211), (2, -211), (3, -211), (4, -211), (5, -211), (6, -211), (8, -211), (9, -211), (10, -211),
   (11, -211), (12, -211), (13, -211), (15, -211), (16, -211), (17, -211), (19, -211), (22, -211),
   (23, -211), (29, -211), (32, -211), (33, -211), (34, -211), (37, -211), (38, -211), (39, -211),
   (40, -211), (41, -211), (42, -211), (44, -211), (46, -211), (47, -211), (48, -211), (49, -211),
   (50, -211), (51, -211), (52, -211), (53, -211), (54, -211), (56, -211), (58, -211), (59, -211),
   (63, -211), (67, -211), (70, -211), (74, -211), (75, -211), (77, -211), (79, -211)],
  -- state 163
  [(0, -145), (2, -145), (3, -145), (4, -145), (5, -145), (6, -145), (8, -145), (9, -145), (10, -145),
   (11, -145), (12, -145), (13, -145), (15, -145), (16, -145), (17, -145), (19, -145), (22, -145),
   (23, -145), (29, -145), (32, -145), (33, -145), (34, -145), (37, -145), (38, -145), (39, -145),
   (40, -145), (41, -145), (42, -145), (44, -145), (46, -145), (47, -145), (48, -145), (49, -145),
   (50, -145), (51, -145), (52, -145), (53, -145), (54, -145), (56, -145), (58, -145), (59, -145),
   (63, -145), (67, -145), (70, -145), (74, -145), (75, -145), (77, -145), (79, -145)],
  -- state 164
  [(0, -111), (2, -111), (3, -111), (4, -111), (5, -111), (6, -111), (8, -111), (9, -111), (10, -111),
   (11, -111), (12, -111), (13, -111), (15, -111), (16, -111), (17, -111), (19, -111), (22, -111),
   (23, -111), (29, -111), (32, -111), (33, -111), (34, -111), (37, -111), (38, -111), (39, -111),
   (40, -111), (41, -111), (42, -111), (44, -111), (46, -111), (47, -111), (48, -111), (49, -111),
   (50, -111), (51, -111), (52, -111), (53, -111), (54, -111), (56, -111), (58, -111), (59, -111),
   (63, -111), (67, -111), (70, -111), (74, -111), (75, -111), (77, -111), (79, -111)],
  -- state 165
  [(0, -119), (2, -119), (3, -119), (4, -119), (5, -119), (6, -119), (8, -119), (9, -119), (10, -119),
   (11, -119), (12, -119), (13, -119), (15, -119), (16, -119), (17, -119), (19, -119), (22, -119),
   (23, -119), (29, -119), (32, -119), (33, -119), (34, -119), (37, -119), (38, -119), (39, -119),
   (40, -119), (41, -119), (42, -119), (44, -119), (46, -119), (47, -119), (48, -119), (49, -119),
   (50, -119), (51, -119), (52, -119), (53, -119), (54, -119), (56, -119), (58, -119), (59, -119),
   (63, -119), (67, -119), (70, -119), (74, -119), (75, -119), (77, -119), (79, -119)],
  -- state 166
  [(0, -114), (2, -114), (3, -114), (4, -114), (5, -114), (6, -114), (8, -114), (9, -114), (10, -114),
   (11, -114), (12, -114), (13, -114), (15, -114), (16, -114), (17, -114), (19, -114), (22, -114),
   (23, -114), (29, -114), (32, -114), (33, -114), (34, -114), (37, -114), (38, -114), (39, -114),
   (40, -114), (41, -114), (42, -114), (44, -114), (46, -114), (47, -114), (48, -114), (49, -114),
   (50, -114), (51, -114), (52, -114), (53, -114), (54, -114), (56, -114), (58, -114), (59, -114),
   (63, -114), (67, -114), (70, -114), (74, -114), (75, -114), (77, -114), (79, -114)],
  -- state 167
  [(0, -113), (2, -113), (3, -113), (4, -113), (5, -113), (6, -113), (8, -113), (9, -113), (10, -113),
   (11, -113), (12, -113), (13, -113), (15, -113), (16, -113), (17, -113), (19, -113), (22, -113),
   (23, -113), (29, -113), (32, -113), (33, -113), (34, -113), (37, -113), (38, -113), (39, -113),
   (40, -113), (41, -113), (42, -113), (44, -113), (46, -113), (47, -113), (48, -113), (49, -113),
   (50, -113), (51, -113), (52, -113), (53, -113), (54, -113), (56, -113), (58, -113), (59, -113),
   (63, -113), (67, -113), (70, -113), (74, -113), (75, -113), (77, -113), (79, -113)]
]

/-- `__ACTION` (`src/sql/parser.rs` L415-462), states 168 to 191. -/
def actionRows7 : List (List (Nat × Int)) := [
  -- state 168
  [(0, -115), (2, -115), (3, -115), (4, -115), (5, -115), (6, -115), (8, -115), (9, -115), (10, -115),
   (11, -115), (12, -115), (13, -115), (15, -115), (16, -115), (17, -115), (19, -115), (22, -115),
   (23, -115), (29, -115), (32, -115), (33, -115), (34, -115), (37, -115), (38, -115), (39, -115),
   (40, -115), (41, -115), (42, -115), (44, -115), (46, -115), (47, -115), (48, -115), (49, -115),
   (50, -115), (51, -115), (52, -115), (53, -115), (54, -115), (56, -115), (58, -115), (59, -115),
   (63, -115), (67, -115), (70, -115), (74, -115), (75, -115), (77, -115), (79, -115)],
  -- state 169
  [(0, -112), (2, -112), (3, -112), (4, -112), (5, -112), (6, -112), (8, -112), (9, -112), (10, -112),
   (11, -112), (12, -112), (13, -112), (15, -112), (16, -112), (17, -112), (19, -112), (22, -112),
   (23, -112), (29, -112), (32, -112), (33, -112), (34, -112), (37, -112), (38, -112), (39, -112),
   (40, -112), (41, -112), (42, -112), (44, -112), (46, -112), (47, -112), (48, -112), (49, -112),
   (50, -112), (51, -112), (52, -112), (53, -112), (54, -112), (56, -112), (58, -112), (59, -112),
   (63, -112), (67, -112), (70, -112), (74, -112), (75, -112), (77, -112), (79, -112)],
  -- state 170
  [(0, -126), (2, -126), (3, -126), (4, -126), (5, -126), (6, -126), (8, -126), (9, -126), (10, -126),
   (11, -126), (12, -126), (13, -126), (15, -126), (16, -126), (17, -126), (19, -126), (22, -126),
   (23, -126), (29, -126), (32, -126), (33, -126), (34, -126), (37, -126), (38, -126), (39, -126),
   (40, -126), (41, -126), (42, -126), (44, -126), (46, -126), (47, -126), (48, -126), (49, -126),
   (50, -126), (51, -126), (52, -126), (53, -126), (54, -126), (56, -126), (58, -126), (59, -126),
   (63, -126), (67, -126), (70, -126), (74, -126), (75, -126), (77, -126), (79, -126)],
  -- state 171
  [(0, -124), (2, -124), (3, -124), (4, -124), (5, -124), (6, -124), (8, -124), (9, -124), (10, -124),
   (11, -124), (12, -124), (13, -124), (15, -124), (16, -124), (17, -124), (19, -124), (22, -124),
   (23, -124), (29, -124), (32, -124), (33, -124), (34, -124), (37, -124), (38, -124), (39, -124),
   (40, -124), (41, -124), (42, -124), (44, -124), (46, -124), (47, -124), (48, -124), (49, -124),
   (50, -124), (51, -124), (52, -124), (53, -124), (54, -124), (56, -124), (58, -124), (59, -124),
   (63, -124), (67, -124), (70, -124), (74, -124), (75, -124), (77, -124), (79, -124)],
  -- state 172
  [(0, -125), (2, -125), (3, -125), (4, -125), (5, -125), (6, -125), (8, -125), (9, -125), (10, -125),
   (11, -125), (12, -125), (13, -125), (15, -125), (16, -125), (17, -125), (19, -125), (22, -125),
   (23, -125), (29, -125), (32, -125), (33, -125), (34, -125), (37, -125), (38, -125), (39, -125),
   (40, -125), (41, -125), (42, -125), (44, -125), (46, -125), (47, -125), (48, -125), (49, -125),
   (50, -125), (51, -125), (52, -125), (53, -125), (54, -125), (56, -125), (58, -125), (59, -125),
   (63, -125), (67, -125), (70, -125), (74, -125), (75, -125), (77, -125), (79, -125)],
  -- state 173
  [(0, -191), (2, -191), (3, -191), (4, -191), (5, -191), (6, -191), (8, -191), (9, -191), (10, -191),
   (11, -191), (12, -191), (13, -191), (15, -191), (16, -191), (17, -191), (19, -191), (22, -191),
   (23, -191), (29, -191), (32, -191), (33, -191), (34, -191), (37, -191), (38, -191), (39, -191),
   (40, -191), (41, -191), (42, -191), (44, -191), (46, -191), (47, -191), (48, -191), (49, -191),
   (50, -191), (51, -191), (52, -191), (53, -191), (54, -191), (56, -191), (58, -191), (59, -191),
   (63, -191), (67, -191), (70, -191), (74, -191), (75, -191), (77, -191), (79, -191)],
  -- state 174
  [(64, -60), (73, -60)],
  -- state 175
  [(2, -175)],
  -- state 176
  [(65, 68)],
  -- state 177
  [(16, 69)],
  -- state 178
  [(79, -157)],
  -- state 179
  [],
  -- state 180
  [(0, -146), (2, -146), (3, -146), (4, -146), (5, -146), (6, -146), (7, 74), (8, -146), (9, -146),
   (10, -146), (11, -146), (12, -146), (13, -146), (15, -146), (16, -146), (19, -146), (34, -146),
   (37, -146), (39, -146), (41, -146), (44, -146), (46, -146), (47, -146), (50, -146), (51, -146),
   (53, -146), (54, -146), (58, -146), (59, -146), (70, -146), (75, -146), (77, -146), (79, -146)],
  -- state 181
  [(2, -153), (5, -153), (34, -153), (37, -153), (39, -153), (44, -153), (51, -153), (59, -153),
   (70, -153), (75, -153)],
  -- state 182
  [(2, -156), (5, 75), (34, -156), (37, -156), (39, -156), (44, -156), (51, -156), (59, -156),
   (70, -156), (75, -156)],
  -- state 183
  [(2, -155), (34, -155), (37, -155), (39, -155), (44, -155), (51, -155), (59, -155), (70, -155),
   (75, -155)],
  -- state 184
  [(2, -75), (5, -75), (34, -75), (40, -75), (44, -75), (51, -75), (59, -75), (70, -75)],
  -- state 185
  [(2, 215), (5, 80)],
  -- state 186
  [(1, 81)],
  -- state 187
  [(53, 230), (55, 231)],
  -- state 188
  [(0, -44), (2, -44), (5, -44), (9, -44), (10, -44), (11, -44), (12, -44), (13, -44), (15, -44),
   (16, -44), (17, -44), (19, -44), (22, -44), (23, -44), (29, -44), (32, -44), (33, -44), (34, -44),
   (37, -44), (38, -44), (39, -44), (40, -44), (41, -44), (42, -44), (44, -44), (46, -44), (47, -44),
   (48, -44), (49, -44), (50, -44), (51, -44), (52, -44), (53, -44), (54, -44), (56, -44), (58, -44),
   (59, -44), (63, -44), (67, -44), (70, -44), (74, -44), (75, -44), (79, -44)],
  -- state 189
  [(19, 83), (41, 84), (55, 233)],
  -- state 190
  [(0, -45), (2, -45), (5, -45), (9, -45), (10, -45), (11, -45), (12, -45), (13, -45), (15, -45),
   (16, -45), (17, -45), (19, -45), (22, -45), (23, -45), (29, -45), (32, -45), (33, -45), (34, -45),
   (37, -45), (38, -45), (39, -45), (40, -45), (41, -45), (42, -45), (44, -45), (46, -45), (47, -45),
   (48, -45), (49, -45), (50, -45), (51, -45), (52, -45), (53, -45), (54, -45), (56, -45), (58, -45),
   (59, -45), (63, -45), (67, -45), (70, -45), (74, -45), (75, -45), (79, -45)],
  -- state 191
  [(2, 239), (5, 80)]
]

/-- `__ACTION` (`src/sql/parser.rs` L463-510), states 192 to 215. -/
def actionRows8 : List (List (Nat × Int)) := [
  -- state 192
  [(2, 240)],
  -- state 193
  [(0, -212), (2, -212), (3, -212), (4, -212), (5, -212), (6, -212), (8, -212), (9, -212), (10, -212),
   (11, -212), (12, -212), (13, -212), (15, -212), (16, -212), (17, -212), (19, -212), (22, -212),
   (23, -212), (29, -212), (32, -212), (33, -212), (34, -212), (37, -212), (38, -212), (39, -212),
   (40, -212), (41, -212), (42, -212), (44, -212), (46, -212), (47, -212), (48, -212), (49, -212),
   (50, -212), (51, -212), (52, -212), (53, -212), (54, -212), (56, -212), (58, -212), (59, -212),
   (63, -212), (67, -212), (70, -212), (74, -212), (75, -212), (77, -212), (79, -212)],
  -- state 194
  [(0, -213), (2, -213), (3, -213), (4, -213), (5, -213), (6, -213), (8, -213), (9, -213), (10, -213),
   (11, -213), (12, -213), (13, -213), (15, -213), (16, -213), (17, -213), (19, -213), (22, -213),
   (23, -213), (29, -213), (32, -213), (33, -213), (34, -213), (37, -213), (38, -213), (39, -213),
   (40, -213), (41, -213), (42, -213), (44, -213), (46, -213), (47, -213), (48, -213), (49, -213),
   (50, -213), (51, -213), (52, -213), (53, -213), (54, -213), (56, -213), (58, -213), (59, -213),
   (63, -213), (67, -213), (70, -213), (74, -213), (75, -213), (77, -213), (79, -213)],
  -- state 195
  [(32, -219), (33, -219), (74, -219)],
  -- state 196
  [(0, -116), (2, -116), (3, -116), (4, -116), (5, -116), (6, -116), (8, -116), (9, -116), (10, -116),
   (11, -116), (12, -116), (13, -116), (15, -116), (16, -116), (17, -116), (19, -116), (22, -116),
   (23, -116), (29, -116), (32, -116), (33, -116), (34, -116), (37, -116), (38, -116), (39, -116),
   (40, -116), (41, -116), (42, -116), (44, -116), (46, -116), (47, -116), (48, -116), (49, -116),
   (50, -116), (51, -116), (52, -116), (53, -116), (54, -116), (56, -116), (58, -116), (59, -116),
   (63, -116), (67, -116), (70, -116), (74, -116), (75, -116), (77, -116), (79, -116)],
  -- state 197
  [(2, -123), (5, -123), (15, -123), (16, -123), (17, -123), (22, -123), (23, -123), (29, -123),
   (32, -123), (33, -123), (34, -123), (37, -123), (38, -123), (39, -123), (40, -123), (42, -123),
   (44, -123), (48, -123), (49, -123), (51, -123), (52, -123), (56, -123), (58, -123), (59, -123),
   (63, -123), (67, -123), (70, -123), (74, -123), (75, -123), (79, -123)],
  -- state 198
  [(0, -117), (2, -117), (3, -117), (4, -117), (5, -117), (6, -117), (8, -117), (9, -117), (10, -117),
   (11, -117), (12, -117), (13, -117), (15, -117), (16, -117), (17, -117), (19, -117), (22, -117),
   (23, -117), (29, -117), (32, -117), (33, -117), (34, -117), (37, -117), (38, -117), (39, -117),
   (40, -117), (41, -117), (42, -117), (44, -117), (46, -117), (47, -117), (48, -117), (49, -117),
   (50, -117), (51, -117), (52, -117), (53, -117), (54, -117), (56, -117), (58, -117), (59, -117),
   (63, -117), (67, -117), (70, -117), (74, -117), (75, -117), (77, -117), (79, -117)],
  -- state 199
  [(0, -118), (2, -118), (3, -118), (4, -118), (5, -118), (6, -118), (8, -118), (9, -118), (10, -118),
   (11, -118), (12, -118), (13, -118), (15, -118), (16, -118), (17, -118), (19, -118), (22, -118),
   (23, -118), (29, -118), (32, -118), (33, -118), (34, -118), (37, -118), (38, -118), (39, -118),
   (40, -118), (41, -118), (42, -118), (44, -118), (46, -118), (47, -118), (48, -118), (49, -118),
   (50, -118), (51, -118), (52, -118), (53, -118), (54, -118), (56, -118), (58, -118), (59, -118),
   (63, -118), (67, -118), (70, -118), (74, -118), (75, -118), (77, -118), (79, -118)],
  -- state 200
  [(2, -140), (5, -140), (51, -140)],
  -- state 201
  [(2, -129), (5, 89), (51, -129)],
  -- state 202
  [(2, -174)],
  -- state 203
  [],
  -- state 204
  [],
  -- state 205
  [],
  -- state 206
  [(2, -151), (5, -151), (34, -151), (37, -151), (39, -151), (44, -151), (51, -151), (59, -151),
   (70, -151), (75, -151)],
  -- state 207
  [(2, -161), (34, -161), (44, -161), (51, -161), (59, -161), (70, -161)],
  -- state 208
  [(20, 97)],
  -- state 209
  [(0, -147), (1, -147), (2, -147), (3, -147), (4, -147), (5, -147), (6, -147), (7, 98), (8, -147),
   (9, -147), (10, -147), (11, -147), (12, -147), (13, -147), (15, -147), (16, -147), (17, -147),
   (19, -147), (22, -147), (23, -147), (29, -147), (32, -147), (33, -147), (34, -147), (37, -147),
   (38, -147), (39, -147), (40, -147), (41, -147), (42, -147), (44, -147), (46, -147), (47, -147),
   (48, -147), (49, -147), (50, -147), (51, -147), (52, -147), (53, -147), (54, -147), (56, -147),
   (57, -147), (58, -147), (59, -147), (63, -147), (64, -147), (65, -147), (67, -147), (70, -147),
   (72, -147), (73, -147), (74, -147), (75, -147), (77, -147), (79, -147)],
  -- state 210
  [(5, -19), (75, -19)],
  -- state 211
  [(2, -83), (5, -83), (11, -83)],
  -- state 212
  [(5, 100), (11, 101)],
  -- state 213
  [(2, -210), (5, -210), (34, -210), (44, -210), (51, -210), (59, -210), (70, -210)],
  -- state 214
  [(2, -208), (5, -208), (34, -208), (44, -208), (51, -208), (59, -208), (70, -208)],
  -- state 215
  [(5, -33), (28, -33), (43, -33), (64, -33), (71, -33), (73, -33)]
]

/-- `__ACTION` (`src/sql/parser.rs` L511-558), states 216 to 239. -/
def actionRows9 : List (List (Nat × Int)) := [
  -- state 216
  [(2, 263), (5, 100)],
  -- state 217
  [(0, -13), (2, -13), (3, 58), (4, -13), (5, -13), (6, -13), (8, 59), (9, -13), (10, -13), (11, -13),
   (12, -13), (13, -13), (15, -13), (16, -13), (17, -13), (19, -13), (22, -13), (23, -13), (29, -13),
   (32, -13), (33, -13), (34, -13), (37, -13), (38, -13), (39, -13), (40, -13), (41, -13), (42, -13),
   (44, -13), (46, -13), (47, -13), (48, -13), (49, -13), (50, -13), (51, -13), (52, -13), (53, -13),
   (54, -13), (56, -13), (58, -13), (59, -13), (63, -13), (67, -13), (70, -13), (74, -13), (75, -13),
   (77, -13), (79, -13)],
  -- state 218
  [(0, -14), (2, -14), (3, 58), (4, -14), (5, -14), (6, -14), (8, 59), (9, -14), (10, -14), (11, -14),
   (12, -14), (13, -14), (15, -14), (16, -14), (17, -14), (19, -14), (22, -14), (23, -14), (29, -14),
   (32, -14), (33, -14), (34, -14), (37, -14), (38, -14), (39, -14), (40, -14), (41, -14), (42, -14),
   (44, -14), (46, -14), (47, -14), (48, -14), (49, -14), (50, -14), (51, -14), (52, -14), (53, -14),
   (54, -14), (56, -14), (58, -14), (59, -14), (63, -14), (67, -14), (70, -14), (74, -14), (75, -14),
   (77, -14), (79, -14)],
  -- state 219
  [(0, -15), (2, -15), (3, 58), (4, -15), (5, -15), (6, -15), (8, 59), (9, -15), (10, -15), (11, -15),
   (12, -15), (13, -15), (15, -15), (16, -15), (17, -15), (19, -15), (22, -15), (23, -15), (29, -15),
   (32, -15), (33, -15), (34, -15), (37, -15), (38, -15), (39, -15), (40, -15), (41, -15), (42, -15),
   (44, -15), (46, -15), (47, -15), (48, -15), (49, -15), (50, -15), (51, -15), (52, -15), (53, -15),
   (54, -15), (56, -15), (58, -15), (59, -15), (63, -15), (67, -15), (70, -15), (74, -15), (75, -15),
   (77, -15), (79, -15)],
  -- state 220
  [(2, -17), (5, -17), (15, -17), (16, -17), (17, -17), (22, -17), (23, -17), (29, -17), (32, -17),
   (33, -17), (34, -17), (37, -17), (38, -17), (39, -17), (40, -17), (42, -17), (44, -17), (48, -17),
   (49, -17), (51, -17), (52, -17), (56, -17), (58, -17), (59, -17), (63, -17), (67, -17), (70, -17),
   (74, -17), (75, -17), (79, -17)],
  -- state 221
  [(0, -36), (2, -36), (4, 43), (5, -36), (6, 44), (9, -36), (10, -36), (11, -36), (12, -36), (13, -36),
   (15, -36), (16, -36), (17, -36), (19, -36), (22, -36), (23, -36), (29, -36), (32, -36), (33, -36),
   (34, -36), (37, -36), (38, -36), (39, -36), (40, -36), (41, -36), (42, -36), (44, -36), (46, -36),
   (47, -36), (48, -36), (49, -36), (50, -36), (51, -36), (52, -36), (53, -36), (54, -36), (56, -36),
   (58, -36), (59, -36), (63, -36), (67, -36), (70, -36), (74, -36), (75, -36), (77, 45), (79, -36)],
  -- state 222
  [(0, -37), (2, -37), (4, 43), (5, -37), (6, 44), (9, -37), (10, -37), (11, -37), (12, -37), (13, -37),
   (15, -37), (16, -37), (17, -37), (19, -37), (22, -37), (23, -37), (29, -37), (32, -37), (33, -37),
   (34, -37), (37, -37), (38, -37), (39, -37), (40, -37), (41, -37), (42, -37), (44, -37), (46, -37),
   (47, -37), (48, -37), (49, -37), (50, -37), (51, -37), (52, -37), (53, -37), (54, -37), (56, -37),
   (58, -37), (59, -37), (63, -37), (67, -37), (70, -37), (74, -37), (75, -37), (77, 45), (79, -37)],
  -- state 223
  [(0, -39), (2, -39), (4, 43), (5, -39), (6, 44), (9, -39), (10, -39), (11, -39), (12, -39), (13, -39),
   (15, -39), (16, -39), (17, -39), (19, -39), (22, -39), (23, -39), (29, -39), (32, -39), (33, -39),
   (34, -39), (37, -39), (38, -39), (39, -39), (40, -39), (41, -39), (42, -39), (44, -39), (46, -39),
   (47, -39), (48, -39), (49, -39), (50, -39), (51, -39), (52, -39), (53, -39), (54, -39), (56, -39),
   (58, -39), (59, -39), (63, -39), (67, -39), (70, -39), (74, -39), (75, -39), (77, 45), (79, -39)],
  -- state 224
  [(0, -35), (2, -35), (4, 43), (5, -35), (6, 44), (9, -35), (10, -35), (11, -35), (12, -35), (13, -35),
   (15, -35), (16, -35), (17, -35), (19, -35), (22, -35), (23, -35), (29, -35), (32, -35), (33, -35),
   (34, -35), (37, -35), (38, -35), (39, -35), (40, -35), (41, -35), (42, -35), (44, -35), (46, -35),
   (47, -35), (48, -35), (49, -35), (50, -35), (51, -35), (52, -35), (53, -35), (54, -35), (56, -35),
   (58, -35), (59, -35), (63, -35), (67, -35), (70, -35), (74, -35), (75, -35), (77, 45), (79, -35)],
  -- state 225
  [(0, -38), (2, -38), (4, 43), (5, -38), (6, 44), (9, -38), (10, -38), (11, -38), (12, -38), (13, -38),
   (15, -38), (16, -38), (17, -38), (19, -38), (22, -38), (23, -38), (29, -38), (32, -38), (33, -38),
   (34, -38), (37, -38), (38, -38), (39, -38), (40, -38), (41, -38), (42, -38), (44, -38), (46, -38),
   (47, -38), (48, -38), (49, -38), (50, -38), (51, -38), (52, -38), (53, -38), (54, -38), (56, -38),
   (58, -38), (59, -38), (63, -38), (67, -38), (70, -38), (74, -38), (75, -38), (77, 45), (79, -38)],
  -- state 226
  [(0, -40), (2, -40), (4, 43), (5, -40), (6, 44), (9, -40), (10, -40), (11, -40), (12, -40), (13, -40),
   (15, -40), (16, -40), (17, -40), (19, -40), (22, -40), (23, -40), (29, -40), (32, -40), (33, -40),
   (34, -40), (37, -40), (38, -40), (39, -40), (40, -40), (41, -40), (42, -40), (44, -40), (46, -40),
   (47, -40), (48, -40), (49, -40), (50, -40), (51, -40), (52, -40), (53, -40), (54, -40), (56, -40),
   (58, -40), (59, -40), (63, -40), (67, -40), (70, -40), (74, -40), (75, -40), (77, 45), (79, -40)],
  -- state 227
  [(4, 43), (6, 44), (15, 102), (77, 45)],
  -- state 228
  [(0, -53), (2, -53), (5, -53), (9, -53), (10, -53), (11, -53), (12, -53), (13, -53), (15, -53),
   (16, -53), (17, -53), (19, -53), (22, -53), (23, -53), (29, -53), (32, -53), (33, -53), (34, -53),
   (37, -53), (38, -53), (39, -53), (40, -53), (41, -53), (42, -53), (44, -53), (46, -53), (47, -53),
   (48, -53), (49, -53), (50, -53), (51, -53), (52, -53), (53, -53), (54, -53), (56, -53), (58, -53),
   (59, -53), (63, -53), (67, -53), (70, -53), (74, -53), (75, -53), (79, -53)],
  -- state 229
  [(55, 268)],
  -- state 230
  [(0, -41), (2, -41), (5, -41), (9, -41), (10, -41), (11, -41), (12, -41), (13, -41), (15, -41),
   (16, -41), (17, -41), (19, -41), (22, -41), (23, -41), (29, -41), (32, -41), (33, -41), (34, -41),
   (37, -41), (38, -41), (39, -41), (40, -41), (41, -41), (42, -41), (44, -41), (46, -41), (47, -41),
   (48, -41), (49, -41), (50, -41), (51, -41), (52, -41), (53, -41), (54, -41), (56, -41), (58, -41),
   (59, -41), (63, -41), (67, -41), (70, -41), (74, -41), (75, -41), (79, -41)],
  -- state 231
  [(0, -43), (2, -43), (4, 43), (5, -43), (6, 44), (9, -43), (10, -43), (11, -43), (12, -43), (13, -43),
   (15, -43), (16, -43), (17, -43), (19, -43), (22, -43), (23, -43), (29, -43), (32, -43), (33, -43),
   (34, -43), (37, -43), (38, -43), (39, -43), (40, -43), (41, -43), (42, -43), (44, -43), (46, -43),
   (47, -43), (48, -43), (49, -43), (50, -43), (51, -43), (52, -43), (53, -43), (54, -43), (56, -43),
   (58, -43), (59, -43), (63, -43), (67, -43), (70, -43), (74, -43), (75, -43), (77, 45), (79, -43)],
  -- state 232
  [(0, -46), (2, -46), (5, -46), (9, -46), (10, -46), (11, -46), (12, -46), (13, -46), (15, -46),
   (16, -46), (17, -46), (19, -46), (22, -46), (23, -46), (29, -46), (32, -46), (33, -46), (34, -46),
   (37, -46), (38, -46), (39, -46), (40, -46), (41, -46), (42, -46), (44, -46), (46, -46), (47, -46),
   (48, -46), (49, -46), (50, -46), (51, -46), (52, -46), (53, -46), (54, -46), (56, -46), (58, -46),
   (59, -46), (63, -46), (67, -46), (70, -46), (74, -46), (75, -46), (79, -46)],
  -- state 233
  [(2, -106)],
  -- state 234
  [(2, -107)],
  -- state 235
  [(0, -120), (2, -120), (3, -120), (4, -120), (5, -120), (6, -120), (8, -120), (9, -120), (10, -120),
   (11, -120), (12, -120), (13, -120), (15, -120), (16, -120), (17, -120), (19, -120), (22, -120),
   (23, -120), (29, -120), (32, -120), (33, -120), (34, -120), (37, -120), (38, -120), (39, -120),
   (40, -120), (41, -120), (42, -120), (44, -120), (46, -120), (47, -120), (48, -120), (49, -120),
   (50, -120), (51, -120), (52, -120), (53, -120), (54, -120), (56, -120), (58, -120), (59, -120),
   (63, -120), (67, -120), (70, -120), (74, -120), (75, -120), (77, -120), (79, -120)],
  -- state 236
  [(0, -121), (2, -121), (3, -121), (4, -121), (5, -121), (6, -121), (8, -121), (9, -121), (10, -121),
   (11, -121), (12, -121), (13, -121), (15, -121), (16, -121), (17, -121), (19, -121), (22, -121),
   (23, -121), (29, -121), (32, -121), (33, -121), (34, -121), (37, -121), (38, -121), (39, -121),
   (40, -121), (41, -121), (42, -121), (44, -121), (46, -121), (47, -121), (48, -121), (49, -121),
   (50, -121), (51, -121), (52, -121), (53, -121), (54, -121), (56, -121), (58, -121), (59, -121),
   (63, -121), (67, -121), (70, -121), (74, -121), (75, -121), (77, -121), (79, -121)],
  -- state 237
  [(2, -128), (5, -128), (15, 46), (16, -128), (17, -128), (22, -128), (23, -128), (29, -128),
   (32, -128), (33, -128), (34, -128), (37, -128), (38, -128), (39, -128), (40, -128), (42, -128),
   (44, -128), (48, -128), (49, -128), (51, -128), (52, -128), (56, -128), (58, -128), (59, -128),
   (63, -128), (67, -128), (70, -128), (74, -128), (75, -128), (79, -128)],
  -- state 238
  [(0, -142), (2, -142), (3, -142), (4, -142), (5, -142), (6, -142), (8, -142), (9, -142), (10, -142),
   (11, -142), (12, -142), (13, -142), (15, -142), (16, -142), (17, -142), (19, -142), (22, -142),
   (23, -142), (29, -142), (32, -142), (33, -142), (34, -142), (37, -142), (38, -142), (39, -142),
   (40, -142), (41, -142), (42, -142), (44, -142), (46, -142), (47, -142), (48, -142), (49, -142),
   (50, -142), (51, -142), (52, -142), (53, -142), (54, -142), (56, -142), (58, -142), (59, -142),
   (63, -142), (67, -142), (70, -142), (74, -142), (75, -142), (77, -142), (79, -142)],
  -- state 239
  [(0, -143), (2, -143), (3, -143), (4, -143), (5, -143), (6, -143), (8, -143), (9, -143), (10, -143),
   (11, -143), (12, -143), (13, -143), (15, -143), (16, -143), (17, -143), (19, -143), (22, -143),
   (23, -143), (29, -143), (32, -143), (33, -143), (34, -143), (37, -143), (38, -143), (39, -143),
   (40, -143), (41, -143), (42, -143), (44, -143), (46, -143), (47, -143), (48, -143), (49, -143),
   (50, -143), (51, -143), (52, -143), (53, -143), (54, -143), (56, -143), (58, -143), (59, -143),
   (63, -143), (67, -143), (70, -143), (74, -143), (75, -143), (77, -143), (79, -143)]
]

/-- `__ACTION` (`src/sql/parser.rs` L559-606), states 240 to 263. -/
def actionRows10 : List (List (Nat × Int)) := [
  -- state 240
  [(33, 273)],
  -- state 241
  [(32, -220), (33, -220), (74, -220)],
  -- state 242
  [(2, -26), (5, -26), (15, -26), (16, -26), (17, -26), (22, -26), (23, -26), (29, -26), (32, -26),
   (33, -26), (34, -26), (37, -26), (38, -26), (39, -26), (40, -26), (42, -26), (44, -26), (48, -26),
   (49, -26), (51, -26), (52, -26), (56, -26), (58, -26), (59, -26), (63, -26), (67, -26), (70, -26),
   (74, -26), (75, -26), (79, -26)],
  -- state 243
  [(67, 104)],
  -- state 244
  [(2, -139), (5, -139), (51, -139)],
  -- state 245
  [(2, -135), (5, -135), (51, -135)],
  -- state 246
  [(2, -137), (5, -137), (51, -137)],
  -- state 247
  [],
  -- state 248
  [],
  -- state 249
  [(7, 179)],
  -- state 250
  [(2, -221), (34, -221), (39, -221), (44, -221), (51, -221), (59, -221), (70, -221)],
  -- state 251
  [],
  -- state 252
  [(2, 281), (5, 100)],
  -- state 253
  [(2, -150), (5, -150), (34, -150), (37, -150), (39, -150), (44, -150), (51, -150), (59, -150),
   (70, -150), (75, -150)],
  -- state 254
  [(2, -152), (5, -152), (34, -152), (37, -152), (39, -152), (44, -152), (51, -152), (59, -152),
   (70, -152), (75, -152)],
  -- state 255
  [(2, -154), (5, -154), (34, -154), (37, -154), (39, -154), (44, -154), (51, -154), (59, -154),
   (70, -154), (75, -154)],
  -- state 256
  [(2, -165), (34, -165), (44, -165), (51, -165), (59, -165), (70, -165)],
  -- state 257
  [(2, -160), (34, -160), (44, -160), (51, -160), (59, -160), (70, -160)],
  -- state 258
  [(2, -77), (5, 108), (34, -77), (39, -77), (44, -77), (51, -77), (59, -77), (70, -77), (75, -77)],
  -- state 259
  [(2, -196), (5, -196), (23, -196), (34, -196), (38, -196), (39, -196), (42, -196), (44, -196),
   (48, -196), (49, -196), (51, -196), (52, -196), (59, -196), (63, -196), (70, -196), (75, -196)],
  -- state 260
  [],
  -- state 261
  [(2, -76), (5, -76), (34, -76), (40, -76), (44, -76), (51, -76), (59, -76), (70, -76)],
  -- state 262
  [(16, 298)],
  -- state 263
  [(2, 299)]
]

/-- `__ACTION` (`src/sql/parser.rs` L607-654), states 264 to 287. -/
def actionRows11 : List (List (Nat × Int)) := [
  -- state 264
  [(2, 301), (5, 80)],
  -- state 265
  [(2, 302)],
  -- state 266
  [(0, -47), (2, -47), (5, -47), (9, -47), (10, -47), (11, -47), (12, -47), (13, -47), (15, -47),
   (16, -47), (17, -47), (19, -47), (22, -47), (23, -47), (29, -47), (32, -47), (33, -47), (34, -47),
   (37, -47), (38, -47), (39, -47), (40, -47), (41, -47), (42, -47), (44, -47), (46, -47), (47, -47),
   (48, -47), (49, -47), (50, -47), (51, -47), (52, -47), (53, -47), (54, -47), (56, -47), (58, -47),
   (59, -47), (63, -47), (67, -47), (70, -47), (74, -47), (75, -47), (79, -47)],
  -- state 267
  [(0, -42), (2, -42), (5, -42), (9, -42), (10, -42), (11, -42), (12, -42), (13, -42), (15, -42),
   (16, -42), (17, -42), (19, -42), (22, -42), (23, -42), (29, -42), (32, -42), (33, -42), (34, -42),
   (37, -42), (38, -42), (39, -42), (40, -42), (41, -42), (42, -42), (44, -42), (46, -42), (47, -42),
   (48, -42), (49, -42), (50, -42), (51, -42), (52, -42), (53, -42), (54, -42), (56, -42), (58, -42),
   (59, -42), (63, -42), (67, -42), (70, -42), (74, -42), (75, -42), (79, -42)],
  -- state 268
  [(4, 43), (6, 44), (15, 110), (77, 45)],
  -- state 269
  [(0, -54), (2, -54), (5, -54), (9, -54), (10, -54), (11, -54), (12, -54), (13, -54), (15, -54),
   (16, -54), (17, -54), (19, -54), (22, -54), (23, -54), (29, -54), (32, -54), (33, -54), (34, -54),
   (37, -54), (38, -54), (39, -54), (40, -54), (41, -54), (42, -54), (44, -54), (46, -54), (47, -54),
   (48, -54), (49, -54), (50, -54), (51, -54), (52, -54), (53, -54), (54, -54), (56, -54), (58, -54),
   (59, -54), (63, -54), (67, -54), (70, -54), (74, -54), (75, -54), (79, -54)],
  -- state 270
  [(33, 306)],
  -- state 271
  [(2, -25), (5, -25), (15, -25), (16, -25), (17, -25), (22, -25), (23, -25), (29, -25), (32, -25),
   (33, -25), (34, -25), (37, -25), (38, -25), (39, -25), (40, -25), (42, -25), (44, -25), (48, -25),
   (49, -25), (51, -25), (52, -25), (56, -25), (58, -25), (59, -25), (63, -25), (67, -25), (70, -25),
   (74, -25), (75, -25), (79, -25)],
  -- state 272
  [(2, -24), (5, -24), (15, -24), (16, -24), (17, -24), (22, -24), (23, -24), (29, -24), (32, -24),
   (33, -24), (34, -24), (37, -24), (38, -24), (39, -24), (40, -24), (42, -24), (44, -24), (48, -24),
   (49, -24), (51, -24), (52, -24), (56, -24), (58, -24), (59, -24), (63, -24), (67, -24), (70, -24),
   (74, -24), (75, -24), (79, -24)],
  -- state 273
  [(33, -69)],
  -- state 274
  [(2, -138), (5, -138), (51, -138)],
  -- state 275
  [(2, -132), (5, -132), (17, -132), (29, -132), (51, -132)],
  -- state 276
  [(2, -141), (5, -141), (51, -141)],
  -- state 277
  [],
  -- state 278
  [],
  -- state 279
  [],
  -- state 280
  [(64, -27), (73, -27)],
  -- state 281
  [(2, -164), (34, -164), (44, -164), (51, -164), (59, -164), (70, -164)],
  -- state 282
  [(2, -193), (5, -193), (23, -193), (34, -193), (38, -193), (39, -193), (42, -193), (44, -193),
   (48, -193), (49, -193), (51, -193), (52, -193), (57, -193), (59, -193), (63, -193), (70, -193),
   (72, -193), (75, -193)],
  -- state 283
  [(2, -203), (5, -203), (23, -203), (34, -203), (38, -203), (39, -203), (42, -203), (44, -203),
   (48, -203), (49, -203), (51, -203), (52, -203), (57, -203), (59, -203), (63, -203), (70, -203),
   (72, -203), (75, -203)],
  -- state 284
  [(48, 309)],
  -- state 285
  [(48, 310)],
  -- state 286
  [(48, -101), (60, 311)],
  -- state 287
  [(48, -102)]
]

/-- `__ACTION` (`src/sql/parser.rs` L655-702), states 288 to 311. -/
def actionRows12 : List (List (Nat × Int)) := [
  -- state 288
  [(1, -92), (79, -92)],
  -- state 289
  [(48, -97), (60, 312)],
  -- state 290
  [(48, -99), (60, 315)],
  -- state 291
  [(2, 113)],
  -- state 292
  [(2, -78), (5, 80), (34, -78), (40, 114), (44, -78), (51, -78), (59, -78), (70, -78)],
  -- state 293
  [(0, -148), (1, -148), (2, -148), (3, -148), (4, -148), (5, -148), (6, -148), (8, -148), (9, -148),
   (10, -148), (11, -148), (12, -148), (13, -148), (15, -148), (16, -148), (17, -148), (19, -148),
   (22, -148), (23, -148), (29, -148), (32, -148), (33, -148), (34, -148), (37, -148), (38, -148),
   (39, -148), (40, -148), (41, -148), (42, -148), (44, -148), (46, -148), (47, -148), (48, -148),
   (49, -148), (50, -148), (51, -148), (52, -148), (53, -148), (54, -148), (56, -148), (57, -148),
   (58, -148), (59, -148), (63, -148), (64, -148), (65, -148), (67, -148), (70, -148), (72, -148),
   (73, -148), (74, -148), (75, -148), (77, -148), (79, -148)],
  -- state 294
  [(5, -20), (75, -20)],
  -- state 295
  [(2, -84), (5, -84), (11, -84)],
  -- state 296
  [(5, -18), (75, -18)],
  -- state 297
  [(1, 115)],
  -- state 298
  [(5, -30), (28, -30), (43, -30), (64, -30), (71, -30), (73, -30)],
  -- state 299
  [(0, -55), (2, -55), (4, 43), (5, -55), (6, 44), (9, -55), (10, -55), (11, -55), (12, -55), (13, -55),
   (15, -55), (16, -55), (17, -55), (19, -55), (22, -55), (23, -55), (29, -55), (32, -55), (33, -55),
   (34, -55), (37, -55), (38, -55), (39, -55), (40, -55), (41, -55), (42, -55), (44, -55), (46, -55),
   (47, -55), (48, -55), (49, -55), (50, -55), (51, -55), (52, -55), (53, -55), (54, -55), (56, -55),
   (58, -55), (59, -55), (63, -55), (67, -55), (70, -55), (74, -55), (75, -55), (77, 45), (79, -55)],
  -- state 300
  [(0, -49), (2, -49), (5, -49), (9, -49), (10, -49), (11, -49), (12, -49), (13, -49), (15, -49),
   (16, -49), (17, -49), (19, -49), (22, -49), (23, -49), (29, -49), (32, -49), (33, -49), (34, -49),
   (37, -49), (38, -49), (39, -49), (40, -49), (41, -49), (42, -49), (44, -49), (46, -49), (47, -49),
   (48, -49), (49, -49), (50, -49), (51, -49), (52, -49), (53, -49), (54, -49), (56, -49), (58, -49),
   (59, -49), (63, -49), (67, -49), (70, -49), (74, -49), (75, -49), (79, -49)],
  -- state 301
  [(0, -51), (2, -51), (5, -51), (9, -51), (10, -51), (11, -51), (12, -51), (13, -51), (15, -51),
   (16, -51), (17, -51), (19, -51), (22, -51), (23, -51), (29, -51), (32, -51), (33, -51), (34, -51),
   (37, -51), (38, -51), (39, -51), (40, -51), (41, -51), (42, -51), (44, -51), (46, -51), (47, -51),
   (48, -51), (49, -51), (50, -51), (51, -51), (52, -51), (53, -51), (54, -51), (56, -51), (58, -51),
   (59, -51), (63, -51), (67, -51), (70, -51), (74, -51), (75, -51), (79, -51)],
  -- state 302
  [(2, 318), (5, 80)],
  -- state 303
  [(2, 319)],
  -- state 304
  [(0, -48), (2, -48), (5, -48), (9, -48), (10, -48), (11, -48), (12, -48), (13, -48), (15, -48),
   (16, -48), (17, -48), (19, -48), (22, -48), (23, -48), (29, -48), (32, -48), (33, -48), (34, -48),
   (37, -48), (38, -48), (39, -48), (40, -48), (41, -48), (42, -48), (44, -48), (46, -48), (47, -48),
   (48, -48), (49, -48), (50, -48), (51, -48), (52, -48), (53, -48), (54, -48), (56, -48), (58, -48),
   (59, -48), (63, -48), (67, -48), (70, -48), (74, -48), (75, -48), (79, -48)],
  -- state 305
  [(2, -23), (5, -23), (15, -23), (16, -23), (17, -23), (22, -23), (23, -23), (29, -23), (32, -23),
   (33, -23), (34, -23), (37, -23), (38, -23), (39, -23), (40, -23), (42, -23), (44, -23), (48, -23),
   (49, -23), (51, -23), (52, -23), (56, -23), (58, -23), (59, -23), (63, -23), (67, -23), (70, -23),
   (74, -23), (75, -23), (79, -23)],
  -- state 306
  [(32, -218), (33, -218), (74, -218)],
  -- state 307
  [(2, -192), (5, -192), (23, -192), (34, -192), (38, -192), (39, -192), (42, -192), (44, -192),
   (48, -192), (49, -192), (51, -192), (52, -192), (57, -192), (59, -192), (63, -192), (70, -192),
   (72, -192), (75, -192)],
  -- state 308
  [(1, -91), (79, -91)],
  -- state 309
  [(1, -95), (79, -95)],
  -- state 310
  [(48, -100)],
  -- state 311
  [(48, -96)]
]

/-- `__ACTION` (`src/sql/parser.rs` L703-736), states 312 to 328. -/
def actionRows13 : List (List (Nat × Int)) := [
  -- state 312
  [(48, 322)],
  -- state 313
  [(1, -94), (79, -94)],
  -- state 314
  [(48, -98)],
  -- state 315
  [(2, -207), (5, -207), (23, -207), (34, -207), (38, -207), (39, -207), (42, -207), (44, -207),
   (48, -207), (49, -207), (51, -207), (52, -207), (57, -207), (59, -207), (63, -207), (70, -207),
   (72, -207), (75, -207)],
  -- state 316
  [(0, -56), (2, -56), (4, 43), (5, -56), (6, 44), (9, -56), (10, -56), (11, -56), (12, -56), (13, -56),
   (15, -56), (16, -56), (17, -56), (19, -56), (22, -56), (23, -56), (29, -56), (32, -56), (33, -56),
   (34, -56), (37, -56), (38, -56), (39, -56), (40, -56), (41, -56), (42, -56), (44, -56), (46, -56),
   (47, -56), (48, -56), (49, -56), (50, -56), (51, -56), (52, -56), (53, -56), (54, -56), (56, -56),
   (58, -56), (59, -56), (63, -56), (67, -56), (70, -56), (74, -56), (75, -56), (77, 45), (79, -56)],
  -- state 317
  [(0, -50), (2, -50), (5, -50), (9, -50), (10, -50), (11, -50), (12, -50), (13, -50), (15, -50),
   (16, -50), (17, -50), (19, -50), (22, -50), (23, -50), (29, -50), (32, -50), (33, -50), (34, -50),
   (37, -50), (38, -50), (39, -50), (40, -50), (41, -50), (42, -50), (44, -50), (46, -50), (47, -50),
   (48, -50), (49, -50), (50, -50), (51, -50), (52, -50), (53, -50), (54, -50), (56, -50), (58, -50),
   (59, -50), (63, -50), (67, -50), (70, -50), (74, -50), (75, -50), (79, -50)],
  -- state 318
  [(0, -52), (2, -52), (5, -52), (9, -52), (10, -52), (11, -52), (12, -52), (13, -52), (15, -52),
   (16, -52), (17, -52), (19, -52), (22, -52), (23, -52), (29, -52), (32, -52), (33, -52), (34, -52),
   (37, -52), (38, -52), (39, -52), (40, -52), (41, -52), (42, -52), (44, -52), (46, -52), (47, -52),
   (48, -52), (49, -52), (50, -52), (51, -52), (52, -52), (53, -52), (54, -52), (56, -52), (58, -52),
   (59, -52), (63, -52), (67, -52), (70, -52), (74, -52), (75, -52), (79, -52)],
  -- state 319
  [(2, -197), (5, -197), (23, -197), (34, -197), (38, -197), (39, -197), (42, -197), (44, -197),
   (48, -197), (49, -197), (51, -197), (52, -197), (59, -197), (63, -197), (70, -197), (75, -197)],
  -- state 320
  [(1, 117)],
  -- state 321
  [(1, -93), (79, -93)],
  -- state 322
  [(2, -205), (5, -205), (23, -205), (34, -205), (38, -205), (39, -205), (42, -205), (44, -205),
   (48, -205), (49, -205), (51, -205), (52, -205), (57, -205), (59, -205), (63, -205), (70, -205),
   (72, -205), (75, -205)],
  -- state 323
  [(2, -79), (34, -79), (44, -79), (51, -79), (59, -79), (70, -79)],
  -- state 324
  [(2, 327)],
  -- state 325
  [(2, -89), (5, -89), (23, -89), (34, -89), (38, -89), (39, -89), (42, -89), (44, -89), (48, -89),
   (49, -89), (51, -89), (52, -89), (59, -89), (63, -89), (70, -89), (75, -89)],
  -- state 326
  [(5, -31), (28, -31), (43, -31), (64, -31), (71, -31), (73, -31)],
  -- state 327
  [(2, 329), (5, 100)],
  -- state 328
  [(2, -90), (5, -90), (23, -90), (34, -90), (38, -90), (39, -90), (42, -90), (44, -90), (48, -90),
   (49, -90), (51, -90), (52, -90), (59, -90), (63, -90), (70, -90), (75, -90)]
]

/-- `__ACTION` (`src/sql/parser.rs` L78-737): for every state the terminals with a non-zero entry. -/
def actionRows : List (List (Nat × Int)) :=
  [actionRows0, actionRows1, actionRows2, actionRows3, actionRows4, actionRows5, actionRows6,
   actionRows7, actionRows8, actionRows9, actionRows10, actionRows11, actionRows12,
   actionRows13].flatten

/-- `__EOF_ACTION` (`src/sql/parser.rs` L741-1400). -/
def eofActions : List Int := [
  0, -181, 0, 0, 0, 0, 0, 0, 0, 0, -180, 0, -177, 0, 0, 0,
  0, 0, 0, 0, 0, 0, 0, 0, 0, 0, 0, 0, 0, -176, 0, 0,
  -66, 0, 0, -149, -163, 0, 0, 0, 0, 0, 0, 0, 0, 0, 0, 0,
  0, 0, 0, 0, 0, 0, 0, 0, 0, 0, 0, 0, 0, 0, 0, 0,
  -136, -64, 0, 0, 0, 0, 0, 0, 0, 0, 0, -167, -162, 0, -217, 0,
  0, 0, 0, 0, 0, 0, -136, 0, 0, 0, -215, 0, -166, -204, -198, 0,
  0, 0, 0, 0, 0, 0, 0, 0, 0, 0, 0, 0, 0, 0, 0, -199,
  -206, 0, 0, 0, 0, -185, -189, -186, -188, -169, -187, -224, -182, -190, 0, 0,
  0, -179, 0, 0, 0, 0, 0, 0, -68, -82, -184, 0, 0, 0, -146, 0,
  -209, -168, 0, 0, 0, -170, -178, -34, -127, -58, -57, -122, -105, -144, -12, -16,
  -110, -72, -211, -145, -111, -119, -114, -113, -115, -112, -126, -124, -125, -191, 0, -175,
  0, 0, 0, -67, -146, -153, -156, -155, -75, 0, 0, 0, -44, 0, -45, 0,
  0, -212, -213, 0, -116, -123, -117, -118, -140, -129, -174, -65, -183, -88, -151, -161,
  0, -147, -19, 0, 0, -210, -208, 0, 0, -13, -14, -15, -17, -36, -37, -39,
  -35, -38, -40, 0, -53, 0, -41, -43, -46, -106, -107, -120, -121, -128, -142, -143,
  0, 0, -26, 0, -139, -135, -137, -63, -87, -22, -221, -86, 0, -150, -152, -154,
  -165, -160, -77, -196, -216, -76, 0, 0, 0, 0, -47, -42, 0, -54, 0, -25,
  -24, 0, -138, -132, -141, -85, -214, -21, 0, -164, -193, -203, 0, 0, 0, 0,
  0, 0, 0, 0, -78, -148, -20, 0, -18, 0, 0, -55, -49, -51, 0, 0,
  -48, -23, 0, -192, 0, 0, 0, 0, 0, 0, 0, -207, -56, -50, -52, -197,
  0, 0, -205, -79, 0, -89, 0, 0, -90
]

/-- `__goto` (`src/sql/parser.rs` L1401-1654): for a nonterminal the listed states, and the state for all others. -/
def gotoRows : List (Nat × List (Nat × Nat) × Nat) := [
  (6, [(46, 221), (47, 222), (48, 223), (49, 224), (50, 225), (51, 226), (52, 227), (54, 231), (82,
    268), (101, 299), (109, 316)], 151),
  (7, [(59, 237)], 152),
  (8, [(98, 294)], 210),
  (9, [(67, 90)], 78),
  (10, [], 117),
  (11, [], 153),
  (12, [(66, 89)], 70),
  (14, [(40, 215)], 146),
  (15, [], 147),
  (16, [], 154),
  (17, [(25, 197)], 155),
  (18, [], 9),
  (19, [], 118),
  (20, [], 119),
  (21, [(84, 270)], 240),
  (23, [(18, 35), (74, 35), (23, 61), (28, 64), (88, 64), (11, 156), (55, 233), (56, 234), (63, 243),
    (69, 250), (79, 261), (85, 273), (100, 296), (103, 306), (113, 323), (115, 325)], 184),
  (25, [(20, 191), (81, 264), (96, 292), (102, 302)], 185),
  (26, [], 75),
  (27, [(75, 256), (76, 257), (92, 281)], 207),
  (29, [(3, 136), (8, 148), (40, 148), (16, 179), (18, 180), (74, 180), (35, 206), (37, 209), (73, 209),
    (38, 211), (41, 211), (67, 211), (71, 211), (98, 211), (116, 211), (68, 249), (72, 253), (87, 275),
    (91, 279), (93, 282), (112, 282), (97, 293), (99, 295), (104, 307)], 142),
  (30, [(41, 216), (71, 252), (116, 327)], 212),
  (31, [], 120),
  (32, [], 319),
  (33, [], 105),
  (34, [(106, 312)], 284),
  (36, [(10, 150), (12, 175), (29, 202)], 129),
  (38, [], 157),
  (39, [(42, 217), (43, 218), (44, 219)], 158),
  (40, [(45, 220)], 159),
  (41, [], 160),
  (42, [], 161),
  (43, [(12, 29)], 10),
  (45, [], 86),
  (47, [(86, 274)], 244),
  (48, [(88, 276)], 200),
  (49, [], 201),
  (50, [], 162),
  (51, [(15, 32), (17, 34), (30, 65), (31, 66), (77, 93), (95, 93), (105, 93), (107, 93), (6, 143), (13,
    176), (53, 228), (83, 269)], 163),
  (52, [(74, 255)], 181),
  (53, [], 182),
  (54, [], 36),
  (55, [(68, 91)], 16),
  (57, [(9, 149), (34, 205), (66, 248), (70, 251), (89, 277)], 121),
  (58, [(2, 12), (60, 12)], 1),
  (59, [], 18),
  (60, [(20, 192), (80, 263), (81, 265), (95, 291), (102, 303), (114, 324)], 122),
  (61, [], 123),
  (62, [(4, 138), (33, 204)], 124),
  (63, [(14, 177), (24, 196), (26, 198), (27, 199)], 164),
  (64, [(112, 322)], 283),
  (66, [(95, 108), (107, 111)], 94),
  (67, [], 258),
  (68, [(0, 2), (4, 2), (33, 2)], 60),
  (70, [(105, 110)], 259),
  (71, [(39, 213)], 144),
  (72, [], 145),
  (73, [(21, 193), (22, 194), (57, 235), (58, 236)], 165),
  (74, [], 125),
  (75, [(62, 241), (84, 241)], 195),
  (76, [(61, 84)], 62),
  (77, [(75, 92), (32, 203), (65, 247), (78, 260), (90, 278)], 76)
]

/-- `__TERMINAL` (`src/sql/parser.rs` L1656-1740): the names of the terminals. -/
def terminalNames : List String := [
  "\"!=\"", "\"(\"", "\")\"", "\"*\"", "\"+\"", "\",\"", "\"-\"", "\".\"", "\"/\"", "\"<\"", "\"<=\"",
  "\"=\"", "\">\"", "\">=\"", "\"ALL\"", "\"AND\"", "\"AS\"", "\"ASC\"", "\"ATTACH\"", "\"BETWEEN\"",
  "\"BY\"", "\"CASE\"", "\"COLLATE\"", "\"CROSS\"", "\"CURRENT_DATE\"", "\"CURRENT_TIME\"",
  "\"CURRENT_TIMESTAMP\"", "\"DATE\"", "\"DELETE\"", "\"DESC\"", "\"DESCRIBE\"", "\"DISTINCT\"",
  "\"ELSE\"", "\"END\"", "\"EXCEPT\"", "\"EXPLAIN\"", "\"FILE\"", "\"FROM\"", "\"FULL\"", "\"GROUP\"",
  "\"HAVING\"", "\"IN\"", "\"INNER\"", "\"INSERT\"", "\"INTERSECT\"", "\"INTO\"", "\"IS\"",
  "\"ISNULL\"", "\"JOIN\"", "\"LEFT\"", "\"LIKE\"", "\"LIMIT\"", "\"NATURAL\"", "\"NOT\"",
  "\"NOTNULL\"", "\"NULL\"", "\"OFFSET\"", "\"ON\"", "\"OR\"", "\"ORDER\"", "\"OUTER\"", "\"PLAN\"",
  "\"QUERY\"", "\"RIGHT\"", "\"SELECT\"", "\"SET\"", "\"TABLE\"", "\"THEN\"", "\"TIME\"",
  "\"TIMESTAMP\"", "\"UNION\"", "\"UPDATE\"", "\"USING\"", "\"VALUES\"", "\"WHEN\"", "\"WHERE\"",
  "\"WITH\"", "\"||\"", "HEX_LIT", "ID", "NUMERIC_LIT_1", "NUMERIC_LIT_2", "STRING_LIT"
]

/-- `__token_to_integer` (`src/sql/parser.rs` L1847-1940): the terminal of every pattern of the lexer. -/
def tokenTerminals : List Nat := [
  82, 78, 80, 79, 81, 14, 15, 16, 17, 18, 19, 20, 21, 22, 23, 24, 25, 26, 27, 28, 29,
  30, 31, 32, 33, 34, 35, 36, 37, 38, 39, 40, 41, 42, 43, 44, 45, 46, 47, 48, 49, 50,
  51, 52, 53, 54, 55, 56, 57, 58, 59, 60, 61, 62, 63, 64, 65, 66, 67, 68, 69, 70, 71,
  72, 73, 74, 75, 76, 0, 1, 2, 3, 4, 5, 6, 7, 8, 9, 10, 11, 12, 13, 77
]

end Verif.Sql.Parser

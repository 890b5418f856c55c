/-
Generated by tools/gen_tables.py from /repo/build/parse.y.go: the tables of the LALR parser, copied verbatim.
A table is stored in rows of 32 entries so that the kernel can look entries up quickly.
-/
namespace Verif.LR

/-- Entry `n` of a table stored in rows of 32 (no counterpart in Go). -/
def look (t : List (List Int)) (n : Nat) : Int := (t.getD (n / 32) []).getD (n % 32) 0

/-- build/parse.y.go:398-408 `yyExca` (18 entries). -/
def yyExca : List (List Int) :=
  [[-1, 1, 1, -1, -2, 0, -1, 79, 6, 55, -2, 128, -1, 169, 20, 125, -2, 126]]

/-- build/parse.y.go:414-521 `yyAct` (1052 entries). -/
def yyAct : List (List Int) :=
  [[20, 31, 234, 250, 146, 2, 29, 108, 186, 106, 7, 147, 195, 95, 160, 43, 152, 9, 23, 187, 159, 105, 240, 220, 174, 40, 87, 88, 89, 90, 44, 84],
   [39, 36, 93, 98, 101, 49, 209, 54, 131, 173, 53, 57, 83, 58, 103, 55, 113, 218, 114, 39, 110, 36, 118, 119, 120, 121, 122, 123, 124, 125, 126, 127],
   [128, 129, 130, 200, 132, 133, 134, 135, 136, 137, 138, 139, 140, 35, 217, 56, 238, 219, 189, 38, 51, 52, 143, 110, 92, 33, 36, 34, 155, 156, 54, 85],
   [157, 53, 13, 164, 76, 94, 55, 162, 36, 37, 163, 36, 39, 168, 263, 171, 32, 48, 167, 109, 165, 212, 190, 116, 36, 77, 39, 175, 100, 207, 181, 162],
   [213, 179, 166, 86, 182, 47, 56, 54, 97, 162, 53, 57, 117, 58, 201, 55, 111, 112, 248, 196, 188, 115, 193, 247, 191, 197, 158, 205, 79, 194, 261, 206],
   [84, 227, 78, 154, 211, 231, 47, 154, 80, 211, 221, 214, 216, 204, 208, 56, 72, 73, 210, 149, 208, 44, 47, 47, 223, 215, 102, 180, 45, 47, 222, 245],
   [244, 142, 202, 196, 228, 229, 46, 232, 233, 197, 225, 235, 151, 42, 260, 230, 178, 148, 237, 226, 200, 47, 169, 153, 264, 224, 236, 192, 172, 141, 91, 239],
   [104, 177, 1, 10, 243, 18, 249, 241, 246, 188, 176, 242, 99, 96, 251, 253, 41, 50, 19, 252, 12, 256, 257, 7, 8, 235, 203, 258, 4, 30, 259, 161],
   [262, 150, 184, 185, 81, 82, 251, 266, 265, 35, 144, 252, 27, 145, 26, 38, 0, 0, 0, 0, 0, 33, 0, 34, 0, 0, 0, 0, 28, 0, 0, 6],
   [0, 0, 11, 0, 36, 37, 22, 0, 0, 0, 0, 24, 32, 0, 0, 0, 0, 0, 0, 0, 25, 0, 39, 21, 14, 15, 16, 17, 0, 254, 35, 5],
   [0, 27, 0, 26, 38, 0, 0, 0, 0, 0, 33, 0, 34, 0, 0, 0, 0, 28, 0, 0, 6, 3, 0, 11, 0, 36, 37, 22, 0, 0, 0, 54],
   [24, 32, 53, 57, 0, 58, 0, 55, 0, 25, 0, 39, 21, 14, 15, 16, 17, 70, 35, 0, 5, 27, 0, 26, 38, 0, 0, 0, 0, 0, 33, 0],
   [34, 0, 0, 0, 0, 28, 0, 56, 72, 73, 0, 0, 0, 36, 37, 0, 0, 0, 0, 0, 24, 32, 0, 0, 0, 0, 0, 0, 0, 25, 0, 39],
   [0, 14, 15, 16, 17, 0, 54, 0, 107, 53, 57, 0, 58, 0, 55, 0, 59, 255, 60, 0, 0, 0, 0, 69, 70, 71, 0, 0, 68, 0, 0, 61],
   [0, 64, 0, 0, 75, 0, 0, 65, 74, 0, 0, 62, 63, 0, 56, 72, 73, 54, 66, 67, 53, 57, 0, 58, 0, 55, 170, 59, 0, 60, 0, 0],
   [0, 0, 69, 70, 71, 0, 0, 68, 0, 0, 61, 0, 64, 0, 0, 75, 0, 0, 65, 74, 0, 0, 62, 63, 0, 56, 72, 73, 54, 66, 67, 53],
   [57, 0, 58, 0, 55, 0, 59, 0, 60, 0, 0, 0, 0, 69, 70, 71, 0, 0, 68, 0, 0, 61, 0, 64, 0, 0, 75, 183, 0, 65, 74, 0],
   [0, 62, 63, 0, 56, 72, 73, 54, 66, 67, 53, 57, 0, 58, 0, 55, 0, 59, 0, 60, 0, 0, 0, 0, 69, 70, 71, 0, 0, 68, 0, 0],
   [61, 162, 64, 0, 0, 75, 0, 0, 65, 74, 0, 0, 62, 63, 0, 56, 72, 73, 54, 66, 67, 53, 57, 0, 58, 0, 55, 0, 59, 0, 60, 0],
   [0, 0, 0, 69, 70, 71, 0, 0, 68, 0, 0, 61, 0, 64, 0, 0, 75, 0, 0, 65, 74, 0, 0, 62, 63, 0, 56, 72, 73, 35, 66, 67],
   [27, 0, 26, 38, 0, 0, 0, 0, 0, 33, 0, 34, 0, 0, 0, 0, 28, 0, 0, 0, 0, 0, 0, 0, 36, 37, 0, 0, 0, 0, 0, 24],
   [32, 0, 0, 0, 0, 0, 0, 0, 25, 0, 39, 0, 14, 15, 16, 17, 54, 0, 0, 53, 57, 0, 58, 0, 55, 0, 59, 0, 60, 0, 0, 0],
   [0, 69, 70, 71, 0, 0, 68, 0, 0, 61, 0, 64, 0, 0, 0, 0, 0, 65, 74, 0, 0, 62, 63, 0, 56, 72, 73, 54, 66, 67, 53, 57],
   [0, 58, 0, 55, 0, 59, 0, 60, 0, 0, 0, 0, 69, 70, 71, 0, 0, 68, 0, 0, 61, 0, 64, 0, 0, 0, 0, 0, 65, 0, 0, 0],
   [62, 63, 0, 56, 72, 73, 54, 66, 67, 53, 57, 0, 58, 0, 55, 0, 59, 0, 60, 0, 0, 0, 0, 69, 70, 71, 0, 0, 68, 0, 0, 61],
   [0, 64, 0, 0, 0, 0, 0, 65, 0, 0, 0, 62, 63, 0, 56, 72, 73, 54, 66, 0, 53, 57, 0, 58, 0, 55, 0, 59, 0, 60, 0, 0],
   [0, 0, 69, 70, 71, 0, 0, 0, 0, 0, 61, 0, 64, 0, 0, 0, 0, 0, 65, 0, 0, 0, 62, 63, 0, 56, 72, 73, 35, 66, 198, 27],
   [200, 26, 38, 0, 0, 0, 0, 0, 33, 0, 34, 0, 0, 0, 0, 28, 0, 0, 0, 0, 0, 0, 0, 36, 37, 0, 0, 0, 0, 54, 24, 32],
   [53, 57, 199, 58, 0, 55, 0, 25, 35, 39, 198, 27, 0, 26, 38, 70, 71, 0, 0, 0, 33, 0, 34, 0, 0, 0, 0, 28, 0, 0, 0, 0],
   [0, 0, 0, 36, 37, 56, 72, 73, 0, 0, 24, 32, 35, 0, 199, 27, 200, 26, 38, 25, 0, 39, 0, 0, 33, 0, 34, 0, 0, 0, 0, 28],
   [0, 0, 0, 0, 0, 0, 0, 36, 37, 0, 0, 0, 0, 0, 24, 32, 35, 0, 0, 27, 0, 26, 38, 25, 0, 39, 0, 0, 33, 0, 34, 0],
   [0, 0, 0, 28, 0, 0, 0, 0, 0, 0, 0, 36, 37, 0, 0, 0, 0, 54, 24, 32, 53, 57, 0, 58, 0, 55, 0, 25, 0, 39, 0, 0],
   [0, 0, 69, 70, 71, 0, 0, 0, 0, 0, 0, 0, 0, 0, 0, 0, 0, 0, 0, 0, 0, 0, 0, 0, 0, 56, 72, 73]]

/-- build/parse.y.go:523-551 `yyPact` (267 entries). -/
def yyPact : List (List Int) :=
  [[-1000, -1000, 313, -1000, -1000, -1000, -34, -1000, -1000, -1000, 192, 72, -1000, 173, 971, -1000, -1000, -1000, -10, 49, 590, 68, 971, 151, 88, 971, 971, 971, 971, -1000, -1000, -1000],
   [217, 971, 971, 971, -1000, 175, 13, -1000, -1000, -41, 365, 78, 151, 971, 971, 971, 204, 971, 971, 106, -1000, 971, 971, 971, 971, 971, 971, 971, 971, 971, 971, 971],
   [971, 971, 3, 971, 971, 971, 971, 971, 971, 971, 971, 971, 216, 180, 54, 200, 971, 191, 206, -1000, 152, 21, 21, -1000, -1000, -1000, -1000, 200, 136, 547, 200, 73],
   [110, 205, 461, 200, 214, 590, 8, -1000, -35, 632, -1000, -1000, -1000, 971, 72, 204, 204, 684, 590, 174, 365, -1000, -1000, -1000, -1000, -1000, 90, 90, 1005, 1005, 1005, 1005],
   [1005, 1005, 1005, 971, 770, 813, 889, 131, 347, 35, 35, 727, 504, 75, 365, -1000, 213, 200, 899, 203, -1000, 124, 181, 971, -1000, 88, 971, -1000, -1000, -18, -1000, 107],
   [4, -1000, 72, 935, -1000, 97, -1000, 108, 935, -1000, 971, 935, -1000, -1000, -1000, -1000, 22, -36, 157, 151, 365, -1000, 1005, 971, 211, 202, -1000, -1000, 148, 21, 21, -1000],
   [-1000, -1000, 855, -1000, 590, 150, 971, 971, -1000, -1000, 971, -1000, -1000, 590, 200, -1000, 4, 971, 43, 590, -1000, -1000, 590, -1000, 461, -1000, -37, -1000, -1000, 365, -1000, 684],
   [-1000, -1000, 75, 971, 179, 178, -1000, 971, 590, 590, 133, 590, 58, 684, 971, 260, -1000, -1000, -1000, 418, 971, 971, 590, -1000, 971, 197, -1000, -1000, 143, 684, -1000, 971],
   [590, 590, 92, 210, 1, -18, 590, -1000, -1000, -1000, -1000]]

/-- build/parse.y.go:553-559 `yyPgo` (48 entries). -/
def yyPgo : List (List Int) :=
  [[0, 16, 11, 4, 12, 269, 266, 19, 261, 260, 8, 259, 258, 0, 2, 88, 18, 98, 257, 101, 15, 255, 14, 20, 6, 253, 5, 252, 248, 244, 242, 241],
   [7, 17, 240, 13, 237, 236, 1, 9, 234, 3, 230, 229, 227, 226, 225, 224]]

/-- build/parse.y.go:561-577 `yyR1` (149 entries). -/
def yyR1 : List (List Int) :=
  [[0, 45, 39, 39, 46, 46, 40, 40, 40, 26, 26, 26, 26, 27, 27, 43, 44, 44, 28, 28, 28, 30, 30, 29, 29, 31, 31, 32, 34, 34, 33, 33],
   [33, 33, 33, 33, 33, 33, 47, 47, 16, 16, 16, 16, 16, 16, 16, 16, 16, 16, 16, 16, 16, 16, 16, 6, 6, 5, 5, 4, 4, 4, 4, 42],
   [42, 41, 41, 9, 9, 12, 12, 8, 8, 11, 11, 7, 7, 7, 7, 7, 10, 10, 10, 10, 10, 17, 17, 18, 18, 13, 13, 13, 13, 13, 13, 13],
   [13, 13, 13, 13, 13, 13, 13, 13, 13, 13, 13, 13, 13, 13, 13, 13, 13, 13, 13, 13, 13, 13, 19, 19, 14, 14, 15, 15, 1, 1, 2, 2],
   [3, 3, 35, 37, 37, 36, 36, 36, 20, 20, 38, 24, 25, 25, 25, 25, 21, 22, 22, 23, 23]]

/-- build/parse.y.go:579-595 `yyR2` (149 entries). -/
def yyR2 : List (List Int) :=
  [[0, 2, 5, 2, 0, 2, 0, 3, 2, 0, 2, 2, 3, 1, 1, 5, 1, 3, 3, 6, 1, 4, 5, 1, 4, 2, 1, 4, 0, 3, 1, 2],
   [1, 3, 3, 1, 1, 1, 0, 1, 1, 1, 1, 3, 8, 4, 4, 6, 8, 3, 4, 4, 3, 4, 3, 0, 2, 2, 3, 1, 3, 2, 2, 1],
   [3, 1, 3, 0, 2, 0, 2, 1, 3, 1, 3, 1, 3, 2, 1, 2, 1, 3, 5, 4, 4, 1, 3, 0, 1, 1, 4, 2, 2, 2, 2, 3],
   [3, 3, 3, 3, 3, 3, 3, 3, 3, 3, 3, 3, 4, 3, 3, 3, 3, 3, 3, 3, 3, 5, 1, 3, 0, 1, 0, 2, 0, 1, 1, 2],
   [0, 1, 3, 1, 3, 0, 1, 2, 1, 3, 1, 1, 3, 2, 2, 1, 4, 1, 3, 1, 2]]

/-- build/parse.y.go:597-625 `yyChk` (267 entries). -/
def yyChk : List (List Int) :=
  [[-1000, -45, -26, 28, -27, 59, 27, -32, -28, -33, -44, 30, -29, -17, 52, 53, 54, 55, -43, -30, -13, 51, 34, -16, 39, 48, 10, 8, 24, -24, -25, -38],
   [40, 17, 19, 5, 32, 33, 11, 50, 59, -34, 13, -20, -16, 15, 25, 9, -17, 47, -31, 35, 36, 7, 4, 12, 44, 8, 10, 14, 16, 29, 41, 42],
   [31, 37, 48, 49, 26, 21, 22, 23, 45, 46, 38, 34, 32, -17, 11, 5, 17, -9, -8, -7, -24, 7, 43, -13, -13, -13, -13, 5, -15, -13, -19, -35],
   [-36, -19, -13, -37, -15, -13, 11, 33, -47, 62, -39, 59, -32, 37, 9, -17, -17, -13, -13, -17, 13, 34, -13, -13, -13, -13, -13, -13, -13, -13, -13, -13],
   [-13, -13, -13, 37, -13, -13, -13, -13, -13, -13, -13, -13, -13, 5, 13, 32, -6, -5, -3, -2, 9, -17, -18, 13, -1, 9, 15, -24, -24, -3, 18, -23],
   [-22, -21, 30, -2, -3, -23, 20, -1, -2, 9, 13, -2, 6, 33, 59, -33, -40, -46, -17, -16, 13, -39, -13, 35, -12, -11, -10, -7, -24, 7, 43, -39],
   [6, -3, -2, -4, -13, -24, 7, 43, 9, 18, 13, -17, -7, -13, -38, 18, -22, 34, -20, -13, 20, 20, -13, -35, -13, 56, 27, 59, 59, 13, -39, -13],
   [6, -1, 9, 13, -24, -24, -4, 15, -13, -13, -14, -13, -2, -13, 37, -26, 59, -39, -10, -13, 13, 13, -13, 18, 13, -42, -41, -38, -24, -13, 57, 15],
   [-13, -13, -14, -3, 9, 15, -13, 18, 6, -41, -38]]

/-- build/parse.y.go:627-655 `yyDef` (267 entries). -/
def yyDef : List (List Int) :=
  [[9, -2, 0, 1, 10, 11, 0, 13, 14, 28, 0, 0, 20, 30, 32, 35, 36, 37, 16, 23, 85, 0, 0, 89, 67, 0, 0, 0, 0, 40, 41, 42],
   [0, 122, 133, 122, 139, 143, 0, 138, 12, 38, 0, 0, 136, 0, 0, 0, 31, 0, 0, 0, 26, 0, 0, 0, 0, 0, 0, 0, 0, 0, 0, 0],
   [0, 0, 0, 0, 0, 0, 0, 0, 0, 0, 0, 0, 0, 0, 0, -2, 87, 0, 124, 71, 75, 78, 0, 91, 92, 93, 94, 128, 0, 118, 128, 131],
   [0, 124, 118, 134, 0, 118, 141, 142, 0, 39, 18, 6, 4, 0, 0, 33, 34, 86, 17, 0, 0, 25, 95, 96, 97, 98, 99, 100, 101, 102, 103, 104],
   [105, 106, 107, 0, 109, 110, 111, 112, 113, 114, 115, 116, 0, 69, 0, 43, 0, 128, 0, 129, 126, 88, 0, 0, 68, 125, 0, 77, 79, 0, 49, 0],
   [147, 145, 0, 129, 123, 0, 52, 0, 0, -2, 0, 135, 54, 140, 27, 29, 0, 3, 0, 137, 0, 24, 108, 0, 0, 124, 73, 80, 75, 78, 0, 21],
   [45, 56, 129, 57, 59, 40, 0, 0, 127, 46, 120, 90, 72, 76, 0, 50, 148, 0, 0, 119, 51, 53, 130, 132, 0, 9, 0, 8, 5, 0, 22, 117],
   [15, 70, 125, 0, 77, 79, 58, 0, 61, 62, 0, 121, 0, 146, 0, 0, 7, 19, 74, 81, 0, 0, 60, 47, 120, 128, 63, 65, 0, 144, 2, 0],
   [83, 84, 0, 0, 126, 0, 82, 48, 44, 64, 66]]

/-- build/parse.y.go:657-671 `yyTok1` (127 entries). -/
def yyTok1 : List (List Int) :=
  [[1, 3, 3, 3, 3, 3, 3, 3, 3, 3, 59, 3, 3, 3, 3, 3, 3, 3, 3, 3, 3, 3, 3, 3, 3, 3, 3, 3, 3, 3, 3, 3],
   [3, 3, 3, 3, 3, 4, 22, 3, 5, 6, 7, 8, 9, 10, 11, 12, 3, 3, 3, 3, 3, 3, 3, 3, 3, 3, 13, 62, 14, 15, 16, 3],
   [3, 3, 3, 3, 3, 3, 3, 3, 3, 3, 3, 3, 3, 3, 3, 3, 3, 3, 3, 3, 3, 3, 3, 3, 3, 3, 3, 17, 3, 18, 23, 3],
   [3, 3, 3, 3, 3, 3, 3, 3, 3, 3, 3, 3, 3, 3, 3, 3, 3, 3, 3, 3, 3, 3, 3, 3, 3, 3, 3, 19, 21, 20, 24]]

/-- build/parse.y.go:673-678 `yyTok2` (38 entries). -/
def yyTok2 : List (List Int) :=
  [[2, 3, 25, 26, 27, 28, 29, 30, 31, 32, 33, 34, 35, 36, 37, 38, 39, 40, 41, 42, 43, 44, 45, 46, 47, 48, 49, 50, 51, 52, 53, 54],
   [55, 56, 57, 58, 60, 61]]

end Verif.LR

/-! # Tables of internal/tilegroup/predict_inter.go and internal/wedgemask/wedge_mask.go (generated by tools/geninter.py) -/
set_option maxRecDepth 16000
set_option maxHeartbeats 2000000
namespace Gov1

/-- internal/tilegroup/predict_inter.go:755-816 `Subpel_Filters`. -/
def subpelFilters : List (List (List Int)) := [
  [[0, 0, 0, 128, 0, 0, 0, 0], [0, 2, -6, 126, 8, -2, 0, 0], [0, 2, -10, 122, 18, -4, 0, 0], [0, 2, -12, 116, 28, -8, 2, 0], [0,
   2, -14, 110, 38, -10, 2, 0], [0, 2, -14, 102, 48, -12, 2, 0], [0, 2, -16, 94, 58, -12, 2, 0], [0, 2, -14, 84, 66, -12, 2, 0],
   [0, 2, -14, 76, 76, -14, 2, 0], [0, 2, -12, 66, 84, -14, 2, 0], [0, 2, -12, 58, 94, -16, 2, 0], [0, 2, -12, 48, 102, -14, 2,
   0], [0, 2, -10, 38, 110, -14, 2, 0], [0, 2, -8, 28, 116, -12, 2, 0], [0, 0, -4, 18, 122, -10, 2, 0], [0, 0, -2, 8, 126, -6, 2,
   0]],
  [[0, 0, 0, 128, 0, 0, 0, 0], [0, 2, 28, 62, 34, 2, 0, 0], [0, 0, 26, 62, 36, 4, 0, 0], [0, 0, 22, 62, 40, 4, 0, 0], [0, 0, 20,
   60, 42, 6, 0, 0], [0, 0, 18, 58, 44, 8, 0, 0], [0, 0, 16, 56, 46, 10, 0, 0], [0, -2, 16, 54, 48, 12, 0, 0], [0, -2, 14, 52, 52,
   14, -2, 0], [0, 0, 12, 48, 54, 16, -2, 0], [0, 0, 10, 46, 56, 16, 0, 0], [0, 0, 8, 44, 58, 18, 0, 0], [0, 0, 6, 42, 60, 20, 0,
   0], [0, 0, 4, 40, 62, 22, 0, 0], [0, 0, 4, 36, 62, 26, 0, 0], [0, 0, 2, 34, 62, 28, 2, 0]],
  [[0, 0, 0, 128, 0, 0, 0, 0], [-2, 2, -6, 126, 8, -2, 2, 0], [-2, 6, -12, 124, 16, -6, 4, -2], [-2, 8, -18, 120, 26, -10, 6, -2],
   [-4, 10, -22, 116, 38, -14, 6, -2], [-4, 10, -22, 108, 48, -18, 8, -2], [-4, 10, -24, 100, 60, -20, 8, -2], [-4, 10, -24, 90,
   70, -22, 10, -2], [-4, 12, -24, 80, 80, -24, 12, -4], [-2, 10, -22, 70, 90, -24, 10, -4], [-2, 8, -20, 60, 100, -24, 10, -4],
   [-2, 8, -18, 48, 108, -22, 10, -4], [-2, 6, -14, 38, 116, -22, 10, -4], [-2, 6, -10, 26, 120, -18, 8, -2], [-2, 4, -6, 16, 124,
   -12, 6, -2], [0, 2, -2, 8, 126, -6, 2, -2]],
  [[0, 0, 0, 128, 0, 0, 0, 0], [0, 0, 0, 120, 8, 0, 0, 0], [0, 0, 0, 112, 16, 0, 0, 0], [0, 0, 0, 104, 24, 0, 0, 0], [0, 0, 0, 96,
   32, 0, 0, 0], [0, 0, 0, 88, 40, 0, 0, 0], [0, 0, 0, 80, 48, 0, 0, 0], [0, 0, 0, 72, 56, 0, 0, 0], [0, 0, 0, 64, 64, 0, 0, 0],
   [0, 0, 0, 56, 72, 0, 0, 0], [0, 0, 0, 48, 80, 0, 0, 0], [0, 0, 0, 40, 88, 0, 0, 0], [0, 0, 0, 32, 96, 0, 0, 0], [0, 0, 0, 24,
   104, 0, 0, 0], [0, 0, 0, 16, 112, 0, 0, 0], [0, 0, 0, 8, 120, 0, 0, 0]],
  [[0, 0, 0, 128, 0, 0, 0, 0], [0, 0, -4, 126, 8, -2, 0, 0], [0, 0, -8, 122, 18, -4, 0, 0], [0, 0, -10, 116, 28, -6, 0, 0], [0, 0,
   -12, 110, 38, -8, 0, 0], [0, 0, -12, 102, 48, -10, 0, 0], [0, 0, -14, 94, 58, -10, 0, 0], [0, 0, -12, 84, 66, -10, 0, 0], [0,
   0, -12, 76, 76, -12, 0, 0], [0, 0, -10, 66, 84, -12, 0, 0], [0, 0, -10, 58, 94, -14, 0, 0], [0, 0, -10, 48, 102, -12, 0, 0],
   [0, 0, -8, 38, 110, -12, 0, 0], [0, 0, -6, 28, 116, -10, 0, 0], [0, 0, -4, 18, 122, -8, 0, 0], [0, 0, -2, 8, 126, -4, 0, 0]],
  [[0, 0, 0, 128, 0, 0, 0, 0], [0, 0, 30, 62, 34, 2, 0, 0], [0, 0, 26, 62, 36, 4, 0, 0], [0, 0, 22, 62, 40, 4, 0, 0], [0, 0, 20,
   60, 42, 6, 0, 0], [0, 0, 18, 58, 44, 8, 0, 0], [0, 0, 16, 56, 46, 10, 0, 0], [0, 0, 14, 54, 48, 12, 0, 0], [0, 0, 12, 52, 52,
   12, 0, 0], [0, 0, 12, 48, 54, 14, 0, 0], [0, 0, 10, 46, 56, 16, 0, 0], [0, 0, 8, 44, 58, 18, 0, 0], [0, 0, 6, 42, 60, 20, 0,
   0], [0, 0, 4, 40, 62, 22, 0, 0], [0, 0, 4, 36, 62, 26, 0, 0], [0, 0, 2, 34, 62, 30, 0, 0]]]

/-- internal/tilegroup/predict_inter.go:861-964 `Warped_Filters`. -/
def warpedFilters : List (List Int) :=
  [[0, 0, 127, 1, 0, 0, 0, 0], [0, -1, 127, 2, 0, 0, 0, 0], [1, -3, 127, 4, -1, 0, 0, 0], [1, -4, 126, 6, -2, 1, 0, 0], [1, -5,
   126, 8, -3, 1, 0, 0], [1, -6, 125, 11, -4, 1, 0, 0], [1, -7, 124, 13, -4, 1, 0, 0], [2, -8, 123, 15, -5, 1, 0, 0], [2, -9, 122,
   18, -6, 1, 0, 0], [2, -10, 121, 20, -6, 1, 0, 0], [2, -11, 120, 22, -7, 2, 0, 0], [2, -12, 119, 25, -8, 2, 0, 0], [3, -13, 117,
   27, -8, 2, 0, 0], [3, -13, 116, 29, -9, 2, 0, 0], [3, -14, 114, 32, -10, 3, 0, 0], [3, -15, 113, 35, -10, 2, 0, 0], [3, -15,
   111, 37, -11, 3, 0, 0], [3, -16, 109, 40, -11, 3, 0, 0], [3, -16, 108, 42, -12, 3, 0, 0], [4, -17, 106, 45, -13, 3, 0, 0], [4,
   -17, 104, 47, -13, 3, 0, 0], [4, -17, 102, 50, -14, 3, 0, 0], [4, -17, 100, 52, -14, 3, 0, 0], [4, -18, 98, 55, -15, 4, 0, 0],
   [4, -18, 96, 58, -15, 3, 0, 0], [4, -18, 94, 60, -16, 4, 0, 0], [4, -18, 91, 63, -16, 4, 0, 0], [4, -18, 89, 65, -16, 4, 0, 0],
   [4, -18, 87, 68, -17, 4, 0, 0], [4, -18, 85, 70, -17, 4, 0, 0], [4, -18, 82, 73, -17, 4, 0, 0], [4, -18, 80, 75, -17, 4, 0, 0],
   [4, -18, 78, 78, -18, 4, 0, 0], [4, -17, 75, 80, -18, 4, 0, 0], [4, -17, 73, 82, -18, 4, 0, 0], [4, -17, 70, 85, -18, 4, 0, 0],
   [4, -17, 68, 87, -18, 4, 0, 0], [4, -16, 65, 89, -18, 4, 0, 0], [4, -16, 63, 91, -18, 4, 0, 0], [4, -16, 60, 94, -18, 4, 0, 0],
   [3, -15, 58, 96, -18, 4, 0, 0], [4, -15, 55, 98, -18, 4, 0, 0], [3, -14, 52, 100, -17, 4, 0, 0], [3, -14, 50, 102, -17, 4, 0,
   0], [3, -13, 47, 104, -17, 4, 0, 0], [3, -13, 45, 106, -17, 4, 0, 0], [3, -12, 42, 108, -16, 3, 0, 0], [3, -11, 40, 109, -16,
   3, 0, 0], [3, -11, 37, 111, -15, 3, 0, 0], [2, -10, 35, 113, -15, 3, 0, 0], [3, -10, 32, 114, -14, 3, 0, 0], [2, -9, 29, 116,
   -13, 3, 0, 0], [2, -8, 27, 117, -13, 3, 0, 0], [2, -8, 25, 119, -12, 2, 0, 0], [2, -7, 22, 120, -11, 2, 0, 0], [1, -6, 20, 121,
   -10, 2, 0, 0], [1, -6, 18, 122, -9, 2, 0, 0], [1, -5, 15, 123, -8, 2, 0, 0], [1, -4, 13, 124, -7, 1, 0, 0], [1, -4, 11, 125,
   -6, 1, 0, 0], [1, -3, 8, 126, -5, 1, 0, 0], [1, -2, 6, 126, -4, 1, 0, 0], [0, -1, 4, 127, -3, 1, 0, 0], [0, 0, 2, 127, -1, 0,
   0, 0], [0, 0, 0, 127, 1, 0, 0, 0], [0, 0, -1, 127, 2, 0, 0, 0], [0, 1, -3, 127, 4, -2, 1, 0], [0, 1, -5, 127, 6, -2, 1, 0], [0,
   2, -6, 126, 8, -3, 1, 0], [-1, 2, -7, 126, 11, -4, 2, -1], [-1, 3, -8, 125, 13, -5, 2, -1], [-1, 3, -10, 124, 16, -6, 3, -1],
   [-1, 4, -11, 123, 18, -7, 3, -1], [-1, 4, -12, 122, 20, -7, 3, -1], [-1, 4, -13, 121, 23, -8, 3, -1], [-2, 5, -14, 120, 25, -9,
   4, -1], [-1, 5, -15, 119, 27, -10, 4, -1], [-1, 5, -16, 118, 30, -11, 4, -1], [-2, 6, -17, 116, 33, -12, 5, -1], [-2, 6, -17,
   114, 35, -12, 5, -1], [-2, 6, -18, 113, 38, -13, 5, -1], [-2, 7, -19, 111, 41, -14, 6, -2], [-2, 7, -19, 110, 43, -15, 6, -2],
   [-2, 7, -20, 108, 46, -15, 6, -2], [-2, 7, -20, 106, 49, -16, 6, -2], [-2, 7, -21, 104, 51, -16, 7, -2], [-2, 7, -21, 102, 54,
   -17, 7, -2], [-2, 8, -21, 100, 56, -18, 7, -2], [-2, 8, -22, 98, 59, -18, 7, -2], [-2, 8, -22, 96, 62, -19, 7, -2], [-2, 8,
   -22, 94, 64, -19, 7, -2], [-2, 8, -22, 91, 67, -20, 8, -2], [-2, 8, -22, 89, 69, -20, 8, -2], [-2, 8, -22, 87, 72, -21, 8, -2],
   [-2, 8, -21, 84, 74, -21, 8, -2], [-2, 8, -22, 82, 77, -21, 8, -2], [-2, 8, -21, 79, 79, -21, 8, -2], [-2, 8, -21, 77, 82, -22,
   8, -2], [-2, 8, -21, 74, 84, -21, 8, -2], [-2, 8, -21, 72, 87, -22, 8, -2], [-2, 8, -20, 69, 89, -22, 8, -2], [-2, 8, -20, 67,
   91, -22, 8, -2], [-2, 7, -19, 64, 94, -22, 8, -2], [-2, 7, -19, 62, 96, -22, 8, -2], [-2, 7, -18, 59, 98, -22, 8, -2], [-2, 7,
   -18, 56, 100, -21, 8, -2], [-2, 7, -17, 54, 102, -21, 7, -2], [-2, 7, -16, 51, 104, -21, 7, -2], [-2, 6, -16, 49, 106, -20, 7,
   -2], [-2, 6, -15, 46, 108, -20, 7, -2], [-2, 6, -15, 43, 110, -19, 7, -2], [-2, 6, -14, 41, 111, -19, 7, -2], [-1, 5, -13, 38,
   113, -18, 6, -2], [-1, 5, -12, 35, 114, -17, 6, -2], [-1, 5, -12, 33, 116, -17, 6, -2], [-1, 4, -11, 30, 118, -16, 5, -1], [-1,
   4, -10, 27, 119, -15, 5, -1], [-1, 4, -9, 25, 120, -14, 5, -2], [-1, 3, -8, 23, 121, -13, 4, -1], [-1, 3, -7, 20, 122, -12, 4,
   -1], [-1, 3, -7, 18, 123, -11, 4, -1], [-1, 3, -6, 16, 124, -10, 3, -1], [-1, 2, -5, 13, 125, -8, 3, -1], [-1, 2, -4, 11, 126,
   -7, 2, -1], [0, 1, -3, 8, 126, -6, 2, 0], [0, 1, -2, 6, 127, -5, 1, 0], [0, 1, -2, 4, 127, -3, 1, 0], [0, 0, 0, 2, 127, -1, 0,
   0], [0, 0, 0, 1, 127, 0, 0, 0], [0, 0, 0, -1, 127, 2, 0, 0], [0, 0, 1, -3, 127, 4, -1, 0], [0, 0, 1, -4, 126, 6, -2, 1], [0, 0,
   1, -5, 126, 8, -3, 1], [0, 0, 1, -6, 125, 11, -4, 1], [0, 0, 1, -7, 124, 13, -4, 1], [0, 0, 2, -8, 123, 15, -5, 1], [0, 0, 2,
   -9, 122, 18, -6, 1], [0, 0, 2, -10, 121, 20, -6, 1], [0, 0, 2, -11, 120, 22, -7, 2], [0, 0, 2, -12, 119, 25, -8, 2], [0, 0, 3,
   -13, 117, 27, -8, 2], [0, 0, 3, -13, 116, 29, -9, 2], [0, 0, 3, -14, 114, 32, -10, 3], [0, 0, 3, -15, 113, 35, -10, 2], [0, 0,
   3, -15, 111, 37, -11, 3], [0, 0, 3, -16, 109, 40, -11, 3], [0, 0, 3, -16, 108, 42, -12, 3], [0, 0, 4, -17, 106, 45, -13, 3],
   [0, 0, 4, -17, 104, 47, -13, 3], [0, 0, 4, -17, 102, 50, -14, 3], [0, 0, 4, -17, 100, 52, -14, 3], [0, 0, 4, -18, 98, 55, -15,
   4], [0, 0, 4, -18, 96, 58, -15, 3], [0, 0, 4, -18, 94, 60, -16, 4], [0, 0, 4, -18, 91, 63, -16, 4], [0, 0, 4, -18, 89, 65, -16,
   4], [0, 0, 4, -18, 87, 68, -17, 4], [0, 0, 4, -18, 85, 70, -17, 4], [0, 0, 4, -18, 82, 73, -17, 4], [0, 0, 4, -18, 80, 75, -17,
   4], [0, 0, 4, -18, 78, 78, -18, 4], [0, 0, 4, -17, 75, 80, -18, 4], [0, 0, 4, -17, 73, 82, -18, 4], [0, 0, 4, -17, 70, 85, -18,
   4], [0, 0, 4, -17, 68, 87, -18, 4], [0, 0, 4, -16, 65, 89, -18, 4], [0, 0, 4, -16, 63, 91, -18, 4], [0, 0, 4, -16, 60, 94, -18,
   4], [0, 0, 3, -15, 58, 96, -18, 4], [0, 0, 4, -15, 55, 98, -18, 4], [0, 0, 3, -14, 52, 100, -17, 4], [0, 0, 3, -14, 50, 102,
   -17, 4], [0, 0, 3, -13, 47, 104, -17, 4], [0, 0, 3, -13, 45, 106, -17, 4], [0, 0, 3, -12, 42, 108, -16, 3], [0, 0, 3, -11, 40,
   109, -16, 3], [0, 0, 3, -11, 37, 111, -15, 3], [0, 0, 2, -10, 35, 113, -15, 3], [0, 0, 3, -10, 32, 114, -14, 3], [0, 0, 2, -9,
   29, 116, -13, 3], [0, 0, 2, -8, 27, 117, -13, 3], [0, 0, 2, -8, 25, 119, -12, 2], [0, 0, 2, -7, 22, 120, -11, 2], [0, 0, 1, -6,
   20, 121, -10, 2], [0, 0, 1, -6, 18, 122, -9, 2], [0, 0, 1, -5, 15, 123, -8, 2], [0, 0, 1, -4, 13, 124, -7, 1], [0, 0, 1, -4,
   11, 125, -6, 1], [0, 0, 1, -3, 8, 126, -5, 1], [0, 0, 1, -2, 6, 126, -4, 1], [0, 0, 0, -1, 4, 127, -3, 1], [0, 0, 0, 0, 2, 127,
   -1, 0], [0, 0, 0, 0, 2, 127, -1, 0]]

/-- internal/tilegroup/predict_inter.go:834-859 `Div_Lut`. -/
def divLut : List Int :=
  [16384, 16320, 16257, 16194, 16132, 16070, 16009, 15948, 15888, 15828, 15768, 15709, 15650, 15592, 15534, 15477, 15420, 15364,
   15308, 15252, 15197, 15142, 15087, 15033, 14980, 14926, 14873, 14821, 14769, 14717, 14665, 14614, 14564, 14513, 14463, 14413,
   14364, 14315, 14266, 14218, 14170, 14122, 14075, 14028, 13981, 13935, 13888, 13843, 13797, 13752, 13707, 13662, 13618, 13574,
   13530, 13487, 13443, 13400, 13358, 13315, 13273, 13231, 13190, 13148, 13107, 13066, 13026, 12985, 12945, 12906, 12866, 12827,
   12788, 12749, 12710, 12672, 12633, 12596, 12558, 12520, 12483, 12446, 12409, 12373, 12336, 12300, 12264, 12228, 12193, 12157,
   12122, 12087, 12053, 12018, 11984, 11950, 11916, 11882, 11848, 11815, 11782, 11749, 11716, 11683, 11651, 11619, 11586, 11555,
   11523, 11491, 11460, 11429, 11398, 11367, 11336, 11305, 11275, 11245, 11215, 11185, 11155, 11125, 11096, 11067, 11038, 11009,
   10980, 10951, 10923, 10894, 10866, 10838, 10810, 10782, 10755, 10727, 10700, 10673, 10645, 10618, 10592, 10565, 10538, 10512,
   10486, 10460, 10434, 10408, 10382, 10356, 10331, 10305, 10280, 10255, 10230, 10205, 10180, 10156, 10131, 10107, 10082, 10058,
   10034, 10010, 99869, 9963, 9939, 9916, 9892, 9869, 9846, 9823, 9800, 9777, 9754, 9732, 9709, 9687, 9664, 9642, 9620, 9598,
   9576, 9554, 9533, 9511, 9489, 9468, 9447, 9425, 9404, 9383, 9362, 9341, 9321, 9300, 9279, 9259, 9239, 9218, 9198, 9178, 9158,
   9138, 9118, 9098, 9079, 9059, 9039, 9020, 9001, 8981, 8962, 8943, 8924, 8905, 8886, 8867, 8849, 8830, 8812, 8793, 8775, 8756,
   8738, 8720, 8702, 8684, 8666, 8648, 8630, 8613, 8595, 8577, 8560, 8542, 8525, 8508, 8490, 8473, 8456, 8439, 8422, 8405, 8389,
   8372, 8355, 8339, 8322, 8306, 8289, 8273, 8257, 8240, 8224, 8208, 8192]

/-- internal/tilegroup/predict_inter.go:824-832 `Ii_Weights_1d`. -/
def iiWeights1d : List Int :=
  [60, 58, 56, 54, 52, 50, 48, 47, 45, 44, 42, 41, 39, 38, 37, 35, 34, 33, 32, 31, 30, 29, 28, 27, 26, 25, 24, 23, 22, 22, 21, 20,
   19, 19, 18, 18, 17, 16, 16, 15, 15, 14, 14, 13, 13, 12, 12, 12, 11, 11, 10, 10, 10, 9, 9, 9, 8, 8, 8, 8, 7, 7, 7, 7, 6, 6, 6,
   6, 6, 5, 5, 5, 5, 5, 4, 4, 4, 4, 4, 4, 4, 4, 3, 3, 3, 3, 3, 3, 3, 3, 3, 2, 2, 2, 2, 2, 2, 2, 2, 2, 2, 2, 2, 2, 2, 2, 1, 1, 1,
   1, 1, 1, 1, 1, 1, 1, 1, 1, 1, 1, 1, 1, 1, 1, 1, 1, 1, 1]

/-- internal/tilegroup/predict_inter.go:16-18 `Quant_Dist_Lookup`. -/
def quantDistLookup : List (List Int) :=
  [[9, 7], [11, 5], [12, 4], [13, 3]]

/-- internal/tilegroup/predict_inter.go:12-14 `Quant_Dist_Weight`. -/
def quantDistWeight : List (List Int) :=
  [[2, 3], [2, 5], [2, 7], [1, 31]]

/-- internal/wedgemask/wedge_mask.go:21-26 `Wedge_Master_Oblique_Odd`. -/
def wedgeObliqueOdd : List Int :=
  [0, 0, 0, 0, 0, 0, 0, 0, 0, 0, 0, 0, 0, 0, 0, 0, 0, 0, 0, 0, 0, 0, 0, 0, 0, 0, 0, 0, 1, 2, 6, 18, 37, 53, 60, 63, 64, 64, 64,
   64, 64, 64, 64, 64, 64, 64, 64, 64, 64, 64, 64, 64, 64, 64, 64, 64, 64, 64, 64, 64, 64, 64, 64, 64]

/-- internal/wedgemask/wedge_mask.go:28-33 `Wedge_Master_Oblique_Even`. -/
def wedgeObliqueEven : List Int :=
  [0, 0, 0, 0, 0, 0, 0, 0, 0, 0, 0, 0, 0, 0, 0, 0, 0, 0, 0, 0, 0, 0, 0, 0, 0, 0, 0, 0, 1, 4, 11, 27, 46, 58, 62, 63, 64, 64, 64,
   64, 64, 64, 64, 64, 64, 64, 64, 64, 64, 64, 64, 64, 64, 64, 64, 64, 64, 64, 64, 64, 64, 64, 64, 64]

/-- internal/wedgemask/wedge_mask.go:35-40 `Wedge_Master_Vertical`. -/
def wedgeVertical : List Int :=
  [0, 0, 0, 0, 0, 0, 0, 0, 0, 0, 0, 0, 0, 0, 0, 0, 0, 0, 0, 0, 0, 0, 0, 0, 0, 0, 0, 0, 0, 2, 7, 21, 43, 57, 62, 64, 64, 64, 64,
   64, 64, 64, 64, 64, 64, 64, 64, 64, 64, 64, 64, 64, 64, 64, 64, 64, 64, 64, 64, 64, 64, 64, 64, 64]

end Gov1

/-! # Default CDF tables of internal/uncompressedheader/cdf.go (generated by tools/gencdf.py)

Nested Go slices are flattened to the list of their innermost slices, in index order. -/
set_option maxRecDepth 8000
namespace Gov1

/-- internal/uncompressedheader/cdf.go:2399-3748 `DEFAULT_TXB_SKIP_CDF[0]` ([][][][]int, leaves in index order; outer dimensions [4, 5, 13]). -/
def defaultTxbSkipCdf0 : List (List Nat) := [
  [31849, 32768, 0],
  [5892, 32768, 0],
  [12112, 32768, 0],
  [21935, 32768, 0],
  [20289, 32768, 0],
  [27473, 32768, 0],
  [32487, 32768, 0],
  [7654, 32768, 0],
  [19473, 32768, 0],
  [29984, 32768, 0],
  [9961, 32768, 0],
  [30242, 32768, 0],
  [32117, 32768, 0],
  [31548, 32768, 0],
  [1549, 32768, 0],
  [10130, 32768, 0],
  [16656, 32768, 0],
  [18591, 32768, 0],
  [26308, 32768, 0],
  [32537, 32768, 0],
  [5403, 32768, 0],
  [18096, 32768, 0],
  [30003, 32768, 0],
  [16384, 32768, 0],
  [16384, 32768, 0],
  [16384, 32768, 0],
  [29957, 32768, 0],
  [5391, 32768, 0],
  [18039, 32768, 0],
  [23566, 32768, 0],
  [22431, 32768, 0],
  [25822, 32768, 0],
  [32197, 32768, 0],
  [3778, 32768, 0],
  [15336, 32768, 0],
  [28981, 32768, 0],
  [16384, 32768, 0],
  [16384, 32768, 0],
  [16384, 32768, 0],
  [17920, 32768, 0],
  [1818, 32768, 0],
  [7282, 32768, 0],
  [25273, 32768, 0],
  [10923, 32768, 0],
  [31554, 32768, 0],
  [32624, 32768, 0],
  [1366, 32768, 0],
  [15628, 32768, 0],
  [30462, 32768, 0],
  [146, 32768, 0],
  [5132, 32768, 0],
  [31657, 32768, 0],
  [6308, 32768, 0],
  [117, 32768, 0],
  [1638, 32768, 0],
  [2161, 32768, 0],
  [16384, 32768, 0],
  [10923, 32768, 0],
  [30247, 32768, 0],
  [16384, 32768, 0],
  [16384, 32768, 0],
  [16384, 32768, 0],
  [16384, 32768, 0],
  [16384, 32768, 0],
  [16384, 32768, 0]]

/-- internal/uncompressedheader/cdf.go:2399-3748 `DEFAULT_TXB_SKIP_CDF[1]` ([][][][]int, leaves in index order; outer dimensions [4, 5, 13]). -/
def defaultTxbSkipCdf1 : List (List Nat) := [
  [30371, 32768, 0],
  [7570, 32768, 0],
  [13155, 32768, 0],
  [20751, 32768, 0],
  [20969, 32768, 0],
  [27067, 32768, 0],
  [32013, 32768, 0],
  [5495, 32768, 0],
  [17942, 32768, 0],
  [28280, 32768, 0],
  [16384, 32768, 0],
  [16384, 32768, 0],
  [16384, 32768, 0],
  [31782, 32768, 0],
  [1836, 32768, 0],
  [10689, 32768, 0],
  [17604, 32768, 0],
  [21622, 32768, 0],
  [27518, 32768, 0],
  [32399, 32768, 0],
  [4419, 32768, 0],
  [16294, 32768, 0],
  [28345, 32768, 0],
  [16384, 32768, 0],
  [16384, 32768, 0],
  [16384, 32768, 0],
  [31901, 32768, 0],
  [10311, 32768, 0],
  [18047, 32768, 0],
  [24806, 32768, 0],
  [23288, 32768, 0],
  [27914, 32768, 0],
  [32296, 32768, 0],
  [4215, 32768, 0],
  [15756, 32768, 0],
  [28341, 32768, 0],
  [16384, 32768, 0],
  [16384, 32768, 0],
  [16384, 32768, 0],
  [26726, 32768, 0],
  [1045, 32768, 0],
  [11703, 32768, 0],
  [20590, 32768, 0],
  [18554, 32768, 0],
  [25970, 32768, 0],
  [31938, 32768, 0],
  [5583, 32768, 0],
  [21313, 32768, 0],
  [29390, 32768, 0],
  [641, 32768, 0],
  [22265, 32768, 0],
  [31452, 32768, 0],
  [26584, 32768, 0],
  [188, 32768, 0],
  [8847, 32768, 0],
  [24519, 32768, 0],
  [22938, 32768, 0],
  [30583, 32768, 0],
  [32608, 32768, 0],
  [16384, 32768, 0],
  [16384, 32768, 0],
  [16384, 32768, 0],
  [16384, 32768, 0],
  [16384, 32768, 0],
  [16384, 32768, 0]]

/-- internal/uncompressedheader/cdf.go:2399-3748 `DEFAULT_TXB_SKIP_CDF[2]` ([][][][]int, leaves in index order; outer dimensions [4, 5, 13]). -/
def defaultTxbSkipCdf2 : List (List Nat) := [
  [29614, 32768, 0],
  [9068, 32768, 0],
  [12924, 32768, 0],
  [19538, 32768, 0],
  [17737, 32768, 0],
  [24619, 32768, 0],
  [30642, 32768, 0],
  [4119, 32768, 0],
  [16026, 32768, 0],
  [25657, 32768, 0],
  [16384, 32768, 0],
  [16384, 32768, 0],
  [16384, 32768, 0],
  [31957, 32768, 0],
  [3230, 32768, 0],
  [11153, 32768, 0],
  [18123, 32768, 0],
  [20143, 32768, 0],
  [26536, 32768, 0],
  [31986, 32768, 0],
  [3050, 32768, 0],
  [14603, 32768, 0],
  [25155, 32768, 0],
  [16384, 32768, 0],
  [16384, 32768, 0],
  [16384, 32768, 0],
  [32363, 32768, 0],
  [10692, 32768, 0],
  [19090, 32768, 0],
  [24357, 32768, 0],
  [24442, 32768, 0],
  [28312, 32768, 0],
  [32169, 32768, 0],
  [3648, 32768, 0],
  [15690, 32768, 0],
  [26815, 32768, 0],
  [16384, 32768, 0],
  [16384, 32768, 0],
  [16384, 32768, 0],
  [30669, 32768, 0],
  [3832, 32768, 0],
  [11663, 32768, 0],
  [18889, 32768, 0],
  [19782, 32768, 0],
  [23313, 32768, 0],
  [31330, 32768, 0],
  [5124, 32768, 0],
  [18719, 32768, 0],
  [28468, 32768, 0],
  [3082, 32768, 0],
  [20982, 32768, 0],
  [29443, 32768, 0],
  [28573, 32768, 0],
  [3183, 32768, 0],
  [17802, 32768, 0],
  [25977, 32768, 0],
  [26677, 32768, 0],
  [27832, 32768, 0],
  [32387, 32768, 0],
  [16384, 32768, 0],
  [16384, 32768, 0],
  [16384, 32768, 0],
  [16384, 32768, 0],
  [16384, 32768, 0],
  [16384, 32768, 0]]

/-- internal/uncompressedheader/cdf.go:2399-3748 `DEFAULT_TXB_SKIP_CDF[3]` ([][][][]int, leaves in index order; outer dimensions [4, 5, 13]). -/
def defaultTxbSkipCdf3 : List (List Nat) := [
  [26887, 32768, 0],
  [6729, 32768, 0],
  [10361, 32768, 0],
  [17442, 32768, 0],
  [15045, 32768, 0],
  [22478, 32768, 0],
  [29072, 32768, 0],
  [2713, 32768, 0],
  [11861, 32768, 0],
  [20773, 32768, 0],
  [16384, 32768, 0],
  [16384, 32768, 0],
  [16384, 32768, 0],
  [31903, 32768, 0],
  [2044, 32768, 0],
  [7528, 32768, 0],
  [14618, 32768, 0],
  [16182, 32768, 0],
  [24168, 32768, 0],
  [31037, 32768, 0],
  [2786, 32768, 0],
  [11194, 32768, 0],
  [20155, 32768, 0],
  [16384, 32768, 0],
  [16384, 32768, 0],
  [16384, 32768, 0],
  [32510, 32768, 0],
  [8430, 32768, 0],
  [17318, 32768, 0],
  [24154, 32768, 0],
  [23674, 32768, 0],
  [28789, 32768, 0],
  [32139, 32768, 0],
  [3440, 32768, 0],
  [13117, 32768, 0],
  [22702, 32768, 0],
  [16384, 32768, 0],
  [16384, 32768, 0],
  [16384, 32768, 0],
  [31671, 32768, 0],
  [2056, 32768, 0],
  [11746, 32768, 0],
  [16852, 32768, 0],
  [18635, 32768, 0],
  [24715, 32768, 0],
  [31484, 32768, 0],
  [4656, 32768, 0],
  [16074, 32768, 0],
  [24704, 32768, 0],
  [1806, 32768, 0],
  [14645, 32768, 0],
  [25336, 32768, 0],
  [31539, 32768, 0],
  [8433, 32768, 0],
  [20576, 32768, 0],
  [27904, 32768, 0],
  [27852, 32768, 0],
  [30026, 32768, 0],
  [32441, 32768, 0],
  [16384, 32768, 0],
  [16384, 32768, 0],
  [16384, 32768, 0],
  [16384, 32768, 0],
  [16384, 32768, 0],
  [16384, 32768, 0]]

/-- internal/uncompressedheader/cdf.go:3750-3902 `DEFAULT_EOB_PT_16_CDF[0]` ([][][][]int, leaves in index order; outer dimensions [4, 2, 2]). -/
def defaultEobPt16Cdf0 : List (List Nat) := [
  [840, 1039, 1980, 4895, 32768, 0],
  [370, 671, 1883, 4471, 32768, 0],
  [3247, 4950, 9688, 14563, 32768, 0],
  [1904, 3354, 7763, 14647, 32768, 0]]

/-- internal/uncompressedheader/cdf.go:3750-3902 `DEFAULT_EOB_PT_16_CDF[1]` ([][][][]int, leaves in index order; outer dimensions [4, 2, 2]). -/
def defaultEobPt16Cdf1 : List (List Nat) := [
  [2125, 2551, 5165, 8946, 32768, 0],
  [513, 765, 1859, 6339, 32768, 0],
  [7637, 9498, 14259, 19108, 32768, 0],
  [2497, 4096, 8866, 16993, 32768, 0]]

/-- internal/uncompressedheader/cdf.go:3750-3902 `DEFAULT_EOB_PT_16_CDF[2]` ([][][][]int, leaves in index order; outer dimensions [4, 2, 2]). -/
def defaultEobPt16Cdf2 : List (List Nat) := [
  [4016, 4897, 8881, 14968, 32768, 0],
  [716, 1105, 2646, 10056, 32768, 0],
  [11139, 13270, 18241, 23566, 32768, 0],
  [3192, 5032, 10297, 19755, 32768, 0]]

/-- internal/uncompressedheader/cdf.go:3750-3902 `DEFAULT_EOB_PT_16_CDF[3]` ([][][][]int, leaves in index order; outer dimensions [4, 2, 2]). -/
def defaultEobPt16Cdf3 : List (List Nat) := [
  [6708, 8958, 14746, 22133, 32768, 0],
  [1222, 2074, 4783, 15410, 32768, 0],
  [19575, 21766, 26044, 29709, 32768, 0],
  [7297, 10767, 19273, 28194, 32768, 0]]

/-- internal/uncompressedheader/cdf.go:3904-4073 `DEFAULT_EOB_PT_32_CDF[0]` ([][][][]int, leaves in index order; outer dimensions [4, 2, 2]). -/
def defaultEobPt32Cdf0 : List (List Nat) := [
  [400, 520, 977, 2102, 6542, 32768, 0],
  [210, 405, 1315, 3326, 7537, 32768, 0],
  [2636, 4273, 7588, 11794, 20401, 32768, 0],
  [1786, 3179, 6902, 11357, 19054, 32768, 0]]

/-- internal/uncompressedheader/cdf.go:3904-4073 `DEFAULT_EOB_PT_32_CDF[1]` ([][][][]int, leaves in index order; outer dimensions [4, 2, 2]). -/
def defaultEobPt32Cdf1 : List (List Nat) := [
  [989, 1249, 2019, 4151, 10785, 32768, 0],
  [313, 441, 1099, 2917, 8562, 32768, 0],
  [8394, 10352, 13932, 18855, 26014, 32768, 0],
  [2578, 4124, 8181, 13670, 24234, 32768, 0]]

/-- internal/uncompressedheader/cdf.go:3904-4073 `DEFAULT_EOB_PT_32_CDF[2]` ([][][][]int, leaves in index order; outer dimensions [4, 2, 2]). -/
def defaultEobPt32Cdf2 : List (List Nat) := [
  [2515, 3003, 4452, 8162, 16041, 32768, 0],
  [574, 821, 1836, 5089, 13128, 32768, 0],
  [13468, 16303, 20361, 25105, 29281, 32768, 0],
  [3542, 5502, 10415, 16760, 25644, 32768, 0]]

/-- internal/uncompressedheader/cdf.go:3904-4073 `DEFAULT_EOB_PT_32_CDF[3]` ([][][][]int, leaves in index order; outer dimensions [4, 2, 2]). -/
def defaultEobPt32Cdf3 : List (List Nat) := [
  [4617, 5709, 8446, 13584, 23135, 32768, 0],
  [1156, 1702, 3675, 9274, 20539, 32768, 0],
  [22086, 24282, 27010, 29770, 31743, 32768, 0],
  [7699, 10897, 20891, 26926, 31628, 32768, 0]]

/-- internal/uncompressedheader/cdf.go:4075-4260 `DEFAULT_EOB_PT_64_CDF[0]` ([][][][]int, leaves in index order; outer dimensions [4, 2, 2]). -/
def defaultEobPt64Cdf0 : List (List Nat) := [
  [329, 498, 1101, 1784, 3265, 7758, 32768, 0],
  [335, 730, 1459, 5494, 8755, 12997, 32768, 0],
  [3505, 5304, 10086, 13814, 17684, 23370, 32768, 0],
  [1563, 2700, 4876, 10911, 14706, 22480, 32768, 0]]

/-- internal/uncompressedheader/cdf.go:4075-4260 `DEFAULT_EOB_PT_64_CDF[1]` ([][][][]int, leaves in index order; outer dimensions [4, 2, 2]). -/
def defaultEobPt64Cdf1 : List (List Nat) := [
  [1260, 1446, 2253, 3712, 6652, 13369, 32768, 0],
  [401, 605, 1029, 2563, 5845, 12626, 32768, 0],
  [8609, 10612, 14624, 18714, 22614, 29024, 32768, 0],
  [1923, 3127, 5867, 9703, 14277, 27100, 32768, 0]]

/-- internal/uncompressedheader/cdf.go:4075-4260 `DEFAULT_EOB_PT_64_CDF[2]` ([][][][]int, leaves in index order; outer dimensions [4, 2, 2]). -/
def defaultEobPt64Cdf2 : List (List Nat) := [
  [2374, 2772, 4583, 7276, 12288, 19706, 32768, 0],
  [497, 810, 1315, 3000, 7004, 15641, 32768, 0],
  [15050, 17126, 21410, 24886, 28156, 30726, 32768, 0],
  [4034, 6290, 10235, 14982, 21214, 28491, 32768, 0]]

/-- internal/uncompressedheader/cdf.go:4075-4260 `DEFAULT_EOB_PT_64_CDF[3]` ([][][][]int, leaves in index order; outer dimensions [4, 2, 2]). -/
def defaultEobPt64Cdf3 : List (List Nat) := [
  [6307, 7541, 12060, 16358, 22553, 27865, 32768, 0],
  [1289, 2320, 3971, 7926, 14153, 24291, 32768, 0],
  [24212, 25708, 28268, 30035, 31307, 32049, 32768, 0],
  [8726, 12378, 19409, 26450, 30038, 32462, 32768, 0]]

/-- internal/uncompressedheader/cdf.go:4262-4463 `DEFAULT_EOB_PT_128_CDF[0]` ([][][][]int, leaves in index order; outer dimensions [4, 2, 2]). -/
def defaultEobPt128Cdf0 : List (List Nat) := [
  [219, 482, 1140, 2091, 3680, 6028, 12586, 32768, 0],
  [371, 699, 1254, 4830, 9479, 12562, 17497, 32768, 0],
  [5245, 7456, 12880, 15852, 20033, 23932, 27608, 32768, 0],
  [2054, 3472, 5869, 14232, 18242, 20590, 26752, 32768, 0]]

/-- internal/uncompressedheader/cdf.go:4262-4463 `DEFAULT_EOB_PT_128_CDF[1]` ([][][][]int, leaves in index order; outer dimensions [4, 2, 2]). -/
def defaultEobPt128Cdf1 : List (List Nat) := [
  [685, 933, 1488, 2714, 4766, 8562, 19254, 32768, 0],
  [217, 352, 618, 2303, 5261, 9969, 17472, 32768, 0],
  [8045, 11200, 15497, 19595, 23948, 27408, 30938, 32768, 0],
  [2310, 4160, 7471, 14997, 17931, 20768, 30240, 32768, 0]]

/-- internal/uncompressedheader/cdf.go:4262-4463 `DEFAULT_EOB_PT_128_CDF[2]` ([][][][]int, leaves in index order; outer dimensions [4, 2, 2]). -/
def defaultEobPt128Cdf2 : List (List Nat) := [
  [1366, 1738, 2527, 5016, 9355, 15797, 24643, 32768, 0],
  [354, 558, 944, 2760, 7287, 14037, 21779, 32768, 0],
  [13627, 16246, 20173, 24429, 27948, 30415, 31863, 32768, 0],
  [6275, 9889, 14769, 23164, 27988, 30493, 32272, 32768, 0]]

/-- internal/uncompressedheader/cdf.go:4262-4463 `DEFAULT_EOB_PT_128_CDF[3]` ([][][][]int, leaves in index order; outer dimensions [4, 2, 2]). -/
def defaultEobPt128Cdf3 : List (List Nat) := [
  [3472, 4885, 7489, 12481, 18517, 24536, 29635, 32768, 0],
  [886, 1731, 3271, 8469, 15569, 22126, 28383, 32768, 0],
  [24313, 26062, 28385, 30107, 31217, 31898, 32345, 32768, 0],
  [9165, 13282, 21150, 30286, 31894, 32571, 32712, 32768, 0]]

/-- internal/uncompressedheader/cdf.go:4465-4682 `DEFAULT_EOB_PT_256_CDF[0]` ([][][][]int, leaves in index order; outer dimensions [4, 2, 2]). -/
def defaultEobPt256Cdf0 : List (List Nat) := [
  [310, 584, 1887, 3589, 6168, 8611, 11352, 15652, 32768, 0],
  [998, 1850, 2998, 5604, 17341, 19888, 22899, 25583, 32768, 0],
  [2520, 3240, 5952, 8870, 12577, 17558, 19954, 24168, 32768, 0],
  [2203, 4130, 7435, 10739, 20652, 23681, 25609, 27261, 32768, 0]]

/-- internal/uncompressedheader/cdf.go:4465-4682 `DEFAULT_EOB_PT_256_CDF[1]` ([][][][]int, leaves in index order; outer dimensions [4, 2, 2]). -/
def defaultEobPt256Cdf1 : List (List Nat) := [
  [1448, 2109, 4151, 6263, 9329, 13260, 17944, 23300, 32768, 0],
  [399, 1019, 1749, 3038, 10444, 15546, 22739, 27294, 32768, 0],
  [6402, 8148, 12623, 15072, 18728, 22847, 26447, 29377, 32768, 0],
  [1674, 3252, 5734, 10159, 22397, 23802, 24821, 30940, 32768, 0]]

/-- internal/uncompressedheader/cdf.go:4465-4682 `DEFAULT_EOB_PT_256_CDF[2]` ([][][][]int, leaves in index order; outer dimensions [4, 2, 2]). -/
def defaultEobPt256Cdf2 : List (List Nat) := [
  [3089, 3920, 6038, 9460, 14266, 19881, 25766, 29176, 32768, 0],
  [1084, 2358, 3488, 5122, 11483, 18103, 26023, 29799, 32768, 0],
  [11514, 13794, 17480, 20754, 24361, 27378, 29492, 31277, 32768, 0],
  [6571, 9610, 15516, 21826, 29092, 30829, 31842, 32708, 32768, 0]]

/-- internal/uncompressedheader/cdf.go:4465-4682 `DEFAULT_EOB_PT_256_CDF[3]` ([][][][]int, leaves in index order; outer dimensions [4, 2, 2]). -/
def defaultEobPt256Cdf3 : List (List Nat) := [
  [5348, 7113, 11820, 15924, 22106, 26777, 30334, 31757, 32768, 0],
  [2453, 4474, 6307, 8777, 16474, 22975, 29000, 31547, 32768, 0],
  [23110, 24597, 27140, 28894, 30167, 30927, 31392, 32094, 32768, 0],
  [9998, 17661, 25178, 28097, 31308, 32038, 32403, 32695, 32768, 0]]

/-- internal/uncompressedheader/cdf.go:4684-4797 `DEFAULT_EOB_PT_512_CDF[0]` ([][][]int, leaves in index order; outer dimensions [4, 2]). -/
def defaultEobPt512Cdf0 : List (List Nat) := [
  [641, 983, 3707, 5430, 10234, 14958, 18788, 23412, 26061, 32768, 0],
  [5095, 6446, 9996, 13354, 16017, 17986, 20919, 26129, 29140, 32768, 0]]

/-- internal/uncompressedheader/cdf.go:4684-4797 `DEFAULT_EOB_PT_512_CDF[1]` ([][][]int, leaves in index order; outer dimensions [4, 2]). -/
def defaultEobPt512Cdf1 : List (List Nat) := [
  [1230, 2278, 5035, 7776, 11871, 15346, 19590, 24584, 28749, 32768, 0],
  [7265, 9979, 15819, 19250, 21780, 23846, 26478, 28396, 31811, 32768, 0]]

/-- internal/uncompressedheader/cdf.go:4684-4797 `DEFAULT_EOB_PT_512_CDF[2]` ([][][]int, leaves in index order; outer dimensions [4, 2]). -/
def defaultEobPt512Cdf2 : List (List Nat) := [
  [2624, 3936, 6480, 9686, 13979, 17726, 23267, 28410, 31078, 32768, 0],
  [12015, 14769, 19588, 22052, 24222, 25812, 27300, 29219, 32114, 32768, 0]]

/-- internal/uncompressedheader/cdf.go:4684-4797 `DEFAULT_EOB_PT_512_CDF[3]` ([][][]int, leaves in index order; outer dimensions [4, 2]). -/
def defaultEobPt512Cdf3 : List (List Nat) := [
  [5927, 7809, 10923, 14597, 19439, 24135, 28456, 31142, 32060, 32768, 0],
  [21093, 23043, 25742, 27658, 29097, 29716, 30073, 30820, 31956, 32768, 0]]

/-- internal/uncompressedheader/cdf.go:4799-4920 `DEFAULT_EOB_PT_1024_CDF[0]` ([][][]int, leaves in index order; outer dimensions [4, 2]). -/
def defaultEobPt1024Cdf0 : List (List Nat) := [
  [393, 421, 751, 1623, 3160, 6352, 13345, 18047, 22571, 25830, 32768, 0],
  [1865, 1988, 2930, 4242, 10533, 16538, 21354, 27255, 28546, 31784, 32768, 0]]

/-- internal/uncompressedheader/cdf.go:4799-4920 `DEFAULT_EOB_PT_1024_CDF[1]` ([][][]int, leaves in index order; outer dimensions [4, 2]). -/
def defaultEobPt1024Cdf1 : List (List Nat) := [
  [696, 948, 3145, 5702, 9706, 13217, 17851, 21856, 25692, 28034, 32768, 0],
  [2672, 3591, 9330, 17084, 22725, 24284, 26527, 28027, 28377, 30876, 32768, 0]]

/-- internal/uncompressedheader/cdf.go:4799-4920 `DEFAULT_EOB_PT_1024_CDF[2]` ([][][]int, leaves in index order; outer dimensions [4, 2]). -/
def defaultEobPt1024Cdf2 : List (List Nat) := [
  [2784, 3831, 7041, 10521, 14847, 18844, 23155, 26682, 29229, 31045, 32768, 0],
  [9577, 12466, 17739, 20750, 22061, 23215, 24601, 25483, 25843, 32056, 32768, 0]]

/-- internal/uncompressedheader/cdf.go:4799-4920 `DEFAULT_EOB_PT_1024_CDF[3]` ([][][]int, leaves in index order; outer dimensions [4, 2]). -/
def defaultEobPt1024Cdf3 : List (List Nat) := [
  [6698, 8334, 11961, 15762, 20186, 23862, 27434, 29326, 31082, 32050, 32768, 0],
  [20569, 22426, 25569, 26859, 28053, 28913, 29486, 29724, 29807, 32570, 32768, 0]]

/-- internal/uncompressedheader/cdf.go:4922-6851 `DEFAULT_EOB_EXTRA_CDF[0]` ([][][][][]int, leaves in index order; outer dimensions [4, 5, 2, 9]). -/
def defaultEobExtraCdf0 : List (List Nat) := [
  [16961, 32768, 0],
  [17223, 32768, 0],
  [7621, 32768, 0],
  [16384, 32768, 0],
  [16384, 32768, 0],
  [16384, 32768, 0],
  [16384, 32768, 0],
  [16384, 32768, 0],
  [16384, 32768, 0],
  [19069, 32768, 0],
  [22525, 32768, 0],
  [13377, 32768, 0],
  [16384, 32768, 0],
  [16384, 32768, 0],
  [16384, 32768, 0],
  [16384, 32768, 0],
  [16384, 32768, 0],
  [16384, 32768, 0],
  [20401, 32768, 0],
  [17025, 32768, 0],
  [12845, 32768, 0],
  [12873, 32768, 0],
  [14094, 32768, 0],
  [16384, 32768, 0],
  [16384, 32768, 0],
  [16384, 32768, 0],
  [16384, 32768, 0],
  [20681, 32768, 0],
  [20701, 32768, 0],
  [15250, 32768, 0],
  [15017, 32768, 0],
  [14928, 32768, 0],
  [16384, 32768, 0],
  [16384, 32768, 0],
  [16384, 32768, 0],
  [16384, 32768, 0],
  [23905, 32768, 0],
  [17194, 32768, 0],
  [16170, 32768, 0],
  [17695, 32768, 0],
  [13826, 32768, 0],
  [15810, 32768, 0],
  [12036, 32768, 0],
  [16384, 32768, 0],
  [16384, 32768, 0],
  [23959, 32768, 0],
  [20799, 32768, 0],
  [19021, 32768, 0],
  [16203, 32768, 0],
  [17886, 32768, 0],
  [14144, 32768, 0],
  [12010, 32768, 0],
  [16384, 32768, 0],
  [16384, 32768, 0],
  [27399, 32768, 0],
  [16327, 32768, 0],
  [18071, 32768, 0],
  [19584, 32768, 0],
  [20721, 32768, 0],
  [18432, 32768, 0],
  [19560, 32768, 0],
  [10150, 32768, 0],
  [8805, 32768, 0],
  [24932, 32768, 0],
  [20833, 32768, 0],
  [12027, 32768, 0],
  [16670, 32768, 0],
  [19914, 32768, 0],
  [15106, 32768, 0],
  [17662, 32768, 0],
  [13783, 32768, 0],
  [28756, 32768, 0],
  [23406, 32768, 0],
  [21845, 32768, 0],
  [18432, 32768, 0],
  [16384, 32768, 0],
  [17096, 32768, 0],
  [12561, 32768, 0],
  [17320, 32768, 0],
  [22395, 32768, 0],
  [21370, 32768, 0],
  [16384, 32768, 0],
  [16384, 32768, 0],
  [16384, 32768, 0],
  [16384, 32768, 0],
  [16384, 32768, 0],
  [16384, 32768, 0],
  [16384, 32768, 0],
  [16384, 32768, 0],
  [16384, 32768, 0]]

/-- internal/uncompressedheader/cdf.go:4922-6851 `DEFAULT_EOB_EXTRA_CDF[1]` ([][][][][]int, leaves in index order; outer dimensions [4, 5, 2, 9]). -/
def defaultEobExtraCdf1 : List (List Nat) := [
  [17471, 32768, 0],
  [20223, 32768, 0],
  [11357, 32768, 0],
  [16384, 32768, 0],
  [16384, 32768, 0],
  [16384, 32768, 0],
  [16384, 32768, 0],
  [16384, 32768, 0],
  [16384, 32768, 0],
  [20335, 32768, 0],
  [21667, 32768, 0],
  [14818, 32768, 0],
  [16384, 32768, 0],
  [16384, 32768, 0],
  [16384, 32768, 0],
  [16384, 32768, 0],
  [16384, 32768, 0],
  [16384, 32768, 0],
  [20430, 32768, 0],
  [20662, 32768, 0],
  [15367, 32768, 0],
  [16970, 32768, 0],
  [14657, 32768, 0],
  [16384, 32768, 0],
  [16384, 32768, 0],
  [16384, 32768, 0],
  [16384, 32768, 0],
  [22117, 32768, 0],
  [22028, 32768, 0],
  [18650, 32768, 0],
  [16042, 32768, 0],
  [15885, 32768, 0],
  [16384, 32768, 0],
  [16384, 32768, 0],
  [16384, 32768, 0],
  [16384, 32768, 0],
  [22409, 32768, 0],
  [21012, 32768, 0],
  [15650, 32768, 0],
  [17395, 32768, 0],
  [15469, 32768, 0],
  [20205, 32768, 0],
  [19511, 32768, 0],
  [16384, 32768, 0],
  [16384, 32768, 0],
  [24220, 32768, 0],
  [22480, 32768, 0],
  [17737, 32768, 0],
  [18916, 32768, 0],
  [19268, 32768, 0],
  [18412, 32768, 0],
  [18844, 32768, 0],
  [16384, 32768, 0],
  [16384, 32768, 0],
  [25991, 32768, 0],
  [20314, 32768, 0],
  [17731, 32768, 0],
  [19678, 32768, 0],
  [18649, 32768, 0],
  [17307, 32768, 0],
  [21798, 32768, 0],
  [17549, 32768, 0],
  [15630, 32768, 0],
  [26585, 32768, 0],
  [21469, 32768, 0],
  [20432, 32768, 0],
  [17735, 32768, 0],
  [19280, 32768, 0],
  [15235, 32768, 0],
  [20297, 32768, 0],
  [22471, 32768, 0],
  [28997, 32768, 0],
  [26605, 32768, 0],
  [11304, 32768, 0],
  [16726, 32768, 0],
  [16560, 32768, 0],
  [20866, 32768, 0],
  [23524, 32768, 0],
  [19878, 32768, 0],
  [13469, 32768, 0],
  [23084, 32768, 0],
  [16384, 32768, 0],
  [16384, 32768, 0],
  [16384, 32768, 0],
  [16384, 32768, 0],
  [16384, 32768, 0],
  [16384, 32768, 0],
  [16384, 32768, 0],
  [16384, 32768, 0],
  [16384, 32768, 0]]

/-- internal/uncompressedheader/cdf.go:4922-6851 `DEFAULT_EOB_EXTRA_CDF[2]` ([][][][][]int, leaves in index order; outer dimensions [4, 5, 2, 9]). -/
def defaultEobExtraCdf2 : List (List Nat) := [
  [18983, 32768, 0],
  [20512, 32768, 0],
  [14885, 32768, 0],
  [16384, 32768, 0],
  [16384, 32768, 0],
  [16384, 32768, 0],
  [16384, 32768, 0],
  [16384, 32768, 0],
  [16384, 32768, 0],
  [20090, 32768, 0],
  [19444, 32768, 0],
  [17286, 32768, 0],
  [16384, 32768, 0],
  [16384, 32768, 0],
  [16384, 32768, 0],
  [16384, 32768, 0],
  [16384, 32768, 0],
  [16384, 32768, 0],
  [19139, 32768, 0],
  [21487, 32768, 0],
  [18959, 32768, 0],
  [20910, 32768, 0],
  [19089, 32768, 0],
  [16384, 32768, 0],
  [16384, 32768, 0],
  [16384, 32768, 0],
  [16384, 32768, 0],
  [20536, 32768, 0],
  [20664, 32768, 0],
  [20625, 32768, 0],
  [19123, 32768, 0],
  [14862, 32768, 0],
  [16384, 32768, 0],
  [16384, 32768, 0],
  [16384, 32768, 0],
  [16384, 32768, 0],
  [19833, 32768, 0],
  [21502, 32768, 0],
  [17485, 32768, 0],
  [20267, 32768, 0],
  [18353, 32768, 0],
  [23329, 32768, 0],
  [21478, 32768, 0],
  [16384, 32768, 0],
  [16384, 32768, 0],
  [22041, 32768, 0],
  [23434, 32768, 0],
  [20001, 32768, 0],
  [20554, 32768, 0],
  [20951, 32768, 0],
  [20145, 32768, 0],
  [15562, 32768, 0],
  [16384, 32768, 0],
  [16384, 32768, 0],
  [23312, 32768, 0],
  [21607, 32768, 0],
  [16526, 32768, 0],
  [18957, 32768, 0],
  [18034, 32768, 0],
  [18934, 32768, 0],
  [24247, 32768, 0],
  [16921, 32768, 0],
  [17080, 32768, 0],
  [26579, 32768, 0],
  [24910, 32768, 0],
  [18637, 32768, 0],
  [19800, 32768, 0],
  [20388, 32768, 0],
  [9887, 32768, 0],
  [15642, 32768, 0],
  [30198, 32768, 0],
  [24721, 32768, 0],
  [26998, 32768, 0],
  [16737, 32768, 0],
  [17838, 32768, 0],
  [18922, 32768, 0],
  [19515, 32768, 0],
  [18636, 32768, 0],
  [17333, 32768, 0],
  [15776, 32768, 0],
  [22658, 32768, 0],
  [16384, 32768, 0],
  [16384, 32768, 0],
  [16384, 32768, 0],
  [16384, 32768, 0],
  [16384, 32768, 0],
  [16384, 32768, 0],
  [16384, 32768, 0],
  [16384, 32768, 0],
  [16384, 32768, 0]]

/-- internal/uncompressedheader/cdf.go:4922-6851 `DEFAULT_EOB_EXTRA_CDF[3]` ([][][][][]int, leaves in index order; outer dimensions [4, 5, 2, 9]). -/
def defaultEobExtraCdf3 : List (List Nat) := [
  [20177, 32768, 0],
  [20789, 32768, 0],
  [20262, 32768, 0],
  [16384, 32768, 0],
  [16384, 32768, 0],
  [16384, 32768, 0],
  [16384, 32768, 0],
  [16384, 32768, 0],
  [16384, 32768, 0],
  [21416, 32768, 0],
  [20855, 32768, 0],
  [23410, 32768, 0],
  [16384, 32768, 0],
  [16384, 32768, 0],
  [16384, 32768, 0],
  [16384, 32768, 0],
  [16384, 32768, 0],
  [16384, 32768, 0],
  [20238, 32768, 0],
  [21057, 32768, 0],
  [19159, 32768, 0],
  [22337, 32768, 0],
  [20159, 32768, 0],
  [16384, 32768, 0],
  [16384, 32768, 0],
  [16384, 32768, 0],
  [16384, 32768, 0],
  [20125, 32768, 0],
  [20559, 32768, 0],
  [21707, 32768, 0],
  [22296, 32768, 0],
  [17333, 32768, 0],
  [16384, 32768, 0],
  [16384, 32768, 0],
  [16384, 32768, 0],
  [16384, 32768, 0],
  [19941, 32768, 0],
  [20527, 32768, 0],
  [21470, 32768, 0],
  [22487, 32768, 0],
  [19558, 32768, 0],
  [22354, 32768, 0],
  [20331, 32768, 0],
  [16384, 32768, 0],
  [16384, 32768, 0],
  [22752, 32768, 0],
  [25006, 32768, 0],
  [22075, 32768, 0],
  [21576, 32768, 0],
  [17740, 32768, 0],
  [21690, 32768, 0],
  [19211, 32768, 0],
  [16384, 32768, 0],
  [16384, 32768, 0],
  [21442, 32768, 0],
  [22358, 32768, 0],
  [18503, 32768, 0],
  [20291, 32768, 0],
  [19945, 32768, 0],
  [21294, 32768, 0],
  [21178, 32768, 0],
  [19400, 32768, 0],
  [10556, 32768, 0],
  [24648, 32768, 0],
  [24949, 32768, 0],
  [20708, 32768, 0],
  [23905, 32768, 0],
  [20501, 32768, 0],
  [9558, 32768, 0],
  [9423, 32768, 0],
  [30365, 32768, 0],
  [19253, 32768, 0],
  [26064, 32768, 0],
  [22098, 32768, 0],
  [19613, 32768, 0],
  [20525, 32768, 0],
  [17595, 32768, 0],
  [16618, 32768, 0],
  [20497, 32768, 0],
  [18989, 32768, 0],
  [15513, 32768, 0],
  [16384, 32768, 0],
  [16384, 32768, 0],
  [16384, 32768, 0],
  [16384, 32768, 0],
  [16384, 32768, 0],
  [16384, 32768, 0],
  [16384, 32768, 0],
  [16384, 32768, 0],
  [16384, 32768, 0]]

/-- internal/uncompressedheader/cdf.go:6853-6902 `DEFAULT_DC_SIGN_CDF[0]` ([][][][]int, leaves in index order; outer dimensions [4, 2, 3]). -/
def defaultDcSignCdf0 : List (List Nat) := [
  [16000, 32768, 0],
  [13056, 32768, 0],
  [18816, 32768, 0],
  [15232, 32768, 0],
  [12928, 32768, 0],
  [17280, 32768, 0]]

/-- internal/uncompressedheader/cdf.go:6853-6902 `DEFAULT_DC_SIGN_CDF[1]` ([][][][]int, leaves in index order; outer dimensions [4, 2, 3]). -/
def defaultDcSignCdf1 : List (List Nat) := [
  [16000, 32768, 0],
  [13056, 32768, 0],
  [18816, 32768, 0],
  [15232, 32768, 0],
  [12928, 32768, 0],
  [17280, 32768, 0]]

/-- internal/uncompressedheader/cdf.go:6853-6902 `DEFAULT_DC_SIGN_CDF[2]` ([][][][]int, leaves in index order; outer dimensions [4, 2, 3]). -/
def defaultDcSignCdf2 : List (List Nat) := [
  [16000, 32768, 0],
  [13056, 32768, 0],
  [18816, 32768, 0],
  [15232, 32768, 0],
  [12928, 32768, 0],
  [17280, 32768, 0]]

/-- internal/uncompressedheader/cdf.go:6853-6902 `DEFAULT_DC_SIGN_CDF[3]` ([][][][]int, leaves in index order; outer dimensions [4, 2, 3]). -/
def defaultDcSignCdf3 : List (List Nat) := [
  [16000, 32768, 0],
  [13056, 32768, 0],
  [18816, 32768, 0],
  [15232, 32768, 0],
  [12928, 32768, 0],
  [17280, 32768, 0]]

/-- internal/uncompressedheader/cdf.go:6904-7993 `DEFAULT_COEFF_BASE_EOB_CDF[0]` ([][][][][]int, leaves in index order; outer dimensions [4, 5, 2, 4]). -/
def defaultCoeffBaseEobCdf0 : List (List Nat) := [
  [17837, 29055, 32768, 0],
  [29600, 31446, 32768, 0],
  [30844, 31878, 32768, 0],
  [24926, 28948, 32768, 0],
  [21365, 30026, 32768, 0],
  [30512, 32423, 32768, 0],
  [31658, 32621, 32768, 0],
  [29630, 31881, 32768, 0],
  [5717, 26477, 32768, 0],
  [30491, 31703, 32768, 0],
  [31550, 32158, 32768, 0],
  [29648, 31491, 32768, 0],
  [12608, 27820, 32768, 0],
  [30680, 32225, 32768, 0],
  [30809, 32335, 32768, 0],
  [31299, 32423, 32768, 0],
  [1786, 12612, 32768, 0],
  [30663, 31625, 32768, 0],
  [32339, 32468, 32768, 0],
  [31148, 31833, 32768, 0],
  [18857, 23865, 32768, 0],
  [31428, 32428, 32768, 0],
  [31744, 32373, 32768, 0],
  [31775, 32526, 32768, 0],
  [1787, 2532, 32768, 0],
  [30832, 31662, 32768, 0],
  [31824, 32682, 32768, 0],
  [32133, 32569, 32768, 0],
  [13751, 22235, 32768, 0],
  [32089, 32409, 32768, 0],
  [27084, 27920, 32768, 0],
  [29291, 32594, 32768, 0],
  [1725, 3449, 32768, 0],
  [31102, 31935, 32768, 0],
  [32457, 32613, 32768, 0],
  [32412, 32649, 32768, 0],
  [10923, 21845, 32768, 0],
  [10923, 21845, 32768, 0],
  [10923, 21845, 32768, 0],
  [10923, 21845, 32768, 0]]

/-- internal/uncompressedheader/cdf.go:6904-7993 `DEFAULT_COEFF_BASE_EOB_CDF[1]` ([][][][][]int, leaves in index order; outer dimensions [4, 5, 2, 4]). -/
def defaultCoeffBaseEobCdf1 : List (List Nat) := [
  [17560, 29888, 32768, 0],
  [29671, 31549, 32768, 0],
  [31007, 32056, 32768, 0],
  [27286, 30006, 32768, 0],
  [26594, 31212, 32768, 0],
  [31208, 32582, 32768, 0],
  [31835, 32637, 32768, 0],
  [30595, 32206, 32768, 0],
  [15239, 29932, 32768, 0],
  [31315, 32095, 32768, 0],
  [32130, 32434, 32768, 0],
  [30864, 31996, 32768, 0],
  [26279, 30968, 32768, 0],
  [31142, 32495, 32768, 0],
  [31713, 32540, 32768, 0],
  [31929, 32594, 32768, 0],
  [2644, 25198, 32768, 0],
  [32038, 32451, 32768, 0],
  [32639, 32695, 32768, 0],
  [32166, 32518, 32768, 0],
  [17187, 27668, 32768, 0],
  [31714, 32550, 32768, 0],
  [32283, 32678, 32768, 0],
  [31930, 32563, 32768, 0],
  [1044, 2257, 32768, 0],
  [30755, 31923, 32768, 0],
  [32208, 32693, 32768, 0],
  [32244, 32615, 32768, 0],
  [21317, 26207, 32768, 0],
  [29133, 30868, 32768, 0],
  [29311, 31231, 32768, 0],
  [29657, 31087, 32768, 0],
  [478, 1834, 32768, 0],
  [31005, 31987, 32768, 0],
  [32317, 32724, 32768, 0],
  [30865, 32648, 32768, 0],
  [10923, 21845, 32768, 0],
  [10923, 21845, 32768, 0],
  [10923, 21845, 32768, 0],
  [10923, 21845, 32768, 0]]

/-- internal/uncompressedheader/cdf.go:6904-7993 `DEFAULT_COEFF_BASE_EOB_CDF[2]` ([][][][][]int, leaves in index order; outer dimensions [4, 5, 2, 4]). -/
def defaultCoeffBaseEobCdf2 : List (List Nat) := [
  [20092, 30774, 32768, 0],
  [30695, 32020, 32768, 0],
  [31131, 32103, 32768, 0],
  [28666, 30870, 32768, 0],
  [27258, 31095, 32768, 0],
  [31804, 32623, 32768, 0],
  [31763, 32528, 32768, 0],
  [31438, 32506, 32768, 0],
  [18049, 30489, 32768, 0],
  [31706, 32286, 32768, 0],
  [32163, 32473, 32768, 0],
  [31550, 32184, 32768, 0],
  [27116, 30842, 32768, 0],
  [31971, 32598, 32768, 0],
  [32088, 32576, 32768, 0],
  [32067, 32664, 32768, 0],
  [12854, 29093, 32768, 0],
  [32272, 32558, 32768, 0],
  [32667, 32729, 32768, 0],
  [32306, 32585, 32768, 0],
  [25476, 30366, 32768, 0],
  [32169, 32687, 32768, 0],
  [32479, 32689, 32768, 0],
  [31673, 32634, 32768, 0],
  [2809, 19301, 32768, 0],
  [32205, 32622, 32768, 0],
  [32338, 32730, 32768, 0],
  [31786, 32616, 32768, 0],
  [22737, 29105, 32768, 0],
  [30810, 32362, 32768, 0],
  [30014, 32627, 32768, 0],
  [30528, 32574, 32768, 0],
  [935, 3382, 32768, 0],
  [30789, 31909, 32768, 0],
  [32466, 32756, 32768, 0],
  [30860, 32513, 32768, 0],
  [10923, 21845, 32768, 0],
  [10923, 21845, 32768, 0],
  [10923, 21845, 32768, 0],
  [10923, 21845, 32768, 0]]

/-- internal/uncompressedheader/cdf.go:6904-7993 `DEFAULT_COEFF_BASE_EOB_CDF[3]` ([][][][][]int, leaves in index order; outer dimensions [4, 5, 2, 4]). -/
def defaultCoeffBaseEobCdf3 : List (List Nat) := [
  [22497, 31198, 32768, 0],
  [31715, 32495, 32768, 0],
  [31606, 32337, 32768, 0],
  [30388, 31990, 32768, 0],
  [27877, 31584, 32768, 0],
  [32170, 32728, 32768, 0],
  [32155, 32688, 32768, 0],
  [32219, 32702, 32768, 0],
  [21457, 31043, 32768, 0],
  [31951, 32483, 32768, 0],
  [32153, 32562, 32768, 0],
  [31473, 32215, 32768, 0],
  [27558, 31151, 32768, 0],
  [32020, 32640, 32768, 0],
  [32097, 32575, 32768, 0],
  [32242, 32719, 32768, 0],
  [19980, 30591, 32768, 0],
  [32219, 32597, 32768, 0],
  [32581, 32706, 32768, 0],
  [31803, 32287, 32768, 0],
  [26473, 30507, 32768, 0],
  [32431, 32723, 32768, 0],
  [32196, 32611, 32768, 0],
  [31588, 32528, 32768, 0],
  [24647, 30463, 32768, 0],
  [32412, 32695, 32768, 0],
  [32468, 32720, 32768, 0],
  [31269, 32523, 32768, 0],
  [28482, 31505, 32768, 0],
  [32152, 32701, 32768, 0],
  [31732, 32598, 32768, 0],
  [31767, 32712, 32768, 0],
  [12358, 24977, 32768, 0],
  [31331, 32385, 32768, 0],
  [32634, 32756, 32768, 0],
  [30411, 32548, 32768, 0],
  [10923, 21845, 32768, 0],
  [10923, 21845, 32768, 0],
  [10923, 21845, 32768, 0],
  [10923, 21845, 32768, 0]]

end Gov1

import Verif.Model.Atmosphere
import Mathlib.Data.Rat.Cast.Order

/-
The twelve data files ADRpy/data/_MHDBK310/*.m310 (complete contents, 41 rows of 5 numbers each,
copied mechanically), and `mil_hdbk_310` (ADRpy/atmospheres.py:841-872).
-/

namespace Verif.Atmos
open Verif.Units

/-- A row of an m310 file: five numbers.
(the files of ADRpy/data/_MHDBK310, read by atmospheres.py:844-872) -/
abbrev Row5 := ℚ × ℚ × ℚ × ℚ × ℚ

/-- ADRpy/data/_MHDBK310/high_dens_at_10km.m310:1-41. The last field of the row for 50 km reads `263e-650` in the file,
which Python reads as 0.0 (underflow). -/
def high_dens_at_10km : List Row5 := [
  (0, 1.203, 295.150, 1.228, 289.150),
  (2, 0.9786, 287.567, 0.9948, 281.160),
  (4, 0.8035, 274.792, 0.8005, 273.175),
  (6, 0.6668, 260.756, 0.6596, 256.245),
  (8, 0.5331, 242.815, 0.5365, 239.298),
  (10, 0.4342, 224.884, 0.4298, 222.361),
  (12, 0.3442, 206.965, 0.3384, 205.436),
  (14, 0.2491, 205.673, 0.2433, 205.150),
  (16, 0.1797, 204.678, 0.1747, 205.150),
  (18, 0.1285, 205.360, 0.1243, 207.469),
  (20, 0.09144, 207.942, 0.08878, 209.853),
  (22, 0.06532, 210.522, 0.06366, 212.235),
  (24, 0.04686, 213.101, 0.04583, 214.615),
  (26, 0.03376, 215.678, 0.03311, 216.994),
  (28, 0.02430, 219.356, 0.02402, 219.372),
  (30, 0.01751, 224.503, 0.01748, 221.748),
  (32, 0.01271, 229.648, 0.01277, 224.122),
  (34, 0.009294, 234.789, 0.009366, 226.495),
  (36, 0.006843, 239.926, 0.006891, 228.867),
  (38, 0.005072, 245.062, 0.005027, 234.368),
  (40, 0.003784, 250.192, 0.003690, 240.289),
  (42, 0.002840, 255.321, 0.002730, 246.207),
  (44, 0.002176, 256.150, 0.002034, 252.121),
  (46, 0.001673, 256.150, 0.001527, 258.032),
  (48, 0.001287, 256.150, 0.001154, 263.650),
  (50, 0.0009901, 256.150, 0.0008949, 0),
  (52, 0.0007695, 253.254, 0.0006938, 263.583),
  (54, 0.0005980, 249.520, 0.0005456, 259.260),
  (56, 0.0004630, 245.789, 0.0004274, 254.939),
  (58, 0.0003571, 242.060, 0.0003334, 250.621),
  (60, 0.0002744, 238.334, 0.0002591, 246.306),
  (62, 0.0002100, 234.609, 0.0002004, 241.993),
  (64, 0.0001601, 230.888, 0.0001543, 237.683),
  (66, 0.0001215, 227.168, 0.0001183, 233.276),
  (68, 0.00009182, 223.451, 0.00009031, 229.071),
  (70, 0.00006907, 219.736, 0.00006853, 224.890),
  (72, 0.00005125, 218.150, 0.00005150, 221.959),
  (74, 0.00003775, 218.150, 0.00003856, 219.029),
  (76, 0.00002781, 218.103, 0.00002876, 216.102),
  (78, 0.00002081, 214.202, 0.00002138, 213.176),
  (80, 0.00001548, 210.304, 0.00001582, 210.252)]

/-- ADRpy/data/_MHDBK310/high_dens_at_20km.m310:1-41. -/
def high_dens_at_20km : List Row5 := [
  (0, 1.169, 301.150, 1.169, 301.150),
  (2, 0.9609, 291.179, 0.9639, 290.182),
  (4, 0.7843, 281.214, 0.7886, 279.221),
  (6, 0.6356, 271.256, 0.6401, 268.267),
  (8, 0.5110, 261.304, 0.5152, 257.319),
  (10, 0.4160, 245.483, 0.4180, 241.483),
  (12, 0.3342, 229.580, 0.3345, 225.580),
  (14, 0.2643, 213.687, 0.2634, 209.687),
  (16, 0.2053, 197.803, 0.2038, 193.803),
  (18, 0.1475, 193.482, 0.1455, 189.211),
  (20, 0.09994, 203.000, 0.09795, 198.134),
  (22, 0.06891, 212.512, 0.06710, 207.652),
  (24, 0.04929, 216.845, 0.04711, 214.014),
  (26, 0.03554, 220.803, 0.03377, 218.369),
  (28, 0.02578, 224.759, 0.02437, 222.720),
  (30, 0.01880, 228.712, 0.01770, 227.069),
  (32, 0.01380, 232.663, 0.01294, 231.415),
  (34, 0.01017, 236.612, 0.009519, 235.758),
  (36, 0.007548, 240.558, 0.007033, 240.363),
  (38, 0.005603, 245.514, 0.005186, 247.264),
  (40, 0.004159, 252.411, 0.003857, 254.161),
  (42, 0.003112, 259.303, 0.002892, 261.053),
  (44, 0.002347, 266.191, 0.002185, 267.941),
  (46, 0.001795, 271.150, 0.001664, 274.650),
  (48, 0.001401, 271.150, 0.001303, 274.650),
  (50, 0.001094, 271.150, 0.001020, 274.650),
  (52, 0.0008710, 265.321, 0.0008106, 270.610),
  (54, 0.0006899, 259.435, 0.0006442, 265.116),
  (56, 0.0005437, 253.554, 0.0005096, 259.627),
  (58, 0.0004261, 247.675, 0.0004012, 254.140),
  (60, 0.0003321, 241.801, 0.0003142, 248.657),
  (62, 0.0002572, 235.930, 0.0002448, 243.178),
  (64, 0.0001980, 230.063, 0.0001897, 237.702),
  (66, 0.0001514, 224.199, 0.0001461, 232.229),
  (68, 0.0001150, 218.339, 0.0001118, 226.760),
  (70, 0.00008673, 212.483, 0.00008514, 221.294),
  (72, 0.00006489, 206.631, 0.00006468, 214.624),
  (74, 0.00004815, 200.782, 0.00004893, 206.826),
  (76, 0.00003542, 194.937, 0.00003662, 199.032),
  (78, 0.00002582, 189.095, 0.00002710, 191.243),
  (80, 0.00001805, 190.448, 0.00001911, 191.549)]

/-- ADRpy/data/_MHDBK310/high_dens_at_5km.m310:1-41. -/
def high_dens_at_5km : List Row5 := [
  (0, 1.431, 251.150, 1.509, 238.150),
  (2, 1.113, 245.142, 1.104, 247.129),
  (4, 0.8774, 234.117, 0.8739, 235.116),
  (6, 0.6774, 224.643, 0.6833, 223.110),
  (8, 0.5055, 221.652, 0.5270, 211.159),
  (10, 0.3701, 222.650, 0.3772, 213.957),
  (12, 0.2714, 223.649, 0.2712, 216.753),
  (14, 0.1993, 224.646, 0.1977, 217.352),
  (16, 0.1469, 225.150, 0.1454, 215.756),
  (18, 0.1086, 225.150, 0.1067, 214.161),
  (20, 0.08030, 225.150, 0.07815, 212.567),
  (22, 0.05937, 225.150, 0.05711, 210.975),
  (24, 0.04390, 225.150, 0.04164, 209.383),
  (26, 0.03247, 225.150, 0.03030, 207.792),
  (28, 0.02402, 225.150, 0.02199, 206.202),
  (30, 0.01777, 225.150, 0.01535, 213.832),
  (32, 0.01295, 228.812, 0.01084, 221.771),
  (34, 0.009354, 236.941, 0.007752, 229.704),
  (36, 0.006829, 245.065, 0.005608, 237.634),
  (38, 0.003038, 253.184, 0.004101, 245.558),
  (40, 0.003753, 261.298, 0.003029, 253.477),
  (42, 0.002854, 266.150, 0.002270, 260.150),
  (44, 0.002215, 266.150, 0.001751, 260.150),
  (46, 0.001718, 266.150, 0.001354, 259.310),
  (48, 0.001334, 266.150, 0.001052, 257.138),
  (50, 0.001050, 261.917, 0.0008154, 254.967),
  (52, 0.0008259, 256.988, 0.0006307, 252.797),
  (54, 0.0006463, 252.062, 0.0004868, 250.629),
  (56, 0.0003034, 247.139, 0.0003740, 249.150),
  (58, 0.0003902, 242.219, 0.0002855, 249.150),
  (60, 0.0003010, 237.302, 0.0002180, 249.150),
  (62, 0.0002289, 234.645, 0.0001665, 249.150),
  (64, 0.0001732, 232.681, 0.0001271, 249.150),
  (66, 0.0001308, 230.718, 0.00009715, 249.150),
  (68, 0.00009855, 228.756, 0.00007423, 249.150),
  (70, 0.00007407, 226.795, 0.00005672, 249.150),
  (72, 0.00005596, 222.996, 0.00004391, 245.663),
  (74, 0.00004221, 218.297, 0.00003405, 240.570),
  (76, 0.000003165, 213.600, 0.00002626, 235.480),
  (78, 0.00002359, 208.906, 0.00002014, 230.393),
  (80, 0.00001746, 204.215, 0.00001536, 225.309)]

/-- ADRpy/data/_MHDBK310/high_temp_at_10km.m310:1-41. -/
def high_temp_at_10km : List Row5 := [
  (0, 299.150, 1.173, 300.650, 1.171),
  (2, 289.177, 0.9632, 289.682, 0.9651),
  (4, 279.210, 0.7850, 278.721, 0.7894),
  (6, 269.249, 0.6351, 267.767, 0.6405),
  (8, 259.295, 0.5098, 256.820, 0.5153),
  (10, 245.985, 0.4110, 243.005, 0.4152),
  (12, 229.084, 0.3315, 226.108, 0.3340),
  (14, 212.193, 0.2630, 209.221, 0.2642),
  (16, 195.314, 0.2048, 195.008, 0.2024),
  (18, 186.150, 0.1500, 189.610, 0.1457),
  (20, 202.781, 0.09710, 206.663, 0.09496),
  (22, 211.443, 0.06729, 211.757, 0.06709),
  (24, 216.197, 0.04795, 216.114, 0.04791),
  (26, 220.948, 0.03443, 220.468, 0.03445),
  (28, 225.696, 0.02490, 224.819, 0.02494),
  (30, 230.441, 0.01814, 229.168, 0.01817),
  (32, 235.183, 0.01330, 233.514, 0.01332),
  (34, 239.922, 0.009816, 237.357, 0.009825),
  (36, 244.659, 0.007287, 242.198, 0.007286),
  (38, 249.392, 0.005442, 246.535, 0.005433),
  (40, 254.122, 0.004087, 250.870, 0.004073),
  (42, 258.849, 0.003087, 255.203, 0.003069),
  (44, 263.574, 0.002343, 259.532, 0.002324),
  (46, 268.150, 0.001789, 263.859, 0.001768),
  (48, 268.150, 0.001392, 268.150, 0.001352),
  (50, 268.150, 0.001084, 268.150, 0.001052),
  (52, 268.150, 0.0008443, 268.150, 0.0008197),
  (54, 264.940, 0.0006650, 268.150, 0.0006384),
  (56, 258.077, 0.0005284, 262.555, 0.0005066),
  (58, 251.217, 0.0004173, 256.677, 0.0004004),
  (60, 244.362, 0.0003275, 250.803, 0.0003148),
  (62, 237.511, 0.0002552, 244.932, 0.0002461),
  (64, 230.664, 0.0001975, 239.065, 0.0001913),
  (66, 223.822, 0.0001517, 233.201, 0.0001478),
  (68, 216.984, 0.0001156, 227.893, 0.0001132),
  (70, 210.150, 0.00008736, 223.013, 0.00008610),
  (72, 203.320, 0.00006541, 218.136, 0.00006507),
  (74, 198.150, 0.00004811, 213.262, 0.00004887),
  (76, 198.150, 0.00003438, 208.391, 0.00003647),
  (78, 198.150, 0.00002457, 203.523, 0.00002703),
  (80, 198.150, 0.00001756, 198.658, 0.00001990)]

/-- ADRpy/data/_MHDBK310/high_temp_at_20km.m310:1-41. -/
def high_temp_at_20km : List Row5 := [
  (0, 228.150, 1.552, 273.150, 1.293),
  (2, 238.650, 1.110, 263.128, 1.040),
  (4, 231.113, 0.8575, 253.105, 0.8296),
  (6, 221.103, 0.6623, 241.094, 0.6603),
  (8, 216.150, 0.4947, 229.090, 0.5196),
  (10, 217.659, 0.3584, 228.701, 0.3847),
  (12, 219.657, 0.2599, 234.150, 0.2802),
  (14, 221.654, 0.1891, 234.150, 0.2094),
  (16, 223.650, 0.1379, 234.150, 0.1565),
  (18, 232.225, 0.09855, 234.150, 0.1170),
  (20, 240.796, 0.07126, 234.150, 0.08748),
  (22, 243.192, 0.05336, 234.150, 0.6542),
  (24, 239.210, 0.04092, 234.150, 0.04893),
  (26, 235.232, 0.03124, 234.150, 0.03660),
  (28, 231.255, 0.02375, 237.071, 0.02709),
  (30, 230.150, 0.01777, 240.051, 0.02013),
  (32, 230.150, 0.01323, 243.030, 0.01501),
  (34, 230.150, 0.009860, 247.720, 0.01117),
  (36, 230.150, 0.007346, 252.480, 0.008363),
  (38, 230.150, 0.005473, 257.932, 0.006277),
  (40, 230.150, 0.004079, 264.270, 0.004728),
  (42, 230.150, 0.003040, 270.605, 0.003585),
  (44, 230.150, 0.002267, 278.935, 0.002737),
  (46, 230.150, 0.001690, 283.262, 0.002102),
  (48, 232.791, 0.001248, 287.150, 0.001838),
  (50, 235.753, 0.0009242, 287.150, 0.001295),
  (52, 238.713, 0.0006870, 287.150, 0.001024),
  (54, 241.671, 0.0005126, 284.317, 0.0008174),
  (56, 240.994, 0.0003890, 279.587, 0.0006547),
  (58, 239.615, 0.0002957, 274.859, 0.0005224),
  (60, 238.237, 0.0002244, 270.135, 0.0004153),
  (62, 236.860, 0.0001701, 285.414, 0.0003288),
  (64, 235.484, 0.0001287, 260.696, 0.0002593),
  (66, 235.150, 0.00009693, 253.933, 0.0002053),
  (68, 235.150, 0.00007287, 240.974, 0.0001649),
  (70, 235.150, 0.00005480, 228.023, 0.0001309),
  (72, 233.501, 0.00004147, 215.079, 0.0001026),
  (74, 231.149, 0.00003140, 202.144, 0.00007919),
  (76, 228.799, 0.00002371, 189.217, 0.00006009),
  (78, 226.450, 0.00001786, 178.298, 0.00004472),
  (80, 224.102, 0.00001341, 163.387, 0.00003255)]

/-- ADRpy/data/_MHDBK310/high_temp_at_5km.m310:1-41. -/
def high_temp_at_5km : List Row5 := [
  (0, 290.150, 1.215, 291.650, 1.209),
  (2, 294.163, 0.9506, 291.133, 0.9571),
  (4, 284.183, 0.7773, 283.190, 0.7761),
  (6, 272.745, 0.6343, 268.276, 0.6399),
  (8, 256.796, 0.5209, 253.337, 0.5220),
  (10, 240.858, 0.4224, 238.407, 0.4206),
  (12, 224.930, 0.3377, 223.496, 0.3343),
  (14, 210.558, 0.2637, 208.575, 0.2615),
  (16, 201.411, 0.1982, 193.674, 0.2009),
  (18, 204.873, 0.1392, 196.813, 0.1393),
  (20, 212.817, 0.09689, 204.751, 0.09559),
  (22, 216.953, 0.06933, 212.683, 0.06651),
  (24, 220.920, 0.04996, 217.607, 0.04748),
  (26, 224.885, 0.03622, 221.173, 0.03432),
  (28, 228.847, 0.02641, 224.735, 0.02494),
  (30, 232.806, 0.01937, 228.296, 0.01821),
  (32, 236.763, 0.01428, 231.855, 0.01337),
  (34, 240.718, 0.01058, 235.411, 0.009868),
  (36, 244.670, 0.007885, 238.965, 0.007315),
  (38, 248.620, 0.005902, 242.517, 0.005447),
  (40, 252.567, 0.004439, 246.066, 0.004074),
  (42, 256.512, 0.003354, 249.613, 0.003061),
  (44, 260.454, 0.002546, 253.159, 0.002309),
  (46, 264.394, 0.001940, 256.701, 0.001749),
  (48, 266.150, 0.001496, 260.150, 0.001331),
  (50, 266.150, 0.001162, 260.150, 0.001028),
  (52, 262.796, 0.0009138, 260.150, 0.0007945),
  (54, 258.473, 0.0007181, 260.150, 0.0006139),
  (56, 253.609, 0.0005633, 254.522, 0.0004839),
  (58, 246.936, 0.0004425, 246.679, 0.0003822),
  (60, 240.268, 0.0003454, 238.840, 0.0002996),
  (62, 233.604, 0.0002678, 231.006, 0.0002330),
  (64, 226.943, 0.0002061, 223.177, 0.0001796),
  (66, 220.287, 0.0001574, 215.353, 0.0001372),
  (68, 213.636, 0.0001193, 210.419, 0.0001025),
  (70, 206.988, 0.00008965, 207.489, 0.00007557),
  (72, 202.695, 0.00006603, 204.560, 0.00005545),
  (74, 200.156, 0.00004801, 201.634, 0.00004052),
  (76, 197.619, 0.00003478, 198.709, 0.00002947),
  (78, 195.084, 0.00002509, 195.786, 0.00002134),
  (80, 192.550, 0.00001803, 192.864, 0.00001538)]

/-- ADRpy/data/_MHDBK310/low_dens_at_10km.m310:1-41. -/
def low_dens_at_10km : List Row5 := [
  (0, 1.545, 228.150, 1.448, 243.150),
  (2, 1.143, 229.142, 1.102, 241.338),
  (4, 0.8676, 223.165, 0.8601, 231.732),
  (6, 0.6200, 231.152, 0.6639, 222.154),
  (8, 0.4597, 232.151, 0.4838, 224.553),
  (10, 0.3413, 233.150, 0.3538, 226.950),
  (12, 0.2548, 233.150, 0.2609, 228.150),
  (14, 0.1908, 232.364, 0.1935, 228.150),
  (16, 0.1440, 229.174, 0.1441, 227.165),
  (18, 0.1083, 225.986, 0.1076, 225.173),
  (20, 0.08112, 222.799, 0.08018, 223.182),
  (22, 0.06052, 219.615, 0.05957, 221.192),
  (24, 0.04497, 216.433, 0.04415, 219.203),
  (26, 0.03327, 213.253, 0.03264, 217.215),
  (28, 0.02421, 213.150, 0.02397, 216.150),
  (30, 0.01761, 213.150, 0.01752, 216.150),
  (32, 0.01281, 213.150, 0.01280, 216.150),
  (34, 0.009328, 213.150, 0.009360, 216.150),
  (36, 0.006790, 213.150, 0.006696, 221.710),
  (38, 0.004943, 213.150, 0.004826, 227.650),
  (40, 0.003548, 216.777, 0.003508, 233.587),
  (42, 0.002558, 220.732, 0.002571, 239.520),
  (44, 0.001856, 224.685, 0.001899, 245.449),
  (46, 0.001354, 228.636, 0.001413, 251.374),
  (48, 0.0009939, 232.583, 0.001059, 257.296),
  (50, 0.0007332, 236.529, 0.0008132, 258.150),
  (52, 0.0005438, 240.472, 0.0006264, 258.150),
  (54, 0.0004053, 244.412, 0.0004843, 257.206),
  (56, 0.0003039, 248.030, 0.0003766, 254.252),
  (58, 0.0002337, 245.668, 0.0002921, 251.301),
  (60, 0.0001792, 243.308, 0.0002258, 248.351),
  (62, 0.0001360, 243.250, 0.0001741, 245.403),
  (64, 0.0001024, 245.410, 0.0001338, 242.457),
  (66, 0.00007735, 247.570, 0.0001025, 239.768),
  (68, 0.00005856, 249.728, 0.00007800, 238.002),
  (70, 0.00004445, 251.884, 0.00005924, 236.238),
  (72, 0.00003404, 252.342, 0.00004491, 234.474),
  (74, 0.00002629, 250.384, 0.00003398, 232.712),
  (76, 0.00002027, 248.427, 0.00002566, 230.951),
  (78, 0.00001559, 248.471, 0.00001934, 229.191),
  (80, 0.00001197, 244.517, 0.00001455, 227.432)]

/-- ADRpy/data/_MHDBK310/low_dens_at_20km.m310:1-41. -/
def low_dens_at_20km : List Row5 := [
  (0, 1.502, 235.150, 1.537, 230.150),
  (2, 1.093, 243.632, 1.125, 235.137),
  (4, 0.8690, 229.623, 0.8600, 229.114),
  (6, 0.6808, 215.623, 0.6627, 219.105),
  (8, 0.5052, 210.154, 0.5045, 209.150),
  (10, 0.3608, 213.150, 0.3639, 209.150),
  (12, 0.2620, 213.150, 0.2626, 209.137),
  (14, 0.1903, 213.150, 0.1926, 205.143),
  (16, 0.1362, 216.598, 0.1397, 202.150),
  (18, 0.09686, 223.572, 0.09979, 202.150),
  (20, 0.06741, 239.403, 0.07125, 202.150),
  (22, 0.04882, 250.961, 0.05000, 206.061),
  (24, 0.03763, 247.978, 0.03482, 214.023),
  (26, 0.02891, 244.997, 0.02458, 221.980),
  (28, 0.02215, 242.017, 0.01757, 229.932),
  (30, 0.01691, 239.040, 0.01270, 237.879),
  (32, 0.01277, 238.150, 0.009288, 245.821),
  (34, 0.009615, 238.150, 0.006885, 252.753),
  (36, 0.007236, 238.150, 0.005213, 255.727),
  (38, 0.005447, 238.150, 0.003961, 258.700),
  (40, 0.004100, 238.150, 0.003019, 261.761),
  (42, 0.003087, 238.150, 0.002315, 263.889),
  (44, 0.002311, 239.685, 0.001801, 262.306),
  (46, 0.001720, 243.636, 0.001400, 260.725),
  (48, 0.001286, 247.583, 0.001086, 259.144),
  (50, 0.0009663, 251.529, 0.0008419, 257.565),
  (52, 0.0007303, 255.150, 0.0006515, 255.986),
  (54, 0.0005339, 255.150, 0.0005034, 254.409),
  (56, 0.0004349, 252.590, 0.0003885, 252.832),
  (58, 0.0003369, 249.441, 0.0002993, 251.256),
  (60, 0.0002602, 246.295, 0.0002317, 248.101),
  (62, 0.0002003, 243.150, 0.0001810, 241.217),
  (64, 0.0001537, 240.007, 0.0001405, 234.336),
  (66, 0.0001168, 238.437, 0.0001074, 229.150),
  (68, 0.00008855, 237.456, 0.00008021, 229.150),
  (70, 0.00006703, 236.475, 0.00005986, 229.150),
  (72, 0.00005081, 234.842, 0.00004493, 227.781),
  (74, 0.00003849, 232.884, 0.00003373, 225.821),
  (76, 0.00002909, 230.927, 0.00002527, 223.862),
  (78, 0.00002194, 228.971, 0.00001888, 221.905),
  (80, 0.00001651, 227.017, 0.00001408, 219.949)]

/-- ADRpy/data/_MHDBK310/low_dens_at_5km.m310:1-41. -/
def low_dens_at_5km : List Row5 := [
  (0, 1.239, 281.650, 1.219, 289.150),
  (2, 0.9881, 276.647, 0.9641, 289.158),
  (4, 0.7617, 280.148, 0.7757, 283.170),
  (6, 0.6285, 264.162, 0.6395, 268.554),
  (8, 0.5125, 248.187, 0.5263, 251.011),
  (10, 0.4123, 232.221, 0.4272, 233.479),
  (12, 0.3267, 216.265, 0.3411, 215.958),
  (14, 0.2455, 208.150, 0.2571, 207.831),
  (16, 0.1770, 208.150, 0.1883, 203.650),
  (18, 0.1268, 209.592, 0.1349, 203.650),
  (20, 0.09067, 212.577, 0.09376, 211.317),
  (22, 0.06510, 215.559, 0.06661, 216.912),
  (24, 0.04697, 218.539, 0.04821, 219.689),
  (26, 0.03404, 221.518, 0.03505, 222.464),
  (28, 0.02478, 224.495, 0.02558, 225.238),
  (30, 0.01312, 227.470, 0.01875, 228.009),
  (32, 0.01331, 230.443, 0.01380, 230.779),
  (34, 0.009815, 233.414, 0.01019, 233.548),
  (36, 0.007195, 239.116, 0.007558, 236.314),
  (38, 0.005310, 245.051, 0.005668, 241.855),
  (40, 0.003949, 250.982, 0.004126, 247.776),
  (42, 0.002957, 256.910, 0.003080, 253.693),
  (44, 0.002229, 262.833, 0.002315, 259.607),
  (46, 0.001692, 268.753, 0.001752, 265.516),
  (48, 0.001307, 271.150, 0.001355, 266.650),
  (50, 0.001032, 267.717, 0.001057, 265.534),
  (52, 0.0008186, 261.808, 0.0008321, 261.601),
  (54, 0.0006458, 255.903, 0.0006523, 257.671),
  (56, 0.0005068, 250.002, 0.0005095, 253.744),
  (58, 0.0003955, 244.104, 0.0003965, 249.818),
  (60, 0.0003068, 238.209, 0.0003074, 245.896),
  (62, 0.0002365, 232.319, 0.0002393, 239.836),
  (64, 0.0001812, 226.432, 0.0001857, 232.784),
  (66, 0.0001378, 220.548, 0.0001431, 225.737),
  (68, 0.0001041, 214.669, 0.0001093, 218.694),
  (70, 0.00007803, 208.793, 0.00008232, 211.655),
  (72, 0.00005802, 202.920, 0.00006143, 207.307),
  (74, 0.00004277, 197.052, 0.00004495, 204.963),
  (76, 0.00003125, 191.187, 0.00003278, 202.622),
  (78, 0.00002261, 185.325, 0.00002382, 200.281),
  (80, 0.00001620, 179.468, 0.00001725, 197.942)]

/-- ADRpy/data/_MHDBK310/low_temp_at_10km.m310:1-41. -/
def low_temp_at_10km : List Row5 := [
  (0, 237.150, 1.497, 246.150, 1.438),
  (2, 259.625, 1.043, 258.124, 1.048),
  (4, 247.607, 0.8349, 246.105, 0.8385),
  (6, 233.074, 0.6678, 232.681, 0.6667),
  (8, 216.070, 0.5312, 217.876, 0.5256),
  (10, 199.159, 0.4147, 203.150, 0.4074),
  (12, 201.150, 0.2922, 203.137, 0.2912),
  (14, 201.150, 0.2079, 199.542, 0.2112),
  (16, 201.150, 0.1482, 195.950, 0.1523),
  (18, 201.150, 0.1056, 192.360, 0.1092),
  (20, 203.319, 0.07455, 188.773, 0.07790),
  (22, 207.701, 0.05241, 185.187, 0.05518),
  (24, 212.080, 0.03712, 188.105, 0.03773),
  (26, 216.456, 0.02648, 191.089, 0.02595),
  (28, 220.830, 0.01903, 194.071, 0.01796),
  (30, 225.201, 0.01376, 197.051, 0.01250),
  (32, 229.569, 0.01001, 202.882, 0.008638),
  (34, 233.934, 0.007338, 212.010, 0.005961),
  (36, 238.297, 0.005407, 221.132, 0.004180),
  (38, 240.470, 0.004040, 230.249, 0.002973),
  (40, 241.658, 0.003036, 239.361, 0.002144),
  (42, 242.846, 0.002285, 248.466, 0.001565),
  (44, 244.033, 0.001723, 257.566, 0.001156),
  (46, 245.219, 0.001301, 266.660, 0.0008630),
  (48, 246.404, 0.0009839, 275.749, 0.0006507),
  (50, 247.589, 0.0007452, 279.150, 0.0005045),
  (52, 248.773, 0.0005652, 279.150, 0.0003962),
  (54, 249.956, 0.0004294, 279.150, 0.0003113),
  (56, 251.139, 0.0003266, 279.150, 0.0002445),
  (58, 248.299, 0.0002526, 267.802, 0.0001995),
  (60, 242.394, 0.0001967, 254.024, 0.0001625),
  (62, 241.771, 0.0001493, 240.253, 0.0001309),
  (64, 242.557, 0.0001127, 226.491, 0.0001041),
  (66, 243.343, 0.00008529, 215.516, 0.00008065),
  (68, 244.128, 0.00006456, 212.964, 0.00005967),
  (70, 244.913, 0.00004892, 210.413, 0.00004400),
  (72, 244.055, 0.00003734, 207.863, 0.00003233),
  (74, 242.487, 0.00002854, 205.316, 0.00002367),
  (76, 240.920, 0.00002177, 203.150, 0.00001723),
  (78, 239.354, 0.00001659, 203.150, 0.00001241),
  (80, 237.789, 0.00001262, 203.150, 0.000008925)]

/-- ADRpy/data/_MHDBK310/low_temp_at_20km.m310:1-41. -/
def low_temp_at_20km : List Row5 := [
  (0, 236.650, 1.496, 240.150, 1.472),
  (2, 250.023, 1.072, 254.130, 1.054),
  (4, 237.604, 0.8525, 245.095, 0.8312),
  (6, 225.192, 0.6693, 230.482, 0.6629),
  (8, 212.788, 0.5183, 215.877, 0.5210),
  (10, 206.650, 0.3844, 207.136, 0.3922),
  (12, 206.631, 0.2763, 204.139, 0.2855),
  (14, 201.639, 0.2027, 201.144, 0.2069),
  (16, 196.650, 0.1476, 198.150, 0.1493),
  (18, 191.664, 0.1066, 195.159, 0.1072),
  (20, 186.682, 0.07637, 192.169, 0.07661),
  (22, 189.619, 0.05237, 192.150, 0.05377),
  (24, 192.605, 0.03612, 192.150, 0.03774),
  (26, 198.920, 0.02471, 196.068, 0.02606),
  (28, 205.282, 0.01711, 200.045, 0.01812),
  (30, 211.640, 0.01198, 204.019, 0.01270),
  (32, 217.994, 0.008484, 207.990, 0.008963),
  (34, 224.344, 0.006067, 211.959, 0.006368),
  (36, 230.690, 0.004380, 219.700, 0.004488),
  (38, 237.032, 0.003191, 227.628, 0.003200),
  (40, 243.370, 0.002345, 235.551, 0.002308),
  (42, 249.705, 0.001737, 243.468, 0.001684),
  (44, 256.035, 0.001297, 251.381, 0.001241),
  (46, 262.362, 0.0009754, 259.289, 0.0009237),
  (48, 264.650, 0.0007490, 264.150, 0.0007012),
  (50, 264.650, 0.0005805, 264.150, 0.0005432),
  (52, 264.650, 0.0004499, 264.150, 0.0004208),
  (54, 264.650, 0.0003488, 264.150, 0.0003261),
  (56, 263.152, 0.0002719, 262.977, 0.0002538),
  (58, 258.622, 0.0002138, 259.432, 0.0001988),
  (60, 254.094, 0.0001673, 255.889, 0.0001552),
  (62, 245.367, 0.0001325, 247.055, 0.0001231),
  (64, 235.537, 0.0001043, 236.832, 0.00009735),
  (66, 227.468, 0.00008082, 228.858, 0.00007543),
  (68, 224.719, 0.00006080, 227.679, 0.00005651),
  (70, 221.971, 0.00004559, 226.502, 0.00004228),
  (72, 219.226, 0.00003407, 223.951, 0.00003177),
  (74, 216.482, 0.00002537, 220.815, 0.00002384),
  (76, 213.740, 0.00001883, 217.681, 0.00001782),
  (78, 211.000, 0.00001392, 214.549, 0.00001327),
  (80, 208.261, 0.00001025, 211.420, 0.000009842)]

/-- ADRpy/data/_MHDBK310/low_temp_at_5km.m310:1-41. -/
def low_temp_at_5km : List Row5 := [
  (0, 220.150, 1.607, 229.650, 1.541),
  (2, 234.142, 1.124, 236.633, 1.117),
  (4, 224.860, 0.8698, 228.621, 0.8620),
  (6, 216.141, 0.6628, 219.105, 0.6628),
  (8, 214.141, 0.4869, 209.150, 0.5045),
  (10, 211.633, 0.3575, 209.150, 0.3640),
  (12, 207.637, 0.2631, 209.137, 0.2626),
  (14, 203.643, 0.1925, 205.143, 0.1926),
  (16, 199.652, 0.1400, 202.150, 0.1397),
  (18, 199.650, 0.09958, 202.150, 0.09979),
  (20, 199.650, 0.07080, 202.150, 0.07126),
  (22, 199.650, 0.05035, 206.061, 0.05000),
  (24, 207.129, 0.03474, 214.023, 0.03482),
  (26, 214.688, 0.02428, 221.980, 0.02458),
  (28, 222.243, 0.01719, 229.932, 0.01757),
  (30, 229.792, 0.01231, 237.879, 0.01270),
  (32, 237.337, 0.008916, 245.821, 0.009289),
  (34, 244.877, 0.006523, 252.753, 0.006886),
  (36, 250.612, 0.004850, 255.727, 0.005214),
  (38, 255.567, 0.003639, 258.700, 0.003961),
  (40, 260.518, 0.002747, 261.671, 0.003019),
  (42, 265.467, 0.002084, 263.889, 0.002315),
  (44, 269.650, 0.001594, 262.306, 0.001801),
  (46, 269.650, 0.001241, 260.725, 0.001400),
  (48, 268.438, 0.0009706, 259.144, 0.001086),
  (50, 265.279, 0.0007628, 257.565, 0.0008420),
  (52, 262.122, 0.0005978, 255.986, 0.0006516),
  (54, 258.967, 0.0004672, 254.409, 0.0005035),
  (56, 255.814, 0.0003641, 252.832, 0.0003885),
  (58, 252.663, 0.0002829, 251.256, 0.0002993),
  (60, 249.317, 0.0002193, 248.101, 0.0002317),
  (62, 241.646, 0.0001721, 241.217, 0.0001810),
  (64, 233.979, 0.0001340, 234.336, 0.0001405),
  (66, 230.150, 0.0001019, 229.150, 0.0001074),
  (68, 230.150, 0.00007615, 229.150, 0.00008021),
  (70, 230.150, 0.00005691, 229.150, 0.00005987),
  (72, 228.507, 0.00004281, 227.781, 0.00004493),
  (74, 226.155, 0.00003222, 225.821, 0.00003374),
  (76, 223.805, 0.00002418, 223.862, 0.00002527),
  (78, 221.456, 0.00001810, 221.905, 0.00001888),
  (80, 219.109, 0.00001350, 219.949, 0.00001408)]

/-- The directory: file name and contents.
(the files of ADRpy/data/_MHDBK310, named at atmospheres.py:844-856) -/
def milFiles : List (String × List Row5) := [
  ("high_dens_at_10km.m310", high_dens_at_10km),
  ("high_dens_at_20km.m310", high_dens_at_20km),
  ("high_dens_at_5km.m310", high_dens_at_5km),
  ("high_temp_at_10km.m310", high_temp_at_10km),
  ("high_temp_at_20km.m310", high_temp_at_20km),
  ("high_temp_at_5km.m310", high_temp_at_5km),
  ("low_dens_at_10km.m310", low_dens_at_10km),
  ("low_dens_at_20km.m310", low_dens_at_20km),
  ("low_dens_at_5km.m310", low_dens_at_5km),
  ("low_temp_at_10km.m310", low_temp_at_10km),
  ("low_temp_at_20km.m310", low_temp_at_20km),
  ("low_temp_at_5km.m310", low_temp_at_5km)]

/-- atmospheres.py:844-845: the file name; `alt_km` is the text `str(alt_km)`. -/
def milName (high_or_low temp_or_dens alt_km : String) : String :=
  high_or_low ++ "_" ++ temp_or_dens ++ "_at_" ++ alt_km ++ "km.m310"

/-- atmospheres.py:857-862: column order of the file, chosen by the second argument: (altitude,
temperature, density) of the 1 percent and of the 10 percent profile. -/
def milCols (temp_or_dens : String) (r : Row5) : (ℚ × ℚ × ℚ) × (ℚ × ℚ × ℚ) :=
  if temp_or_dens = "temp" then ((r.1, r.2.1, r.2.2.1), (r.1, r.2.2.2.1, r.2.2.2.2))
  else ((r.1, r.2.2.1, r.2.1), (r.1, r.2.2.2.2, r.2.2.2.1))

noncomputable section

/-- atmospheres.py:864-867: an Obsprofile from one profile's columns. -/
def milProfile (rows : List (ℚ × ℚ × ℚ)) : PyM Obs :=
  obsprofile (some (rows.map (fun r => km2m (r.1 : ℝ)))) (some (rows.map (fun r => (r.2.1 : ℝ))))
    (some (rows.map (fun r => (r.2.2 : ℝ)))) none

/-- atmospheres.py:841-872 (`mil_hdbk_310`). A combination without file gives (None, None), here
`none`. The fallback to a file of the same name in the current directory (lines 851-853) is not
modelled. -/
def mil_hdbk_310 (high_or_low temp_or_dens alt_km : String) : PyM (Option (Obs × Obs)) :=
  match milFiles.lookup (milName high_or_low temp_or_dens alt_km) with
  | none => .ok none
  | some rows => do
    let a ← milProfile (rows.map (fun r => (milCols temp_or_dens r).1))
    let b ← milProfile (rows.map (fun r => (milCols temp_or_dens r).2))
    pure (some (a, b))

end

end Verif.Atmos

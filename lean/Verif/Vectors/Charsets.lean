import Verif.Model.Cmd
import Verif.Model.Counter

/-!
The test tables of /repo, evaluated in the model.  Generated by tools/gen_vectors.py; do not edit.  These are
tests of the model's faithfulness: no claim of the manifest rests on them.
-/

namespace Verif.Vectors
open Verif.Model

/-! encoding/gsm7/charset/charset_test.go, languageTests. -/

example : ((Charset.NewDecoder 0).length = 128 ∧ ∀ p ∈ [(0, 64), (10, 10), (13, 13), (16, 916), (27, 27), (32, 32), (48, 48), (65, 65), (80, 80), (112, 112), (127, 224)], (Charset.NewDecoder 0).lookup p.1 = some p.2) ∧
    ((Charset.NewExtDecoder 0).length = 11 ∧ ∀ p ∈ [(10, 12), (47, 92), (64, 124), (101, 8364)], (Charset.NewExtDecoder 0).lookup p.1 = some p.2) ∧
    ((Charset.NewEncoder 0).length = 128 ∧ ∀ p ∈ [(64, 0), (10, 10), (13, 13), (916, 16), (27, 27), (32, 32), (48, 48), (65, 65), (80, 80), (112, 112), (224, 127)], (Charset.NewEncoder 0).lookup p.1 = some p.2) ∧
    ((Charset.NewExtEncoder 0).length = 11 ∧ ∀ p ∈ [(12, 10), (92, 47), (124, 64), (8364, 101)], (Charset.NewExtEncoder 0).lookup p.1 = some p.2) := by decide +kernel
example : ((Charset.NewDecoder 1).length = 128 ∧ ∀ p ∈ [(0, 64), (10, 10), (13, 13), (15, 229), (16, 916), (27, 27), (28, 350), (31, 201), (32, 32), (48, 48), (65, 65), (80, 80), (112, 112), (123, 228), (124, 246), (127, 224)], (Charset.NewDecoder 1).lookup p.1 = some p.2) ∧
    ((Charset.NewExtDecoder 1).length = 18 ∧ ∀ p ∈ [(10, 12), (47, 92), (64, 124), (71, 286), (101, 8364), (103, 287), (105, 305), (115, 351)], (Charset.NewExtDecoder 1).lookup p.1 = some p.2) ∧
    ((Charset.NewEncoder 1).length = 128 ∧ ∀ p ∈ [(64, 0), (10, 10), (13, 13), (229, 15), (916, 16), (27, 27), (350, 28), (201, 31), (32, 32), (48, 48), (65, 65), (80, 80), (112, 112), (228, 123), (246, 124), (224, 127)], (Charset.NewEncoder 1).lookup p.1 = some p.2) ∧
    ((Charset.NewExtEncoder 1).length = 18 ∧ ∀ p ∈ [(12, 10), (92, 47), (124, 64), (286, 71), (8364, 101), (287, 103), (305, 105), (351, 115)], (Charset.NewExtEncoder 1).lookup p.1 = some p.2) := by decide +kernel
example : ((Charset.NewDecoder 2).length = 128 ∧ ∀ p ∈ [(0, 64), (10, 10), (13, 13), (16, 916), (27, 27), (32, 32), (48, 48), (65, 65), (80, 80), (112, 112), (127, 224)], (Charset.NewDecoder 2).lookup p.1 = some p.2) ∧
    ((Charset.NewExtDecoder 2).length = 20 ∧ ∀ p ∈ [(10, 12), (47, 92), (64, 124), (79, 211), (101, 8364), (111, 243), (117, 250)], (Charset.NewExtDecoder 2).lookup p.1 = some p.2) ∧
    ((Charset.NewEncoder 2).length = 128 ∧ ∀ p ∈ [(64, 0), (10, 10), (13, 13), (916, 16), (27, 27), (32, 32), (48, 48), (65, 65), (80, 80), (112, 112), (224, 127)], (Charset.NewEncoder 2).lookup p.1 = some p.2) ∧
    ((Charset.NewExtEncoder 2).length = 20 ∧ ∀ p ∈ [(12, 10), (92, 47), (124, 64), (211, 79), (8364, 101), (243, 111), (250, 117)], (Charset.NewExtEncoder 2).lookup p.1 = some p.2) := by decide +kernel
-- portuguese.go:9-48 has 38 entries; the test expects 37 and so fails in /repo
example : ((Charset.NewDecoder 3).length = 128 ∧ ∀ p ∈ [(0, 64), (10, 10), (13, 13), (16, 916), (27, 27), (32, 32), (48, 48), (65, 65), (80, 80), (112, 112), (123, 227), (126, 252), (127, 224)], (Charset.NewDecoder 3).lookup p.1 = some p.2) ∧
    ((Charset.NewExtDecoder 3).length = 38 ∧ ∀ p ∈ [(10, 12), (47, 92), (64, 124), (79, 211), (101, 8364), (111, 243), (117, 250), (123, 227), (124, 245), (127, 226)], (Charset.NewExtDecoder 3).lookup p.1 = some p.2) ∧
    ((Charset.NewEncoder 3).length = 128 ∧ ∀ p ∈ [(64, 0), (10, 10), (13, 13), (916, 16), (27, 27), (32, 32), (48, 48), (65, 65), (80, 80), (112, 112), (227, 123), (252, 126), (224, 127)], (Charset.NewEncoder 3).lookup p.1 = some p.2) ∧
    ((Charset.NewExtEncoder 3).length = 38 ∧ ∀ p ∈ [(12, 10), (92, 47), (124, 64), (211, 79), (8364, 101), (243, 111), (250, 117), (227, 123), (245, 124), (226, 127)], (Charset.NewExtEncoder 3).lookup p.1 = some p.2) := by decide +kernel
example : ((Charset.NewDecoder 4).length = 115 ∧ ∀ p ∈ [(0, 2433), (10, 10), (13, 13), (15, 2447), (16, 2448), (27, 27), (31, 2462), (32, 32), (48, 48), (65, 2477), (80, 2494), (112, 112), (123, 2519), (124, 2524), (127, 2545)], (Charset.NewDecoder 4).lookup p.1 = some p.2) ∧
    ((Charset.NewExtDecoder 4).length = 84 ∧ ∀ p ∈ [(0, 64), (8, 38), (10, 12), (11, 42), (19, 161), (29, 2537), (30, 2538), (31, 2539), (47, 92), (48, 2550), (64, 124), (71, 71), (101, 8364)], (Charset.NewExtDecoder 4).lookup p.1 = some p.2) ∧
    ((Charset.NewEncoder 4).length = 115 ∧ ∀ p ∈ [(2433, 0), (10, 10), (13, 13), (2447, 15), (2448, 16), (27, 27), (2462, 31), (32, 32), (48, 48), (2477, 65), (2494, 80), (112, 112), (2519, 123), (2524, 124), (2545, 127)], (Charset.NewEncoder 4).lookup p.1 = some p.2) ∧
    ((Charset.NewExtEncoder 4).length = 82 ∧ ∀ p ∈ [(64, 0), (38, 8), (12, 10), (42, 11), (161, 19), (2537, 29), (2538, 30), (2539, 31), (92, 47), (2550, 48), (124, 64), (71, 71), (8364, 101)], (Charset.NewExtEncoder 4).lookup p.1 = some p.2) := by decide +kernel
example : ((Charset.NewDecoder 5).length = 121 ∧ ∀ p ∈ [(0, 2689), (10, 10), (13, 13), (15, 2703), (16, 2704), (27, 27), (31, 2718), (32, 32), (48, 48), (65, 2733), (80, 2750), (112, 112), (123, 2784), (124, 2785), (127, 2801)], (Charset.NewDecoder 5).lookup p.1 = some p.2) ∧
    ((Charset.NewExtDecoder 5).length = 72 ∧ ∀ p ∈ [(0, 64), (8, 38), (10, 12), (11, 42), (19, 161), (29, 2791), (30, 2792), (31, 2793), (37, 2799), (47, 92), (64, 124), (71, 71), (101, 8364)], (Charset.NewExtDecoder 5).lookup p.1 = some p.2) ∧
    ((Charset.NewEncoder 5).length = 121 ∧ ∀ p ∈ [(2689, 0), (10, 10), (13, 13), (2703, 15), (2704, 16), (27, 27), (2718, 31), (32, 32), (48, 48), (2733, 65), (2750, 80), (112, 112), (2784, 123), (2785, 124), (2801, 127)], (Charset.NewEncoder 5).lookup p.1 = some p.2) ∧
    ((Charset.NewExtEncoder 5).length = 70 ∧ ∀ p ∈ [(64, 0), (38, 8), (12, 10), (42, 11), (161, 19), (2791, 29), (2792, 30), (2793, 31), (2799, 37), (92, 47), (124, 64), (71, 71), (8364, 101)], (Charset.NewExtEncoder 5).lookup p.1 = some p.2) := by decide +kernel
example : ((Charset.NewDecoder 6).length = 128 ∧ ∀ p ∈ [(0, 2433), (10, 10), (13, 13), (14, 2318), (15, 2319), (16, 2320), (27, 27), (28, 2331), (31, 2334), (32, 32), (48, 48), (65, 2349), (80, 2366), (112, 112), (123, 2418), (124, 2427), (127, 2431)], (Charset.NewDecoder 6).lookup p.1 = some p.2) ∧
    ((Charset.NewExtDecoder 6).length = 90 ∧ ∀ p ∈ [(0, 64), (8, 38), (10, 12), (11, 42), (19, 161), (29, 2407), (30, 2408), (31, 2409), (47, 92), (48, 2395), (58, 2417), (64, 124), (71, 71), (101, 8364)], (Charset.NewExtDecoder 6).lookup p.1 = some p.2) ∧
    ((Charset.NewEncoder 6).length = 128 ∧ ∀ p ∈ [(2433, 0), (10, 10), (13, 13), (2318, 14), (2319, 15), (2320, 16), (27, 27), (2331, 28), (2334, 31), (32, 32), (48, 48), (2349, 65), (2366, 80), (112, 112), (2418, 123), (2427, 124), (2431, 127)], (Charset.NewEncoder 6).lookup p.1 = some p.2) ∧
    ((Charset.NewExtEncoder 6).length = 88 ∧ ∀ p ∈ [(64, 0), (38, 8), (12, 10), (42, 11), (161, 19), (2407, 29), (2408, 30), (2409, 31), (92, 47), (2395, 48), (2417, 58), (124, 64), (71, 71), (8364, 101)], (Charset.NewExtEncoder 6).lookup p.1 = some p.2) := by decide +kernel
example : ((Charset.NewDecoder 7).length = 121 ∧ ∀ p ∈ [(1, 3202), (10, 10), (13, 13), (15, 3215), (16, 3216), (27, 27), (31, 3230), (32, 32), (48, 48), (65, 3245), (80, 3262), (112, 112), (123, 3286), (124, 3296), (127, 3299)], (Charset.NewDecoder 7).lookup p.1 = some p.2) ∧
    ((Charset.NewExtDecoder 7).length = 75 ∧ ∀ p ∈ [(0, 64), (8, 38), (10, 12), (11, 42), (19, 161), (28, 3302), (30, 3304), (31, 3305), (38, 3294), (39, 3313), (42, 3314), (47, 92), (64, 124), (71, 71), (101, 8364)], (Charset.NewExtDecoder 7).lookup p.1 = some p.2) ∧
    ((Charset.NewEncoder 7).length = 121 ∧ ∀ p ∈ [(3202, 1), (10, 10), (13, 13), (3215, 15), (3216, 16), (27, 27), (3230, 31), (32, 32), (48, 48), (3245, 65), (3262, 80), (112, 112), (3286, 123), (3296, 124), (3299, 127)], (Charset.NewEncoder 7).lookup p.1 = some p.2) ∧
    ((Charset.NewExtEncoder 7).length = 73 ∧ ∀ p ∈ [(64, 0), (38, 8), (12, 10), (42, 11), (161, 19), (3302, 28), (3304, 30), (3305, 31), (3294, 38), (3313, 39), (3314, 42), (92, 47), (124, 64), (71, 71), (8364, 101)], (Charset.NewExtEncoder 7).lookup p.1 = some p.2) := by decide +kernel
example : ((Charset.NewDecoder 8).length = 121 ∧ ∀ p ∈ [(1, 3330), (10, 10), (13, 13), (15, 3343), (16, 3344), (27, 27), (31, 3358), (32, 32), (48, 48), (65, 3373), (80, 3390), (112, 112), (123, 3424), (125, 3426), (127, 3449)], (Charset.NewDecoder 8).lookup p.1 = some p.2) ∧
    ((Charset.NewExtDecoder 8).length = 84 ∧ ∀ p ∈ [(0, 64), (8, 38), (10, 12), (11, 42), (19, 161), (28, 3430), (30, 3432), (31, 3433), (47, 92), (48, 3451), (52, 3455), (64, 124), (71, 71), (101, 8364)], (Charset.NewExtDecoder 8).lookup p.1 = some p.2) ∧
    ((Charset.NewEncoder 8).length = 121 ∧ ∀ p ∈ [(3330, 1), (10, 10), (13, 13), (3343, 15), (3344, 16), (27, 27), (3358, 31), (32, 32), (48, 48), (3373, 65), (3390, 80), (112, 112), (3424, 123), (3426, 125), (3449, 127)], (Charset.NewEncoder 8).lookup p.1 = some p.2) ∧
    ((Charset.NewExtEncoder 8).length = 82 ∧ ∀ p ∈ [(64, 0), (38, 8), (12, 10), (42, 11), (161, 19), (3430, 28), (3432, 30), (3433, 31), (92, 47), (3451, 48), (3455, 52), (124, 64), (71, 71), (8364, 101)], (Charset.NewExtEncoder 8).lookup p.1 = some p.2) := by decide +kernel
example : ((Charset.NewDecoder 9).length = 117 ∧ ∀ p ∈ [(0, 2817), (10, 10), (11, 2828), (13, 13), (15, 2831), (16, 2832), (27, 27), (28, 2843), (31, 2846), (32, 32), (48, 48), (65, 2861), (80, 2878), (112, 112), (123, 2903), (124, 2912), (127, 2915)], (Charset.NewDecoder 9).lookup p.1 = some p.2) ∧
    ((Charset.NewExtDecoder 9).length = 77 ∧ ∀ p ∈ [(0, 64), (8, 38), (10, 12), (11, 42), (19, 161), (28, 2918), (30, 2920), (31, 2921), (33, 2923), (42, 2911), (44, 2929), (47, 92), (64, 124), (71, 71), (101, 8364)], (Charset.NewExtDecoder 9).lookup p.1 = some p.2) ∧
    ((Charset.NewEncoder 9).length = 117 ∧ ∀ p ∈ [(2817, 0), (10, 10), (2828, 11), (13, 13), (2831, 15), (2832, 16), (27, 27), (2843, 28), (2846, 31), (32, 32), (48, 48), (2861, 65), (2878, 80), (112, 112), (2903, 123), (2912, 124), (2915, 127)], (Charset.NewEncoder 9).lookup p.1 = some p.2) ∧
    ((Charset.NewExtEncoder 9).length = 75 ∧ ∀ p ∈ [(64, 0), (38, 8), (12, 10), (42, 11), (161, 19), (2918, 28), (2920, 30), (2921, 31), (2923, 33), (2911, 42), (2929, 44), (92, 47), (124, 64), (71, 71), (8364, 101)], (Charset.NewExtEncoder 9).lookup p.1 = some p.2) := by decide +kernel
example : ((Charset.NewDecoder 10).length = 111 ∧ ∀ p ∈ [(0, 2561), (10, 10), (8, 2570), (13, 13), (15, 2575), (16, 2576), (27, 27), (28, 2587), (31, 2590), (32, 32), (48, 48), (65, 2605), (80, 2622), (112, 112), (123, 2672), (124, 2673), (127, 2676)], (Charset.NewDecoder 10).lookup p.1 = some p.2) ∧
    ((Charset.NewExtDecoder 10).length = 78 ∧ ∀ p ∈ [(0, 64), (8, 38), (10, 12), (11, 42), (19, 161), (28, 2662), (30, 2664), (31, 2665), (33, 2667), (42, 2651), (45, 2677), (47, 92), (64, 124), (71, 71), (101, 8364)], (Charset.NewExtDecoder 10).lookup p.1 = some p.2) ∧
    ((Charset.NewEncoder 10).length = 111 ∧ ∀ p ∈ [(2561, 0), (10, 10), (2570, 8), (13, 13), (2575, 15), (2576, 16), (27, 27), (2587, 28), (2590, 31), (32, 32), (48, 48), (2605, 65), (2622, 80), (112, 112), (2672, 123), (2673, 124), (2676, 127)], (Charset.NewEncoder 10).lookup p.1 = some p.2) ∧
    ((Charset.NewExtEncoder 10).length = 76 ∧ ∀ p ∈ [(64, 0), (38, 8), (12, 10), (42, 11), (161, 19), (2662, 28), (2664, 30), (2665, 31), (2667, 33), (2651, 42), (2677, 45), (92, 47), (124, 64), (71, 71), (8364, 101)], (Charset.NewExtEncoder 10).lookup p.1 = some p.2) := by decide +kernel
example : ((Charset.NewDecoder 11).length = 103 ∧ ∀ p ∈ [(1, 2946), (10, 10), (13, 13), (15, 2959), (16, 2960), (27, 27), (31, 2974), (32, 32), (48, 48), (66, 2990), (80, 3006), (112, 112), (123, 3031), (124, 3056), (127, 3065)], (Charset.NewDecoder 11).lookup p.1 = some p.2) ∧
    ((Charset.NewExtDecoder 11).length = 79 ∧ ∀ p ∈ [(0, 64), (8, 38), (10, 12), (11, 42), (19, 161), (28, 3046), (30, 3048), (31, 3049), (38, 3059), (39, 3060), (42, 3061), (46, 3066), (47, 92), (64, 124), (71, 71), (101, 8364)], (Charset.NewExtDecoder 11).lookup p.1 = some p.2) ∧
    ((Charset.NewEncoder 11).length = 103 ∧ ∀ p ∈ [(2946, 1), (10, 10), (13, 13), (2959, 15), (2960, 16), (27, 27), (2974, 31), (32, 32), (48, 48), (2990, 66), (3006, 80), (112, 112), (3031, 123), (3056, 124), (3065, 127)], (Charset.NewEncoder 11).lookup p.1 = some p.2) ∧
    ((Charset.NewExtEncoder 11).length = 77 ∧ ∀ p ∈ [(64, 0), (38, 8), (12, 10), (42, 11), (161, 19), (3046, 28), (3048, 30), (3049, 31), (3059, 38), (3060, 39), (3061, 42), (3066, 46), (92, 47), (124, 64), (71, 71), (8364, 101)], (Charset.NewExtEncoder 11).lookup p.1 = some p.2) := by decide +kernel
example : ((Charset.NewDecoder 12).length = 121 ∧ ∀ p ∈ [(0, 3073), (10, 10), (11, 3084), (13, 13), (15, 3087), (16, 3088), (27, 27), (31, 3102), (32, 32), (48, 48), (65, 3117), (80, 3134), (112, 112), (123, 3158), (125, 3169), (127, 3171)], (Charset.NewDecoder 12).lookup p.1 = some p.2) ∧
    ((Charset.NewExtDecoder 12).length = 80 ∧ ∀ p ∈ [(0, 64), (8, 38), (10, 12), (11, 42), (19, 161), (28, 3174), (30, 3176), (31, 3177), (47, 92), (48, 3197), (50, 3199), (64, 124), (71, 71), (101, 8364)], (Charset.NewExtDecoder 12).lookup p.1 = some p.2) ∧
    ((Charset.NewEncoder 12).length = 121 ∧ ∀ p ∈ [(3073, 0), (10, 10), (3084, 11), (13, 13), (3087, 15), (3088, 16), (27, 27), (3102, 31), (32, 32), (48, 48), (3117, 65), (3134, 80), (112, 112), (3158, 123), (3169, 125), (3171, 127)], (Charset.NewEncoder 12).lookup p.1 = some p.2) ∧
    ((Charset.NewExtEncoder 12).length = 78 ∧ ∀ p ∈ [(64, 0), (38, 8), (12, 10), (42, 11), (161, 19), (3174, 28), (3176, 30), (3177, 31), (92, 47), (3197, 48), (3199, 50), (124, 64), (71, 71), (8364, 101)], (Charset.NewExtEncoder 12).lookup p.1 = some p.2) := by decide +kernel
example : ((Charset.NewDecoder 13).length = 128 ∧ ∀ p ∈ [(0, 1575), (10, 10), (13, 13), (14, 1658), (15, 1660), (16, 1579), (27, 27), (28, 1676), (31, 1674), (32, 32), (48, 48), (65, 1590), (80, 1722), (112, 112), (123, 1621), (124, 1617), (127, 1648)], (Charset.NewDecoder 13).lookup p.1 = some p.2) ∧
    ((Charset.NewExtDecoder 13).length = 92 ∧ ∀ p ∈ [(0, 64), (8, 38), (10, 12), (11, 42), (19, 161), (29, 1777), (30, 1778), (31, 1779), (47, 92), (64, 124), (71, 71), (101, 8364)], (Charset.NewExtDecoder 13).lookup p.1 = some p.2) ∧
    ((Charset.NewEncoder 13).length = 128 ∧ ∀ p ∈ [(1575, 0), (10, 10), (13, 13), (1658, 14), (1660, 15), (1579, 16), (27, 27), (1676, 28), (1674, 31), (32, 32), (48, 48), (1590, 65), (1722, 80), (112, 112), (1621, 123), (1617, 124), (1648, 127)], (Charset.NewEncoder 13).lookup p.1 = some p.2) ∧
    ((Charset.NewExtEncoder 13).length = 90 ∧ ∀ p ∈ [(64, 0), (38, 8), (12, 10), (42, 11), (161, 19), (1777, 29), (1778, 30), (1779, 31), (92, 47), (124, 64), (71, 71), (8364, 101)], (Charset.NewExtEncoder 13).lookup p.1 = some p.2) := by decide +kernel

end Verif.Vectors

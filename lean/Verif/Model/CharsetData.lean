/-! Generated by tools/gen_charsets.py from /repo/encoding/gsm7/charset/*.go. Do not edit. -/

namespace Verif.Model.CharsetData

/-- `bengaliDecoder`, encoding/gsm7/charset/bengali.go:8-124 (septet, rune). -/
def bengaliDecoder : List (UInt8 × Nat) := [
  (0, 2433), (1, 2434), (2, 2435), (3, 2437), (4, 2438), (5, 2439), (6, 2440), (7, 2441),
  (8, 2442), (9, 2443), (10, 10), (11, 2444), (13, 13), (15, 2447), (16, 2448), (19, 2451),
  (20, 2452), (21, 2453), (22, 2454), (23, 2455), (24, 2456), (25, 2457), (26, 2458), (27, 27),
  (28, 2459), (29, 2460), (30, 2461), (31, 2462), (32, 32), (33, 33), (34, 2463), (35, 2464),
  (36, 2465), (37, 2466), (38, 2467), (39, 2468), (40, 41), (41, 40), (42, 2469), (43, 2470),
  (44, 44), (45, 2471), (46, 46), (47, 2472), (48, 48), (49, 49), (50, 50), (51, 51),
  (52, 52), (53, 53), (54, 54), (55, 55), (56, 56), (57, 57), (58, 58), (59, 59),
  (61, 2474), (62, 2475), (63, 63), (64, 2476), (65, 2477), (66, 2478), (67, 2479), (68, 2480),
  (70, 2482), (74, 2486), (75, 2487), (76, 2488), (77, 2489), (78, 2492), (79, 2493), (80, 2494),
  (81, 2495), (82, 2496), (83, 2497), (84, 2498), (85, 2499), (86, 2500), (89, 2503), (90, 2504),
  (93, 2507), (94, 2508), (95, 2509), (96, 2510), (97, 97), (98, 98), (99, 99), (100, 100),
  (101, 101), (102, 102), (103, 103), (104, 104), (105, 105), (106, 106), (107, 107), (108, 108),
  (109, 109), (110, 110), (111, 111), (112, 112), (113, 113), (114, 114), (115, 115), (116, 116),
  (117, 117), (118, 118), (119, 119), (120, 120), (121, 121), (122, 122), (123, 2519), (124, 2524),
  (125, 2525), (126, 2544), (127, 2545)]

/-- `bengaliExtDecoder`, encoding/gsm7/charset/bengali.go:125-210 (septet, rune). -/
def bengaliExtDecoder : List (UInt8 × Nat) := [
  (0, 64), (1, 163), (2, 36), (3, 165), (4, 191), (5, 34), (6, 164), (7, 37),
  (8, 38), (9, 39), (10, 12), (11, 42), (12, 43), (13, 13), (14, 45), (15, 47),
  (16, 60), (17, 61), (18, 62), (19, 161), (20, 94), (21, 161), (22, 95), (23, 35),
  (24, 42), (25, 2534), (26, 2535), (27, 27), (28, 2536), (29, 2537), (30, 2538), (31, 2539),
  (32, 2540), (33, 2541), (34, 2542), (35, 2543), (36, 2527), (37, 2528), (38, 2529), (39, 2530),
  (40, 123), (41, 125), (42, 2531), (43, 2546), (44, 2547), (45, 2548), (46, 2549), (47, 92),
  (48, 2550), (49, 2551), (50, 2552), (51, 2553), (52, 2554), (60, 91), (61, 126), (62, 93),
  (64, 124), (65, 65), (66, 66), (67, 67), (68, 68), (69, 69), (70, 70), (71, 71),
  (72, 72), (73, 73), (74, 74), (75, 75), (76, 76), (77, 77), (78, 78), (79, 79),
  (80, 80), (81, 81), (82, 82), (83, 83), (84, 84), (85, 85), (86, 86), (87, 87),
  (88, 88), (89, 89), (90, 90), (101, 8364)]

/-- `defaultExtDecoder`, encoding/gsm7/charset/default.go:9-21 (septet, rune). -/
def defaultExtDecoder : List (UInt8 × Nat) := [
  (10, 12), (13, 10), (20, 94), (40, 123), (41, 125), (47, 92), (60, 91), (61, 126),
  (62, 93), (64, 124), (101, 8364)]

/-- `defaultRunes`, encoding/gsm7/charset/default.go:24-27; 128 runes. -/
def defaultRunes : List Nat := [
  64, 163, 36, 165, 232, 233, 249, 236, 242, 199, 10, 216, 248, 13, 197, 229,
  916, 95, 934, 915, 923, 937, 928, 936, 931, 920, 926, 27, 198, 230, 223, 201,
  32, 33, 34, 35, 164, 37, 38, 39, 40, 41, 42, 43, 44, 45, 46, 47,
  48, 49, 50, 51, 52, 53, 54, 55, 56, 57, 58, 59, 60, 61, 62, 63,
  161, 65, 66, 67, 68, 69, 70, 71, 72, 73, 74, 75, 76, 77, 78, 79,
  80, 81, 82, 83, 84, 85, 86, 87, 88, 89, 90, 196, 214, 209, 220, 167,
  191, 97, 98, 99, 100, 101, 102, 103, 104, 105, 106, 107, 108, 109, 110, 111,
  112, 113, 114, 115, 116, 117, 118, 119, 120, 121, 122, 228, 246, 241, 252, 224]

/-- `gujaratiDecoder`, encoding/gsm7/charset/gujarati.go:8-130 (septet, rune). -/
def gujaratiDecoder : List (UInt8 × Nat) := [
  (0, 2689), (1, 2690), (2, 2691), (3, 2693), (4, 2694), (5, 2695), (6, 2696), (7, 2697),
  (8, 2698), (9, 2699), (10, 10), (11, 2700), (12, 2701), (13, 13), (15, 2703), (16, 2704),
  (17, 2705), (19, 2707), (20, 2708), (21, 2709), (22, 2710), (23, 2711), (24, 2712), (25, 2713),
  (26, 2714), (27, 27), (28, 2715), (29, 2716), (30, 2717), (31, 2718), (32, 32), (33, 33),
  (34, 2719), (35, 2720), (36, 2721), (37, 2722), (38, 2723), (39, 2724), (40, 41), (41, 40),
  (42, 2725), (43, 2726), (44, 44), (45, 2727), (46, 46), (47, 2728), (48, 48), (49, 49),
  (50, 50), (51, 51), (52, 52), (53, 53), (54, 54), (55, 55), (56, 56), (57, 57),
  (58, 58), (59, 59), (61, 2730), (62, 2731), (63, 63), (64, 2732), (65, 2733), (66, 2734),
  (67, 2735), (68, 2736), (70, 2738), (71, 2739), (73, 2741), (74, 2742), (75, 2743), (76, 2744),
  (77, 2745), (78, 2748), (79, 2749), (80, 2750), (81, 2751), (82, 2752), (83, 2753), (84, 2754),
  (85, 2755), (86, 2756), (87, 2757), (89, 2759), (90, 2760), (91, 2761), (93, 2763), (94, 2764),
  (95, 2765), (96, 2768), (97, 97), (98, 98), (99, 99), (100, 100), (101, 101), (102, 102),
  (103, 103), (104, 104), (105, 105), (106, 106), (107, 107), (108, 108), (109, 109), (110, 110),
  (111, 111), (112, 112), (113, 113), (114, 114), (115, 115), (116, 116), (117, 117), (118, 118),
  (119, 119), (120, 120), (121, 121), (122, 122), (123, 2784), (124, 2785), (125, 2786), (126, 2787),
  (127, 2801)]

/-- `gujaratiExtDecoder`, encoding/gsm7/charset/gujarati.go:131-204 (septet, rune). -/
def gujaratiExtDecoder : List (UInt8 × Nat) := [
  (0, 64), (1, 163), (2, 36), (3, 165), (4, 191), (5, 34), (6, 164), (7, 37),
  (8, 38), (9, 39), (10, 12), (11, 42), (12, 43), (13, 13), (14, 45), (15, 47),
  (16, 60), (17, 61), (18, 62), (19, 161), (20, 94), (21, 161), (22, 95), (23, 35),
  (24, 42), (25, 2404), (26, 2405), (27, 27), (28, 2790), (29, 2791), (30, 2792), (31, 2793),
  (32, 2794), (33, 2795), (34, 2796), (35, 2797), (36, 2798), (37, 2799), (40, 123), (41, 125),
  (47, 92), (60, 91), (61, 126), (62, 93), (64, 124), (65, 65), (66, 66), (67, 67),
  (68, 68), (69, 69), (70, 70), (71, 71), (72, 72), (73, 73), (74, 74), (75, 75),
  (76, 76), (77, 77), (78, 78), (79, 79), (80, 80), (81, 81), (82, 82), (83, 83),
  (84, 84), (85, 85), (86, 86), (87, 87), (88, 88), (89, 89), (90, 90), (101, 8364)]

/-- `hindiDecoder`, encoding/gsm7/charset/hindi.go:8-137 (septet, rune). -/
def hindiDecoder : List (UInt8 × Nat) := [
  (0, 2433), (1, 2434), (2, 2435), (3, 2309), (4, 2310), (5, 2311), (6, 2312), (7, 2313),
  (8, 2314), (9, 2315), (10, 10), (11, 2316), (12, 2317), (13, 13), (14, 2318), (15, 2319),
  (16, 2320), (17, 2321), (18, 2322), (19, 2323), (20, 2324), (21, 2325), (22, 2326), (23, 2327),
  (24, 2328), (25, 2329), (26, 2330), (27, 27), (28, 2331), (29, 2332), (30, 2333), (31, 2334),
  (32, 32), (33, 33), (34, 2335), (35, 2336), (36, 2337), (37, 2338), (38, 2339), (39, 2340),
  (40, 41), (41, 40), (42, 2341), (43, 2342), (44, 44), (45, 2343), (46, 46), (47, 2344),
  (48, 48), (49, 49), (50, 50), (51, 51), (52, 52), (53, 53), (54, 54), (55, 55),
  (56, 56), (57, 57), (58, 58), (59, 59), (60, 2345), (61, 2346), (62, 2347), (63, 63),
  (64, 2348), (65, 2349), (66, 2350), (67, 2351), (68, 2352), (69, 2353), (70, 2354), (71, 2355),
  (72, 2356), (73, 2357), (74, 2358), (75, 2359), (76, 2360), (77, 2361), (78, 2364), (79, 2365),
  (80, 2366), (81, 2367), (82, 2368), (83, 2369), (84, 2370), (85, 2371), (86, 2372), (87, 2373),
  (88, 2374), (89, 2375), (90, 2376), (91, 2377), (92, 2378), (93, 2379), (94, 2380), (95, 2381),
  (96, 2384), (97, 97), (98, 98), (99, 99), (100, 100), (101, 101), (102, 102), (103, 103),
  (104, 104), (105, 105), (106, 106), (107, 107), (108, 108), (109, 109), (110, 110), (111, 111),
  (112, 112), (113, 113), (114, 114), (115, 115), (116, 116), (117, 117), (118, 118), (119, 119),
  (120, 120), (121, 121), (122, 122), (123, 2418), (124, 2427), (125, 2428), (126, 2430), (127, 2431)]

/-- `hindiExtDecoder`, encoding/gsm7/charset/hindi.go:138-229 (septet, rune). -/
def hindiExtDecoder : List (UInt8 × Nat) := [
  (0, 64), (1, 163), (2, 36), (3, 165), (4, 191), (5, 34), (6, 164), (7, 37),
  (8, 38), (9, 39), (10, 12), (11, 42), (12, 43), (13, 13), (14, 45), (15, 47),
  (16, 60), (17, 61), (18, 62), (19, 161), (20, 94), (21, 161), (22, 95), (23, 35),
  (24, 42), (25, 2404), (26, 2405), (27, 27), (28, 2406), (29, 2407), (30, 2408), (31, 2409),
  (32, 2410), (33, 2411), (34, 2412), (35, 2413), (36, 2414), (37, 2415), (38, 2385), (39, 2386),
  (40, 123), (41, 125), (42, 2387), (43, 2388), (44, 2392), (45, 2393), (46, 2394), (47, 92),
  (48, 2395), (49, 2396), (50, 2397), (51, 2398), (52, 2399), (53, 2400), (54, 2401), (55, 2402),
  (56, 2403), (57, 2416), (58, 2417), (60, 91), (61, 126), (62, 93), (64, 124), (65, 65),
  (66, 66), (67, 67), (68, 68), (69, 69), (70, 70), (71, 71), (72, 72), (73, 73),
  (74, 74), (75, 75), (76, 76), (77, 77), (78, 78), (79, 79), (80, 80), (81, 81),
  (82, 82), (83, 83), (84, 84), (85, 85), (86, 86), (87, 87), (88, 88), (89, 89),
  (90, 90), (101, 8364)]

/-- `kannadaDecoder`, encoding/gsm7/charset/kannada.go:8-130 (septet, rune). -/
def kannadaDecoder : List (UInt8 × Nat) := [
  (1, 3202), (2, 3203), (3, 3205), (4, 3206), (5, 3207), (6, 3208), (7, 3209), (8, 3210),
  (9, 3211), (10, 10), (11, 3212), (13, 13), (14, 3214), (15, 3215), (16, 3216), (18, 3218),
  (19, 3219), (20, 3220), (21, 3221), (22, 3222), (23, 3223), (24, 3224), (25, 3225), (26, 3226),
  (27, 27), (28, 3227), (29, 3228), (30, 3229), (31, 3230), (32, 32), (33, 33), (34, 3231),
  (35, 3232), (36, 3233), (37, 3234), (38, 3235), (39, 3236), (40, 41), (41, 40), (42, 3237),
  (43, 3238), (44, 44), (45, 3239), (46, 46), (47, 3240), (48, 48), (49, 49), (50, 50),
  (51, 51), (52, 52), (53, 53), (54, 54), (55, 55), (56, 56), (57, 57), (58, 58),
  (59, 59), (61, 3242), (62, 3243), (63, 63), (64, 3244), (65, 3245), (66, 3246), (67, 3247),
  (68, 3248), (69, 3249), (70, 3250), (71, 3251), (73, 3253), (74, 3254), (75, 3255), (76, 3256),
  (77, 3257), (78, 3260), (79, 3261), (80, 3262), (81, 3263), (82, 3264), (83, 3265), (84, 3266),
  (85, 3267), (86, 3268), (88, 3270), (89, 3271), (90, 3272), (92, 3274), (93, 3275), (94, 3276),
  (95, 3277), (96, 3285), (97, 97), (98, 98), (99, 99), (100, 100), (101, 101), (102, 102),
  (103, 103), (104, 104), (105, 105), (106, 106), (107, 107), (108, 108), (109, 109), (110, 110),
  (111, 111), (112, 112), (113, 113), (114, 114), (115, 115), (116, 116), (117, 117), (118, 118),
  (119, 119), (120, 120), (121, 121), (122, 122), (123, 3286), (124, 3296), (125, 3297), (126, 3298),
  (127, 3299)]

/-- `kannadaExtDecoder`, encoding/gsm7/charset/kannada.go:131-207 (septet, rune). -/
def kannadaExtDecoder : List (UInt8 × Nat) := [
  (0, 64), (1, 163), (2, 36), (3, 165), (4, 191), (5, 34), (6, 164), (7, 37),
  (8, 38), (9, 39), (10, 12), (11, 42), (12, 43), (13, 13), (14, 45), (15, 47),
  (16, 60), (17, 61), (18, 62), (19, 161), (20, 94), (21, 161), (22, 95), (23, 35),
  (24, 42), (25, 2404), (26, 2405), (27, 27), (28, 3302), (29, 3303), (30, 3304), (31, 3305),
  (32, 3306), (33, 3307), (34, 3308), (35, 3309), (36, 3310), (37, 3311), (38, 3294), (39, 3313),
  (40, 123), (41, 125), (42, 3314), (47, 92), (60, 91), (61, 126), (62, 93), (64, 124),
  (65, 65), (66, 66), (67, 67), (68, 68), (69, 69), (70, 70), (71, 71), (72, 72),
  (73, 73), (74, 74), (75, 75), (76, 76), (77, 77), (78, 78), (79, 79), (80, 80),
  (81, 81), (82, 82), (83, 83), (84, 84), (85, 85), (86, 86), (87, 87), (88, 88),
  (89, 89), (90, 90), (101, 8364)]

/-- `malayalamDecoder`, encoding/gsm7/charset/malayalam.go:8-130 (septet, rune). -/
def malayalamDecoder : List (UInt8 × Nat) := [
  (1, 3330), (2, 3331), (3, 3333), (4, 3334), (5, 3335), (6, 3336), (7, 3337), (8, 3338),
  (9, 3339), (10, 10), (11, 3340), (13, 13), (14, 3342), (15, 3343), (16, 3344), (18, 3346),
  (19, 3347), (20, 3348), (21, 3349), (22, 3350), (23, 3351), (24, 3352), (25, 3353), (26, 3354),
  (27, 27), (28, 3355), (29, 3356), (30, 3357), (31, 3358), (32, 32), (33, 33), (34, 3359),
  (35, 3360), (36, 3361), (37, 3362), (38, 3363), (39, 3364), (40, 41), (41, 40), (42, 3365),
  (43, 3366), (44, 44), (45, 3367), (46, 46), (47, 3368), (48, 48), (49, 49), (50, 50),
  (51, 51), (52, 52), (53, 53), (54, 54), (55, 55), (56, 56), (57, 57), (58, 58),
  (59, 59), (61, 3370), (62, 3371), (63, 63), (64, 3372), (65, 3373), (66, 3374), (67, 3375),
  (68, 3376), (69, 3377), (70, 3378), (71, 3379), (72, 3380), (73, 3381), (74, 3382), (75, 3383),
  (76, 3384), (77, 3385), (79, 3389), (80, 3390), (81, 3391), (82, 3392), (83, 3393), (84, 3394),
  (85, 3395), (86, 3396), (88, 3398), (89, 3399), (90, 3400), (92, 3402), (93, 3403), (94, 3404),
  (95, 3405), (96, 3415), (97, 97), (98, 98), (99, 99), (100, 100), (101, 101), (102, 102),
  (103, 103), (104, 104), (105, 105), (106, 106), (107, 107), (108, 108), (109, 109), (110, 110),
  (111, 111), (112, 112), (113, 113), (114, 114), (115, 115), (116, 116), (117, 117), (118, 118),
  (119, 119), (120, 120), (121, 121), (122, 122), (123, 3424), (124, 3425), (125, 3426), (126, 3427),
  (127, 3449)]

/-- `malayalamExtDecoder`, encoding/gsm7/charset/malayalam.go:131-216 (septet, rune). -/
def malayalamExtDecoder : List (UInt8 × Nat) := [
  (0, 64), (1, 163), (2, 36), (3, 165), (4, 191), (5, 34), (6, 164), (7, 37),
  (8, 38), (9, 39), (10, 12), (11, 42), (12, 43), (13, 13), (14, 45), (15, 47),
  (16, 60), (17, 61), (18, 62), (19, 161), (20, 94), (21, 161), (22, 95), (23, 35),
  (24, 42), (25, 2404), (26, 2405), (27, 27), (28, 3430), (29, 3431), (30, 3432), (31, 3433),
  (32, 3434), (33, 3435), (34, 3436), (35, 3437), (36, 3438), (37, 3439), (38, 3440), (39, 3441),
  (40, 123), (41, 125), (42, 3442), (43, 3443), (44, 3444), (45, 3445), (46, 3450), (47, 92),
  (48, 3451), (49, 3452), (50, 3453), (51, 3454), (52, 3455), (60, 91), (61, 126), (62, 93),
  (64, 124), (65, 65), (66, 66), (67, 67), (68, 68), (69, 69), (70, 70), (71, 71),
  (72, 72), (73, 73), (74, 74), (75, 75), (76, 76), (77, 77), (78, 78), (79, 79),
  (80, 80), (81, 81), (82, 82), (83, 83), (84, 84), (85, 85), (86, 86), (87, 87),
  (88, 88), (89, 89), (90, 90), (101, 8364)]

/-- `oriyaDecoder`, encoding/gsm7/charset/oriya.go:8-126 (septet, rune). -/
def oriyaDecoder : List (UInt8 × Nat) := [
  (0, 2817), (1, 2818), (2, 2819), (3, 2821), (4, 2822), (5, 2823), (6, 2824), (7, 2825),
  (8, 2826), (9, 2827), (10, 10), (11, 2828), (13, 13), (15, 2831), (16, 2832), (19, 2835),
  (20, 2836), (21, 2837), (22, 2838), (23, 2839), (24, 2840), (25, 2841), (26, 2842), (27, 27),
  (28, 2843), (29, 2844), (30, 2845), (31, 2846), (32, 32), (33, 33), (34, 2847), (35, 2848),
  (36, 2849), (37, 2850), (38, 2851), (39, 2852), (40, 41), (41, 40), (42, 2853), (43, 2854),
  (44, 44), (45, 2855), (46, 46), (47, 2856), (48, 48), (49, 49), (50, 50), (51, 51),
  (52, 52), (53, 53), (54, 54), (55, 55), (56, 56), (57, 57), (58, 58), (59, 59),
  (61, 2858), (62, 2859), (63, 63), (64, 2860), (65, 2861), (66, 2862), (67, 2863), (68, 2864),
  (70, 2866), (71, 2867), (73, 2869), (74, 2870), (75, 2871), (76, 2872), (77, 2873), (78, 2876),
  (79, 2877), (80, 2878), (81, 2879), (82, 2880), (83, 2881), (84, 2882), (85, 2883), (86, 2884),
  (89, 2887), (90, 2888), (93, 2891), (94, 2892), (95, 2893), (96, 2902), (97, 97), (98, 98),
  (99, 99), (100, 100), (101, 101), (102, 102), (103, 103), (104, 104), (105, 105), (106, 106),
  (107, 107), (108, 108), (109, 109), (110, 110), (111, 111), (112, 112), (113, 113), (114, 114),
  (115, 115), (116, 116), (117, 117), (118, 118), (119, 119), (120, 120), (121, 121), (122, 122),
  (123, 2903), (124, 2912), (125, 2913), (126, 2914), (127, 2915)]

/-- `oriyaExtDecoder`, encoding/gsm7/charset/oriya.go:127-205 (septet, rune). -/
def oriyaExtDecoder : List (UInt8 × Nat) := [
  (0, 64), (1, 163), (2, 36), (3, 165), (4, 191), (5, 34), (6, 164), (7, 37),
  (8, 38), (9, 39), (10, 12), (11, 42), (12, 43), (13, 13), (14, 45), (15, 47),
  (16, 60), (17, 61), (18, 62), (19, 161), (20, 94), (21, 161), (22, 95), (23, 35),
  (24, 42), (25, 2404), (26, 2405), (27, 27), (28, 2918), (29, 2919), (30, 2920), (31, 2921),
  (32, 2922), (33, 2923), (34, 2924), (35, 2925), (36, 2926), (37, 2927), (38, 2908), (39, 2909),
  (40, 123), (41, 125), (42, 2911), (43, 2928), (44, 2929), (47, 92), (60, 91), (61, 126),
  (62, 93), (64, 124), (65, 65), (66, 66), (67, 67), (68, 68), (69, 69), (70, 70),
  (71, 71), (72, 72), (73, 73), (74, 74), (75, 75), (76, 76), (77, 77), (78, 78),
  (79, 79), (80, 80), (81, 81), (82, 82), (83, 83), (84, 84), (85, 85), (86, 86),
  (87, 87), (88, 88), (89, 89), (90, 90), (101, 8364)]

/-- `portugueseExtDecoder`, encoding/gsm7/charset/portuguese.go:9-48 (septet, rune). -/
def portugueseExtDecoder : List (UInt8 × Nat) := [
  (5, 234), (9, 231), (10, 12), (11, 212), (12, 244), (13, 10), (14, 193), (15, 225),
  (18, 934), (19, 915), (20, 94), (21, 937), (22, 928), (23, 936), (24, 931), (25, 920),
  (31, 202), (40, 123), (41, 125), (47, 92), (60, 91), (61, 126), (62, 93), (64, 124),
  (65, 192), (73, 205), (79, 211), (85, 218), (91, 195), (92, 213), (97, 194), (101, 8364),
  (105, 237), (111, 243), (117, 250), (123, 227), (124, 245), (127, 226)]

/-- `portugueseRunes`, encoding/gsm7/charset/portuguese.go:51-54; 128 runes. -/
def portugueseRunes : List Nat := [
  64, 163, 36, 165, 234, 233, 250, 237, 243, 231, 10, 212, 244, 13, 193, 225,
  916, 95, 170, 199, 192, 8734, 94, 92, 8364, 211, 124, 27, 194, 226, 202, 201,
  32, 33, 34, 35, 186, 37, 38, 39, 40, 41, 42, 43, 44, 45, 46, 47,
  48, 49, 50, 51, 52, 53, 54, 55, 56, 57, 58, 59, 60, 61, 62, 63,
  205, 65, 66, 67, 68, 69, 70, 71, 72, 73, 74, 75, 76, 77, 78, 79,
  80, 81, 82, 83, 84, 85, 86, 87, 88, 89, 90, 195, 213, 218, 220, 167,
  126, 97, 98, 99, 100, 101, 102, 103, 104, 105, 106, 107, 108, 109, 110, 111,
  112, 113, 114, 115, 116, 117, 118, 119, 120, 121, 122, 227, 245, 96, 252, 224]

/-- `punjabiDecoder`, encoding/gsm7/charset/punjabi.go:8-120 (septet, rune). -/
def punjabiDecoder : List (UInt8 × Nat) := [
  (0, 2561), (1, 2562), (2, 2563), (3, 2565), (4, 2566), (5, 2567), (6, 2568), (7, 2569),
  (8, 2570), (10, 10), (13, 13), (15, 2575), (16, 2576), (19, 2579), (20, 2580), (21, 2581),
  (22, 2582), (23, 2583), (24, 2584), (25, 2585), (26, 2586), (27, 27), (28, 2587), (29, 2588),
  (30, 2589), (31, 2590), (32, 32), (33, 33), (34, 2591), (35, 2592), (36, 2593), (37, 2594),
  (38, 2595), (39, 2596), (40, 41), (41, 40), (42, 2597), (43, 2598), (44, 44), (45, 2599),
  (46, 46), (47, 2600), (48, 48), (49, 49), (50, 50), (51, 51), (52, 52), (53, 53),
  (54, 54), (55, 55), (56, 56), (57, 57), (58, 58), (59, 59), (61, 2602), (62, 2603),
  (63, 63), (64, 2604), (65, 2605), (66, 2606), (67, 2607), (68, 2608), (70, 2610), (71, 2611),
  (73, 2613), (74, 2614), (76, 2616), (77, 2617), (78, 2620), (80, 2622), (81, 2623), (82, 2624),
  (83, 2625), (84, 2626), (89, 2631), (90, 2632), (93, 2635), (94, 2636), (95, 2637), (96, 2641),
  (97, 97), (98, 98), (99, 99), (100, 100), (101, 101), (102, 102), (103, 103), (104, 104),
  (105, 105), (106, 106), (107, 107), (108, 108), (109, 109), (110, 110), (111, 111), (112, 112),
  (113, 113), (114, 114), (115, 115), (116, 116), (117, 117), (118, 118), (119, 119), (120, 120),
  (121, 121), (122, 122), (123, 2672), (124, 2673), (125, 2674), (126, 2675), (127, 2676)]

/-- `punjabiExtDecoder`, encoding/gsm7/charset/punjabi.go:121-200 (septet, rune). -/
def punjabiExtDecoder : List (UInt8 × Nat) := [
  (0, 64), (1, 163), (2, 36), (3, 165), (4, 191), (5, 34), (6, 164), (7, 37),
  (8, 38), (9, 39), (10, 12), (11, 42), (12, 43), (13, 13), (14, 45), (15, 47),
  (16, 60), (17, 61), (18, 62), (19, 161), (20, 94), (21, 161), (22, 95), (23, 35),
  (24, 42), (25, 2404), (26, 2405), (27, 27), (28, 2662), (29, 2663), (30, 2664), (31, 2665),
  (32, 2666), (33, 2667), (34, 2668), (35, 2669), (36, 2670), (37, 2671), (38, 2649), (39, 2650),
  (40, 123), (41, 125), (42, 2651), (43, 2652), (44, 2654), (45, 2677), (47, 92), (60, 91),
  (61, 126), (62, 93), (64, 124), (65, 65), (66, 66), (67, 67), (68, 68), (69, 69),
  (70, 70), (71, 71), (72, 72), (73, 73), (74, 74), (75, 75), (76, 76), (77, 77),
  (78, 78), (79, 79), (80, 80), (81, 81), (82, 82), (83, 83), (84, 84), (85, 85),
  (86, 86), (87, 87), (88, 88), (89, 89), (90, 90), (101, 8364)]

/-- `spanishExtDecoder`, encoding/gsm7/charset/spanish.go:8-29 (septet, rune). -/
def spanishExtDecoder : List (UInt8 × Nat) := [
  (9, 231), (10, 12), (13, 10), (20, 94), (40, 123), (41, 125), (47, 92), (60, 91),
  (61, 126), (62, 93), (64, 124), (65, 193), (73, 205), (79, 211), (85, 218), (97, 225),
  (101, 8364), (105, 237), (111, 243), (117, 250)]

/-- `tamilDecoder`, encoding/gsm7/charset/tamil.go:8-112 (septet, rune). -/
def tamilDecoder : List (UInt8 × Nat) := [
  (1, 2946), (2, 2947), (3, 2949), (4, 2950), (5, 2951), (6, 2952), (7, 2953), (8, 2954),
  (10, 10), (13, 13), (14, 2958), (15, 2959), (16, 2960), (18, 2962), (19, 2963), (20, 2964),
  (21, 2965), (25, 2969), (26, 2970), (27, 27), (29, 2972), (31, 2974), (32, 32), (33, 33),
  (34, 2975), (38, 2979), (39, 2980), (40, 41), (41, 40), (44, 44), (46, 46), (47, 2984),
  (48, 48), (49, 49), (50, 50), (51, 51), (52, 52), (53, 53), (54, 54), (55, 55),
  (56, 56), (57, 57), (58, 58), (59, 59), (60, 2985), (61, 2986), (63, 63), (66, 2990),
  (67, 2991), (68, 2992), (69, 2993), (70, 2994), (71, 2995), (72, 2996), (73, 2997), (74, 2998),
  (75, 2999), (76, 3000), (77, 3001), (80, 3006), (81, 3007), (82, 3008), (83, 3009), (84, 3010),
  (88, 3014), (89, 3015), (90, 3016), (92, 3018), (93, 3019), (94, 3020), (95, 3021), (96, 3024),
  (97, 97), (98, 98), (99, 99), (100, 100), (101, 101), (102, 102), (103, 103), (104, 104),
  (105, 105), (106, 106), (107, 107), (108, 108), (109, 109), (110, 110), (111, 111), (112, 112),
  (113, 113), (114, 114), (115, 115), (116, 116), (117, 117), (118, 118), (119, 119), (120, 120),
  (121, 121), (122, 122), (123, 3031), (124, 3056), (125, 3057), (126, 3058), (127, 3065)]

/-- `tamilExtDecoder`, encoding/gsm7/charset/tamil.go:113-193 (septet, rune). -/
def tamilExtDecoder : List (UInt8 × Nat) := [
  (0, 64), (1, 163), (2, 36), (3, 165), (4, 191), (5, 34), (6, 164), (7, 37),
  (8, 38), (9, 39), (10, 12), (11, 42), (12, 43), (13, 13), (14, 45), (15, 47),
  (16, 60), (17, 61), (18, 62), (19, 161), (20, 94), (21, 161), (22, 95), (23, 35),
  (24, 42), (25, 2404), (26, 2405), (27, 27), (28, 3046), (29, 3047), (30, 3048), (31, 3049),
  (32, 3050), (33, 3051), (34, 3052), (35, 3053), (36, 3054), (37, 3055), (38, 3059), (39, 3060),
  (40, 123), (41, 125), (42, 3061), (43, 3062), (44, 3063), (45, 3064), (46, 3066), (47, 92),
  (60, 91), (61, 126), (62, 93), (64, 124), (65, 65), (66, 66), (67, 67), (68, 68),
  (69, 69), (70, 70), (71, 71), (72, 72), (73, 73), (74, 74), (75, 75), (76, 76),
  (77, 77), (78, 78), (79, 79), (80, 80), (81, 81), (82, 82), (83, 83), (84, 84),
  (85, 85), (86, 86), (87, 87), (88, 88), (89, 89), (90, 90), (101, 8364)]

/-- `teluguDecoder`, encoding/gsm7/charset/telugu.go:8-130 (septet, rune). -/
def teluguDecoder : List (UInt8 × Nat) := [
  (0, 3073), (1, 3074), (2, 3075), (3, 3077), (4, 3078), (5, 3079), (6, 3080), (7, 3081),
  (8, 3082), (9, 3083), (10, 10), (11, 3084), (13, 13), (14, 3086), (15, 3087), (16, 3088),
  (18, 3090), (19, 3091), (20, 3092), (21, 3093), (22, 3094), (23, 3095), (24, 3096), (25, 3097),
  (26, 3098), (27, 27), (28, 3099), (29, 3100), (30, 3101), (31, 3102), (32, 32), (33, 33),
  (34, 3103), (35, 3104), (36, 3105), (37, 3106), (38, 3107), (39, 3108), (40, 41), (41, 40),
  (42, 3109), (43, 3110), (44, 44), (45, 3111), (46, 46), (47, 3112), (48, 48), (49, 49),
  (50, 50), (51, 51), (52, 52), (53, 53), (54, 54), (55, 55), (56, 56), (57, 57),
  (58, 58), (59, 59), (61, 3114), (62, 3115), (63, 63), (64, 3116), (65, 3117), (66, 3118),
  (67, 3119), (68, 3120), (69, 3121), (70, 3122), (71, 3123), (73, 3125), (74, 3126), (75, 3127),
  (76, 3128), (77, 3129), (79, 3133), (80, 3134), (81, 3135), (82, 3136), (83, 3137), (84, 3138),
  (85, 3139), (86, 3140), (88, 3142), (89, 3143), (90, 3144), (92, 3146), (93, 3147), (94, 3148),
  (95, 3149), (96, 3157), (97, 97), (98, 98), (99, 99), (100, 100), (101, 101), (102, 102),
  (103, 103), (104, 104), (105, 105), (106, 106), (107, 107), (108, 108), (109, 109), (110, 110),
  (111, 111), (112, 112), (113, 113), (114, 114), (115, 115), (116, 116), (117, 117), (118, 118),
  (119, 119), (120, 120), (121, 121), (122, 122), (123, 3158), (124, 3168), (125, 3169), (126, 3170),
  (127, 3171)]

/-- `teluguExtDecoder`, encoding/gsm7/charset/telugu.go:131-212 (septet, rune). -/
def teluguExtDecoder : List (UInt8 × Nat) := [
  (0, 64), (1, 163), (2, 36), (3, 165), (4, 191), (5, 34), (6, 164), (7, 37),
  (8, 38), (9, 39), (10, 12), (11, 42), (12, 43), (13, 13), (14, 45), (15, 47),
  (16, 60), (17, 61), (18, 62), (19, 161), (20, 94), (21, 161), (22, 95), (23, 35),
  (24, 42), (27, 27), (28, 3174), (29, 3175), (30, 3176), (31, 3177), (32, 3178), (33, 3179),
  (34, 3180), (35, 3181), (36, 3182), (37, 3183), (38, 3160), (39, 3161), (40, 123), (41, 125),
  (42, 3192), (43, 3193), (44, 3194), (45, 3195), (46, 3196), (47, 92), (48, 3197), (49, 3198),
  (50, 3199), (60, 91), (61, 126), (62, 93), (64, 124), (65, 65), (66, 66), (67, 67),
  (68, 68), (69, 69), (70, 70), (71, 71), (72, 72), (73, 73), (74, 74), (75, 75),
  (76, 76), (77, 77), (78, 78), (79, 79), (80, 80), (81, 81), (82, 82), (83, 83),
  (84, 84), (85, 85), (86, 86), (87, 87), (88, 88), (89, 89), (90, 90), (101, 8364)]

/-- `turkishExtDecoder`, encoding/gsm7/charset/turkish.go:9-28 (septet, rune). -/
def turkishExtDecoder : List (UInt8 × Nat) := [
  (10, 12), (13, 10), (20, 94), (40, 123), (41, 125), (47, 92), (60, 91), (61, 126),
  (62, 93), (64, 124), (71, 286), (73, 304), (83, 350), (99, 231), (101, 8364), (103, 287),
  (105, 305), (115, 351)]

/-- `turkishRunes`, encoding/gsm7/charset/turkish.go:31-34; 128 runes. -/
def turkishRunes : List Nat := [
  64, 163, 36, 165, 8364, 233, 249, 305, 242, 199, 10, 286, 287, 13, 197, 229,
  916, 95, 934, 915, 923, 937, 928, 936, 931, 920, 926, 27, 350, 351, 223, 201,
  32, 33, 34, 35, 164, 37, 38, 39, 40, 41, 42, 43, 44, 45, 46, 47,
  48, 49, 50, 51, 52, 53, 54, 55, 56, 57, 58, 59, 60, 61, 62, 63,
  304, 65, 66, 67, 68, 69, 70, 71, 72, 73, 74, 75, 76, 77, 78, 79,
  80, 81, 82, 83, 84, 85, 86, 87, 88, 89, 90, 196, 214, 209, 220, 167,
  231, 97, 98, 99, 100, 101, 102, 103, 104, 105, 106, 107, 108, 109, 110, 111,
  112, 113, 114, 115, 116, 117, 118, 119, 120, 121, 122, 228, 246, 241, 252, 224]

/-- `urduDecoder`, encoding/gsm7/charset/urdu.go:8-138 (septet, rune). -/
def urduDecoder : List (UInt8 × Nat) := [
  (0, 1575), (1, 1570), (2, 1576), (3, 1659), (4, 1664), (5, 1662), (6, 1702), (7, 1578),
  (8, 1730), (9, 1663), (10, 10), (11, 1657), (12, 1661), (13, 13), (14, 1658), (15, 1660),
  (16, 1579), (17, 1580), (18, 1665), (19, 1668), (20, 1667), (21, 1669), (22, 1670), (23, 1671),
  (24, 1581), (25, 1582), (26, 1583), (27, 27), (28, 1676), (29, 1672), (30, 1673), (31, 1674),
  (32, 32), (33, 33), (34, 1679), (35, 1677), (36, 1584), (37, 1585), (38, 1681), (39, 1683),
  (40, 41), (41, 40), (42, 1689), (43, 1586), (44, 44), (45, 1686), (46, 46), (47, 1688),
  (48, 48), (49, 49), (50, 50), (51, 51), (52, 52), (53, 53), (54, 54), (55, 55),
  (56, 56), (57, 57), (58, 58), (59, 59), (60, 1690), (61, 1587), (62, 1588), (63, 63),
  (64, 1589), (65, 1590), (66, 1591), (67, 1592), (68, 1593), (69, 1601), (70, 1602), (71, 1705),
  (72, 1706), (73, 1707), (74, 1711), (75, 1715), (76, 1713), (77, 1604), (78, 1605), (79, 1606),
  (80, 1722), (81, 1723), (82, 1724), (83, 1608), (84, 1732), (85, 1749), (86, 1729), (87, 1726),
  (88, 1569), (89, 1740), (90, 1744), (91, 1746), (92, 1613), (93, 1616), (94, 1615), (95, 1623),
  (96, 1620), (97, 97), (98, 98), (99, 99), (100, 100), (101, 101), (102, 102), (103, 103),
  (104, 104), (105, 105), (106, 106), (107, 107), (108, 108), (109, 109), (110, 110), (111, 111),
  (112, 112), (113, 113), (114, 114), (115, 115), (116, 116), (117, 117), (118, 118), (119, 119),
  (120, 120), (121, 121), (122, 122), (123, 1621), (124, 1617), (125, 1619), (126, 1622), (127, 1648)]

/-- `urduExtDecoder`, encoding/gsm7/charset/urdu.go:139-232 (septet, rune). -/
def urduExtDecoder : List (UInt8 × Nat) := [
  (0, 64), (1, 163), (2, 36), (3, 165), (4, 191), (5, 34), (6, 164), (7, 37),
  (8, 38), (9, 39), (10, 12), (11, 42), (12, 43), (13, 13), (14, 45), (15, 47),
  (16, 60), (17, 61), (18, 62), (19, 161), (20, 94), (21, 161), (22, 95), (23, 35),
  (24, 42), (25, 1536), (26, 1537), (27, 27), (28, 1776), (29, 1777), (30, 1778), (31, 1779),
  (32, 1780), (33, 1781), (34, 1782), (35, 1783), (36, 1784), (37, 1785), (38, 1548), (39, 1549),
  (40, 123), (41, 125), (42, 1550), (43, 1551), (44, 1552), (45, 1553), (46, 1554), (47, 92),
  (48, 1555), (49, 1556), (50, 1563), (51, 1567), (52, 1600), (53, 1618), (54, 1624), (55, 1643),
  (56, 1644), (57, 1650), (58, 1651), (59, 1741), (60, 91), (61, 126), (62, 93), (63, 1748),
  (64, 124), (65, 65), (66, 66), (67, 67), (68, 68), (69, 69), (70, 70), (71, 71),
  (72, 72), (73, 73), (74, 74), (75, 75), (76, 76), (77, 77), (78, 78), (79, 79),
  (80, 80), (81, 81), (82, 82), (83, 83), (84, 84), (85, 85), (86, 86), (87, 87),
  (88, 88), (89, 89), (90, 90), (101, 8364)]

end Verif.Model.CharsetData

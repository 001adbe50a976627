import Verif.Lemmas.RoundNearest
/-! # Roundings of binary64 used in `Props/Binary64.lean` (generated by tools/binary64.py) -/

namespace SkSpatial.Binary64

theorem line_0 : roundNearest 53 (1 * 1) = 1 := by
  refine rn53 0 4503599627370496 ?_ ?_ ?_ ?_ ?_ <;> norm_num

theorem line_1 : roundNearest 53 (3 * 3) = 9 := by
  refine rn53 3 5066549580791808 ?_ ?_ ?_ ?_ ?_ <;> norm_num

theorem line_2 : roundNearest 53 (0 + 1) = 1 := by
  refine rn53 0 4503599627370496 ?_ ?_ ?_ ?_ ?_ <;> norm_num

theorem line_3 : roundNearest 53 (1 + 9) = 10 := by
  refine rn53 3 5629499534213120 ?_ ?_ ?_ ?_ ?_ <;> norm_num

theorem line_4 : roundNearest 53 (0 - 0) = 0 := by
  norm_num [roundNearest_zero]

theorem line_5 : roundNearest 53 (1 - 0) = 1 := by
  refine rn53 0 4503599627370496 ?_ ?_ ?_ ?_ ?_ <;> norm_num

theorem line_6 : roundNearest 53 (1 * 0) = 0 := by
  norm_num [roundNearest_zero]

theorem line_7 : roundNearest 53 (3 * 1) = 3 := by
  refine rn53 1 6755399441055744 ?_ ?_ ?_ ?_ ?_ <;> norm_num

theorem line_8 : roundNearest 53 (0 + 0) = 0 := by
  norm_num [roundNearest_zero]

theorem line_9 : roundNearest 53 (0 + 3) = 3 := by
  refine rn53 1 6755399441055744 ?_ ?_ ?_ ?_ ?_ <;> norm_num

theorem line_10 : roundNearest 53 (3 / 10) = (5404319552844595 / 18014398509481984) := by
  refine rn53 (-2) 5404319552844595 ?_ ?_ ?_ ?_ ?_ <;> norm_num

theorem line_11 : roundNearest 53 ((5404319552844595 / 18014398509481984) * 1) = (5404319552844595 / 18014398509481984) := by
  refine rn53 (-2) 5404319552844595 ?_ ?_ ?_ ?_ ?_ <;> norm_num

theorem line_12 : roundNearest 53 ((5404319552844595 / 18014398509481984) * 3) = (2026619832316723 / 2251799813685248) := by
  refine rn53_tie (-1) 8106479329266892 (by decide) ?_ ?_ ?_ ?_ ?_ <;> norm_num

theorem line_13 : roundNearest 53 (0 + (5404319552844595 / 18014398509481984)) = (5404319552844595 / 18014398509481984) := by
  refine rn53 (-2) 5404319552844595 ?_ ?_ ?_ ?_ ?_ <;> norm_num

theorem line_14 : roundNearest 53 (0 + (2026619832316723 / 2251799813685248)) = (2026619832316723 / 2251799813685248) := by
  refine rn53 (-1) 8106479329266892 ?_ ?_ ?_ ?_ ?_ <;> norm_num

theorem line_15 : roundNearest 53 ((5404319552844595 / 18014398509481984) - 0) = (5404319552844595 / 18014398509481984) := by
  refine rn53 (-2) 5404319552844595 ?_ ?_ ?_ ?_ ?_ <;> norm_num

theorem line_16 : roundNearest 53 ((2026619832316723 / 2251799813685248) - 0) = (2026619832316723 / 2251799813685248) := by
  refine rn53 (-1) 8106479329266892 ?_ ?_ ?_ ?_ ?_ <;> norm_num

theorem line_17 : roundNearest 53 (1 * (5404319552844595 / 18014398509481984)) = (5404319552844595 / 18014398509481984) := by
  refine rn53 (-2) 5404319552844595 ?_ ?_ ?_ ?_ ?_ <;> norm_num

theorem line_18 : roundNearest 53 (3 * (2026619832316723 / 2251799813685248)) = (6079859496950169 / 2251799813685248) := by
  refine rn53 1 6079859496950169 ?_ ?_ ?_ ?_ ?_ <;> norm_num

theorem line_19 : roundNearest 53 ((5404319552844595 / 18014398509481984) + (6079859496950169 / 2251799813685248)) = (6755399441055743 / 2251799813685248) := by
  refine rn53 1 6755399441055743 ?_ ?_ ?_ ?_ ?_ <;> norm_num

theorem line_20 : roundNearest 53 ((6755399441055743 / 2251799813685248) / 10) = (2702159776422297 / 9007199254740992) := by
  refine rn53 (-2) 5404319552844594 ?_ ?_ ?_ ?_ ?_ <;> norm_num

theorem line_21 : roundNearest 53 ((2702159776422297 / 9007199254740992) * 1) = (2702159776422297 / 9007199254740992) := by
  refine rn53 (-2) 5404319552844594 ?_ ?_ ?_ ?_ ?_ <;> norm_num

theorem line_22 : roundNearest 53 ((2702159776422297 / 9007199254740992) * 3) = (8106479329266891 / 9007199254740992) := by
  refine rn53 (-1) 8106479329266891 ?_ ?_ ?_ ?_ ?_ <;> norm_num

theorem line_23 : roundNearest 53 (0 + (2702159776422297 / 9007199254740992)) = (2702159776422297 / 9007199254740992) := by
  refine rn53 (-2) 5404319552844594 ?_ ?_ ?_ ?_ ?_ <;> norm_num

theorem line_24 : roundNearest 53 (0 + (8106479329266891 / 9007199254740992)) = (8106479329266891 / 9007199254740992) := by
  refine rn53 (-1) 8106479329266891 ?_ ?_ ?_ ?_ ?_ <;> norm_num

theorem line_25 : roundNearest 53 ((5404319552844595 / 18014398509481984) - (2702159776422297 / 9007199254740992)) = (1 / 18014398509481984) := by
  refine rn53 (-54) 4503599627370496 ?_ ?_ ?_ ?_ ?_ <;> norm_num

theorem line_26 : roundNearest 53 ((2026619832316723 / 2251799813685248) - (8106479329266891 / 9007199254740992)) = (1 / 9007199254740992) := by
  refine rn53 (-53) 4503599627370496 ?_ ?_ ?_ ?_ ?_ <;> norm_num

theorem line_27 : roundNearest 53 ((1 / 18014398509481984) * (1 / 18014398509481984)) = (1 / 324518553658426726783156020576256) := by
  refine rn53 (-108) 4503599627370496 ?_ ?_ ?_ ?_ ?_ <;> norm_num

theorem line_28 : roundNearest 53 ((1 / 9007199254740992) * (1 / 9007199254740992)) = (1 / 81129638414606681695789005144064) := by
  refine rn53 (-106) 4503599627370496 ?_ ?_ ?_ ?_ ?_ <;> norm_num

theorem line_29 : roundNearest 53 (0 + (1 / 324518553658426726783156020576256)) = (1 / 324518553658426726783156020576256) := by
  refine rn53 (-108) 4503599627370496 ?_ ?_ ?_ ?_ ?_ <;> norm_num

theorem line_30 : roundNearest 53 ((1 / 324518553658426726783156020576256) + (1 / 81129638414606681695789005144064)) = (5 / 324518553658426726783156020576256) := by
  refine rn53 (-106) 5629499534213120 ?_ ?_ ?_ ?_ ?_ <;> norm_num

theorem line_31 : roundNearest 53 (Real.sqrt (5 / 324518553658426726783156020576256)) = (629397181890197 / 5070602400912917605986812821504) := by
  refine rn53_sqrt (-53) 5035177455121576 (by norm_num) ?_ ?_ ?_ ?_ ?_ <;> norm_num

theorem plane_0 : roundNearest 53 (0 - 0) = 0 := by
  norm_num [roundNearest_zero]

theorem plane_1 : roundNearest 53 (0 - 1) = (-1) := by
  refine rn53_neg 0 4503599627370496 ?_ ?_ ?_ ?_ ?_ <;> norm_num

theorem plane_2 : roundNearest 53 (1 * 0) = 0 := by
  norm_num [roundNearest_zero]

theorem plane_3 : roundNearest 53 (2 * (-1)) = (-2) := by
  refine rn53_neg 1 4503599627370496 ?_ ?_ ?_ ?_ ?_ <;> norm_num

theorem plane_4 : roundNearest 53 (0 * 0) = 0 := by
  norm_num [roundNearest_zero]

theorem plane_5 : roundNearest 53 (0 + 0) = 0 := by
  norm_num [roundNearest_zero]

theorem plane_6 : roundNearest 53 (0 + (-2)) = (-2) := by
  refine rn53_neg 1 4503599627370496 ?_ ?_ ?_ ?_ ?_ <;> norm_num

theorem plane_7 : roundNearest 53 ((-2) + 0) = (-2) := by
  refine rn53_neg 1 4503599627370496 ?_ ?_ ?_ ?_ ?_ <;> norm_num

theorem plane_8 : roundNearest 53 (1 * 1) = 1 := by
  refine rn53 0 4503599627370496 ?_ ?_ ?_ ?_ ?_ <;> norm_num

theorem plane_9 : roundNearest 53 (2 * 2) = 4 := by
  refine rn53 2 4503599627370496 ?_ ?_ ?_ ?_ ?_ <;> norm_num

theorem plane_10 : roundNearest 53 (0 + 1) = 1 := by
  refine rn53 0 4503599627370496 ?_ ?_ ?_ ?_ ?_ <;> norm_num

theorem plane_11 : roundNearest 53 (1 + 4) = 5 := by
  refine rn53 2 5629499534213120 ?_ ?_ ?_ ?_ ?_ <;> norm_num

theorem plane_12 : roundNearest 53 (5 + 0) = 5 := by
  refine rn53 2 5629499534213120 ?_ ?_ ?_ ?_ ?_ <;> norm_num

theorem plane_13 : roundNearest 53 ((-2) / 5) = (-(3602879701896397 / 9007199254740992)) := by
  refine rn53_neg (-2) 7205759403792794 ?_ ?_ ?_ ?_ ?_ <;> norm_num

theorem plane_14 : roundNearest 53 ((-(3602879701896397 / 9007199254740992)) * 1) = (-(3602879701896397 / 9007199254740992)) := by
  refine rn53_neg (-2) 7205759403792794 ?_ ?_ ?_ ?_ ?_ <;> norm_num

theorem plane_15 : roundNearest 53 ((-(3602879701896397 / 9007199254740992)) * 2) = (-(3602879701896397 / 4503599627370496)) := by
  refine rn53_neg (-1) 7205759403792794 ?_ ?_ ?_ ?_ ?_ <;> norm_num

theorem plane_16 : roundNearest 53 ((-(3602879701896397 / 9007199254740992)) * 0) = 0 := by
  norm_num [roundNearest_zero]

theorem plane_17 : roundNearest 53 (0 + (-(3602879701896397 / 9007199254740992))) = (-(3602879701896397 / 9007199254740992)) := by
  refine rn53_neg (-2) 7205759403792794 ?_ ?_ ?_ ?_ ?_ <;> norm_num

theorem plane_18 : roundNearest 53 (1 + (-(3602879701896397 / 4503599627370496))) = (900719925474099 / 4503599627370496) := by
  refine rn53 (-3) 7205759403792792 ?_ ?_ ?_ ?_ ?_ <;> norm_num

theorem plane_19 : roundNearest 53 (Real.sqrt 5) = (629397181890197 / 281474976710656) := by
  refine rn53_sqrt 1 5035177455121576 (by norm_num) ?_ ?_ ?_ ?_ ?_ <;> norm_num

theorem plane_20 : roundNearest 53 (1 / (629397181890197 / 281474976710656)) = (8056283928194521 / 18014398509481984) := by
  refine rn53 (-2) 8056283928194521 ?_ ?_ ?_ ?_ ?_ <;> norm_num

theorem plane_21 : roundNearest 53 (2 / (629397181890197 / 281474976710656)) = (8056283928194521 / 9007199254740992) := by
  refine rn53 (-1) 8056283928194521 ?_ ?_ ?_ ?_ ?_ <;> norm_num

theorem plane_22 : roundNearest 53 (0 / (629397181890197 / 281474976710656)) = 0 := by
  norm_num [roundNearest_zero]

theorem plane_23 : roundNearest 53 ((-(3602879701896397 / 9007199254740992)) - 0) = (-(3602879701896397 / 9007199254740992)) := by
  refine rn53_neg (-2) 7205759403792794 ?_ ?_ ?_ ?_ ?_ <;> norm_num

theorem plane_24 : roundNearest 53 ((900719925474099 / 4503599627370496) - 0) = (900719925474099 / 4503599627370496) := by
  refine rn53 (-3) 7205759403792792 ?_ ?_ ?_ ?_ ?_ <;> norm_num

theorem plane_25 : roundNearest 53 ((8056283928194521 / 18014398509481984) * (-(3602879701896397 / 9007199254740992))) = (-(6445027142555617 / 36028797018963968)) := by
  refine rn53_neg (-3) 6445027142555617 ?_ ?_ ?_ ?_ ?_ <;> norm_num

theorem plane_26 : roundNearest 53 ((8056283928194521 / 9007199254740992) * (900719925474099 / 4503599627370496)) = (6445027142555615 / 36028797018963968) := by
  refine rn53 (-3) 6445027142555615 ?_ ?_ ?_ ?_ ?_ <;> norm_num

theorem plane_27 : roundNearest 53 (0 + (-(6445027142555617 / 36028797018963968))) = (-(6445027142555617 / 36028797018963968)) := by
  refine rn53_neg (-3) 6445027142555617 ?_ ?_ ?_ ?_ ?_ <;> norm_num

theorem plane_28 : roundNearest 53 ((-(6445027142555617 / 36028797018963968)) + (6445027142555615 / 36028797018963968)) = (-(1 / 18014398509481984)) := by
  refine rn53_neg (-54) 4503599627370496 ?_ ?_ ?_ ?_ ?_ <;> norm_num

theorem plane_29 : roundNearest 53 ((-(1 / 18014398509481984)) + 0) = (-(1 / 18014398509481984)) := by
  refine rn53_neg (-54) 4503599627370496 ?_ ?_ ?_ ?_ ?_ <;> norm_num

theorem circle_0 : roundNearest 53 (1 - 0) = 1 := by
  refine rn53 0 4503599627370496 ?_ ?_ ?_ ?_ ?_ <;> norm_num

theorem circle_1 : roundNearest 53 (1 * 1) = 1 := by
  refine rn53 0 4503599627370496 ?_ ?_ ?_ ?_ ?_ <;> norm_num

theorem circle_2 : roundNearest 53 (0 + 1) = 1 := by
  refine rn53 0 4503599627370496 ?_ ?_ ?_ ?_ ?_ <;> norm_num

theorem circle_3 : roundNearest 53 (1 + 1) = 2 := by
  refine rn53 1 4503599627370496 ?_ ?_ ?_ ?_ ?_ <;> norm_num

theorem circle_4 : roundNearest 53 (Real.sqrt 2) = (6369051672525773 / 4503599627370496) := by
  refine rn53_sqrt 0 6369051672525773 (by norm_num) ?_ ?_ ?_ ?_ ?_ <;> norm_num

theorem circle_5 : roundNearest 53 (1 / (6369051672525773 / 4503599627370496)) = (1592262918131443 / 2251799813685248) := by
  refine rn53 (-1) 6369051672525772 ?_ ?_ ?_ ?_ ?_ <;> norm_num

theorem circle_6 : roundNearest 53 (1 * (1592262918131443 / 2251799813685248)) = (1592262918131443 / 2251799813685248) := by
  refine rn53 (-1) 6369051672525772 ?_ ?_ ?_ ?_ ?_ <;> norm_num

theorem circle_7 : roundNearest 53 (0 + (1592262918131443 / 2251799813685248)) = (1592262918131443 / 2251799813685248) := by
  refine rn53 (-1) 6369051672525772 ?_ ?_ ?_ ?_ ?_ <;> norm_num

theorem circle_8 : roundNearest 53 ((1592262918131443 / 2251799813685248) - 0) = (1592262918131443 / 2251799813685248) := by
  refine rn53 (-1) 6369051672525772 ?_ ?_ ?_ ?_ ?_ <;> norm_num

theorem circle_9 : roundNearest 53 ((1592262918131443 / 2251799813685248) * (1592262918131443 / 2251799813685248)) = (4503599627370495 / 9007199254740992) := by
  refine rn53 (-2) 9007199254740990 ?_ ?_ ?_ ?_ ?_ <;> norm_num

theorem circle_10 : roundNearest 53 (0 + (4503599627370495 / 9007199254740992)) = (4503599627370495 / 9007199254740992) := by
  refine rn53 (-2) 9007199254740990 ?_ ?_ ?_ ?_ ?_ <;> norm_num

theorem circle_11 : roundNearest 53 ((4503599627370495 / 9007199254740992) + (4503599627370495 / 9007199254740992)) = (4503599627370495 / 4503599627370496) := by
  refine rn53 (-1) 9007199254740990 ?_ ?_ ?_ ?_ ?_ <;> norm_num

theorem circle_12 : roundNearest 53 (Real.sqrt (4503599627370495 / 4503599627370496)) = (9007199254740991 / 9007199254740992) := by
  refine rn53_sqrt (-1) 9007199254740991 (by norm_num) ?_ ?_ ?_ ?_ ?_ <;> norm_num

theorem circle_13 : roundNearest 53 ((9007199254740991 / 9007199254740992) - 1) = (-(1 / 9007199254740992)) := by
  refine rn53_neg (-53) 4503599627370496 ?_ ?_ ?_ ?_ ?_ <;> norm_num

theorem tri_0 : roundNearest 53 (9983 - 4118) = 5865 := by
  refine rn53 12 6448635696906240 ?_ ?_ ?_ ?_ ?_ <;> norm_num

theorem tri_1 : roundNearest 53 (80 - 33) = 47 := by
  refine rn53 5 6614661952700416 ?_ ?_ ?_ ?_ ?_ <;> norm_num

theorem tri_2 : roundNearest 53 (5865 * 5865) = 34398225 := by
  refine rn53 25 4616851606732800 ?_ ?_ ?_ ?_ ?_ <;> norm_num

theorem tri_3 : roundNearest 53 (47 * 47) = 2209 := by
  refine rn53 11 4857642371514368 ?_ ?_ ?_ ?_ ?_ <;> norm_num

theorem tri_4 : roundNearest 53 (0 + 34398225) = 34398225 := by
  refine rn53 25 4616851606732800 ?_ ?_ ?_ ?_ ?_ <;> norm_num

theorem tri_5 : roundNearest 53 (34398225 + 2209) = 34400434 := by
  refine rn53 25 4617148093693952 ?_ ?_ ?_ ?_ ?_ <;> norm_num

theorem tri_6 : roundNearest 53 (Real.sqrt 34400434) = (1612210688552929 / 274877906944) := by
  refine rn53_sqrt 12 6448842754211716 (by norm_num) ?_ ?_ ?_ ?_ ?_ <;> norm_num

theorem tri_7 : roundNearest 53 (0 - 9983) = (-9983) := by
  refine rn53_neg 13 5488212290043904 ?_ ?_ ?_ ?_ ?_ <;> norm_num

theorem tri_8 : roundNearest 53 (0 - 80) = (-80) := by
  refine rn53_neg 6 5629499534213120 ?_ ?_ ?_ ?_ ?_ <;> norm_num

theorem tri_9 : roundNearest 53 ((-9983) * (-9983)) = 99660289 := by
  refine rn53 26 6688088780701696 ?_ ?_ ?_ ?_ ?_ <;> norm_num

theorem tri_10 : roundNearest 53 ((-80) * (-80)) = 6400 := by
  refine rn53 12 7036874417766400 ?_ ?_ ?_ ?_ ?_ <;> norm_num

theorem tri_11 : roundNearest 53 (0 + 99660289) = 99660289 := by
  refine rn53 26 6688088780701696 ?_ ?_ ?_ ?_ ?_ <;> norm_num

theorem tri_12 : roundNearest 53 (99660289 + 6400) = 99666689 := by
  refine rn53 26 6688518277431296 ?_ ?_ ?_ ?_ ?_ <;> norm_num

theorem tri_13 : roundNearest 53 (Real.sqrt 99666689) = (343024281790733 / 34359738368) := by
  refine rn53_sqrt 13 5488388508651728 (by norm_num) ?_ ?_ ?_ ?_ ?_ <;> norm_num

theorem tri_14 : roundNearest 53 (4118 - 0) = 4118 := by
  refine rn53 12 4527788883181568 ?_ ?_ ?_ ?_ ?_ <;> norm_num

theorem tri_15 : roundNearest 53 (33 - 0) = 33 := by
  refine rn53 5 4644337115725824 ?_ ?_ ?_ ?_ ?_ <;> norm_num

theorem tri_16 : roundNearest 53 (4118 * 4118) = 16957924 := by
  refine rn53 24 4552108061753344 ?_ ?_ ?_ ?_ ?_ <;> norm_num

theorem tri_17 : roundNearest 53 (33 * 33) = 1089 := by
  refine rn53 10 4789472650592256 ?_ ?_ ?_ ?_ ?_ <;> norm_num

theorem tri_18 : roundNearest 53 (0 + 16957924) = 16957924 := by
  refine rn53 24 4552108061753344 ?_ ?_ ?_ ?_ ?_ <;> norm_num

theorem tri_19 : roundNearest 53 (16957924 + 1089) = 16959013 := by
  refine rn53 24 4552400387964928 ?_ ?_ ?_ ?_ ?_ <;> norm_num

theorem tri_20 : roundNearest 53 (Real.sqrt 16959013) = (4527934263091741 / 1099511627776) := by
  refine rn53_sqrt 12 4527934263091741 (by norm_num) ?_ ?_ ?_ ?_ ?_ <;> norm_num

theorem tri_21 : roundNearest 53 ((343024281790733 / 34359738368) * (343024281790733 / 34359738368)) = (6688518277431297 / 67108864) := by
  refine rn53 26 6688518277431297 ?_ ?_ ?_ ?_ ?_ <;> norm_num

theorem tri_22 : roundNearest 53 ((4527934263091741 / 1099511627776) * (4527934263091741 / 1099511627776)) = (4552400387964927 / 268435456) := by
  refine rn53 24 4552400387964927 ?_ ?_ ?_ ?_ ?_ <;> norm_num

theorem tri_23 : roundNearest 53 ((6688518277431297 / 67108864) + (4552400387964927 / 268435456)) = (7826618374422529 / 67108864) := by
  refine rn53 26 7826618374422529 ?_ ?_ ?_ ?_ ?_ <;> norm_num

theorem tri_24 : roundNearest 53 ((1612210688552929 / 274877906944) * (1612210688552929 / 274877906944)) = (4617148093693951 / 134217728) := by
  refine rn53 25 4617148093693951 ?_ ?_ ?_ ?_ ?_ <;> norm_num

theorem tri_25 : roundNearest 53 ((7826618374422529 / 67108864) - (4617148093693951 / 134217728)) = (2759022163787777 / 33554432) := by
  refine rn53_tie 26 5518044327575554 (by decide) ?_ ?_ ?_ ?_ ?_ <;> norm_num

theorem tri_26 : roundNearest 53 (2 * (343024281790733 / 34359738368)) = (343024281790733 / 17179869184) := by
  refine rn53 14 5488388508651728 ?_ ?_ ?_ ?_ ?_ <;> norm_num

theorem tri_27 : roundNearest 53 ((343024281790733 / 17179869184) * (4527934263091741 / 1099511627776)) = (5518044327575553 / 67108864) := by
  refine rn53 26 5518044327575553 ?_ ?_ ?_ ?_ ?_ <;> norm_num

theorem tri_28 : roundNearest 53 ((2759022163787777 / 33554432) / (5518044327575553 / 67108864)) = (4503599627370497 / 4503599627370496) := by
  refine rn53 0 4503599627370497 ?_ ?_ ?_ ?_ ?_ <;> norm_num

theorem cyl_0 : roundNearest 53 (0 - 0) = 0 := by
  norm_num [roundNearest_zero]

theorem cyl_1 : roundNearest 53 (1 - 0) = 1 := by
  refine rn53 0 4503599627370496 ?_ ?_ ?_ ?_ ?_ <;> norm_num

theorem cyl_2 : roundNearest 53 (5 - 0) = 5 := by
  refine rn53 2 5629499534213120 ?_ ?_ ?_ ?_ ?_ <;> norm_num

theorem cyl_3 : roundNearest 53 (0 * 0) = 0 := by
  norm_num [roundNearest_zero]

theorem cyl_4 : roundNearest 53 (1 * 1) = 1 := by
  refine rn53 0 4503599627370496 ?_ ?_ ?_ ?_ ?_ <;> norm_num

theorem cyl_5 : roundNearest 53 (5 * 5) = 25 := by
  refine rn53 4 7036874417766400 ?_ ?_ ?_ ?_ ?_ <;> norm_num

theorem cyl_6 : roundNearest 53 (0 + 0) = 0 := by
  norm_num [roundNearest_zero]

theorem cyl_7 : roundNearest 53 (0 + 1) = 1 := by
  refine rn53 0 4503599627370496 ?_ ?_ ?_ ?_ ?_ <;> norm_num

theorem cyl_8 : roundNearest 53 (1 + 25) = 26 := by
  refine rn53 4 7318349394477056 ?_ ?_ ?_ ?_ ?_ <;> norm_num

theorem cyl_9 : roundNearest 53 (26 / 26) = 1 := by
  refine rn53 0 4503599627370496 ?_ ?_ ?_ ?_ ?_ <;> norm_num

theorem cyl_10 : roundNearest 53 (1 * 0) = 0 := by
  norm_num [roundNearest_zero]

theorem cyl_11 : roundNearest 53 (1 * 5) = 5 := by
  refine rn53 2 5629499534213120 ?_ ?_ ?_ ?_ ?_ <;> norm_num

theorem cyl_12 : roundNearest 53 (0 + 5) = 5 := by
  refine rn53 2 5629499534213120 ?_ ?_ ?_ ?_ ?_ <;> norm_num

theorem cyl_13 : roundNearest 53 (1 - 1) = 0 := by
  norm_num [roundNearest_zero]

theorem cyl_14 : roundNearest 53 (5 - 5) = 0 := by
  norm_num [roundNearest_zero]

theorem cyl_15 : roundNearest 53 (Real.sqrt 0) = 0 := by
  rw [Real.sqrt_zero, roundNearest_zero]

theorem cyl_16 : roundNearest 53 (Real.sqrt 26) = (2870492797671419 / 562949953421312) := by
  refine rn53_sqrt 2 5740985595342838 (by norm_num) ?_ ?_ ?_ ?_ ?_ <;> norm_num

theorem cyl_17 : roundNearest 53 (0 / (2870492797671419 / 562949953421312)) = 0 := by
  norm_num [roundNearest_zero]

theorem cyl_18 : roundNearest 53 (1 / (2870492797671419 / 562949953421312)) = (1766457106259335 / 9007199254740992) := by
  refine rn53 (-3) 7065828425037340 ?_ ?_ ?_ ?_ ?_ <;> norm_num

theorem cyl_19 : roundNearest 53 (5 / (2870492797671419 / 562949953421312)) = (8832285531296675 / 9007199254740992) := by
  refine rn53 (-1) 8832285531296675 ?_ ?_ ?_ ?_ ?_ <;> norm_num

theorem cyl_20 : roundNearest 53 ((1766457106259335 / 9007199254740992) * 1) = (1766457106259335 / 9007199254740992) := by
  refine rn53 (-3) 7065828425037340 ?_ ?_ ?_ ?_ ?_ <;> norm_num

theorem cyl_21 : roundNearest 53 ((8832285531296675 / 9007199254740992) * 5) = (2760089228530211 / 562949953421312) := by
  refine rn53 2 5520178457060422 ?_ ?_ ?_ ?_ ?_ <;> norm_num

theorem cyl_22 : roundNearest 53 (0 + (1766457106259335 / 9007199254740992)) = (1766457106259335 / 9007199254740992) := by
  refine rn53 (-3) 7065828425037340 ?_ ?_ ?_ ?_ ?_ <;> norm_num

theorem cyl_23 : roundNearest 53 ((1766457106259335 / 9007199254740992) + (2760089228530211 / 562949953421312)) = (5740985595342839 / 1125899906842624) := by
  refine rn53 2 5740985595342839 ?_ ?_ ?_ ?_ ?_ <;> norm_num

end SkSpatial.Binary64

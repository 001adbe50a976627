import Verif.Lemmas.RoundNearest
/-! # Roundings of binary64 used in `Props/Rounding18.lean` (generated by tools/binary64.py) -/

namespace SkSpatial.Binary64

theorem par_0 : roundNearest 53 (1 * 1) = 1 := by
  refine rn53 0 4503599627370496 ?_ ?_ ?_ ?_ ?_ <;> norm_num

theorem par_1 : roundNearest 53 (0 * 0) = 0 := by
  norm_num [roundNearest_zero]

theorem par_2 : roundNearest 53 (0 + 1) = 1 := by
  refine rn53 0 4503599627370496 ?_ ?_ ?_ ?_ ?_ <;> norm_num

theorem par_3 : roundNearest 53 (1 + 1) = 2 := by
  refine rn53 1 4503599627370496 ?_ ?_ ?_ ?_ ?_ <;> norm_num

theorem par_4 : roundNearest 53 (2 + 0) = 2 := by
  refine rn53 1 4503599627370496 ?_ ?_ ?_ ?_ ?_ <;> norm_num

theorem par_5 : roundNearest 53 (Real.sqrt 2) = (6369051672525773 / 4503599627370496) := by
  refine rn53_sqrt 0 6369051672525773 (by norm_num) ?_ ?_ ?_ ?_ ?_ <;> norm_num

theorem par_6 : roundNearest 53 (1 / (6369051672525773 / 4503599627370496)) = (1592262918131443 / 2251799813685248) := by
  refine rn53 (-1) 6369051672525772 ?_ ?_ ?_ ?_ ?_ <;> norm_num

theorem par_7 : roundNearest 53 (0 / (6369051672525773 / 4503599627370496)) = 0 := by
  norm_num [roundNearest_zero]

theorem par_8 : roundNearest 53 (0 - 0) = 0 := by
  norm_num [roundNearest_zero]

theorem par_9 : roundNearest 53 ((1592262918131443 / 2251799813685248) * (1592262918131443 / 2251799813685248)) = (4503599627370495 / 9007199254740992) := by
  refine rn53 (-2) 9007199254740990 ?_ ?_ ?_ ?_ ?_ <;> norm_num

theorem par_10 : roundNearest 53 (0 + (4503599627370495 / 9007199254740992)) = (4503599627370495 / 9007199254740992) := by
  refine rn53 (-2) 9007199254740990 ?_ ?_ ?_ ?_ ?_ <;> norm_num

theorem par_11 : roundNearest 53 ((4503599627370495 / 9007199254740992) + (4503599627370495 / 9007199254740992)) = (4503599627370495 / 4503599627370496) := by
  refine rn53 (-1) 9007199254740990 ?_ ?_ ?_ ?_ ?_ <;> norm_num

theorem par_12 : roundNearest 53 ((4503599627370495 / 4503599627370496) + 0) = (4503599627370495 / 4503599627370496) := by
  refine rn53 (-1) 9007199254740990 ?_ ?_ ?_ ?_ ?_ <;> norm_num

theorem par_13 : roundNearest 53 ((4503599627370495 / 4503599627370496) * (1592262918131443 / 2251799813685248)) = (6369051672525771 / 9007199254740992) := by
  refine rn53 (-1) 6369051672525771 ?_ ?_ ?_ ?_ ?_ <;> norm_num

theorem par_14 : roundNearest 53 ((4503599627370495 / 4503599627370496) * 0) = 0 := by
  norm_num [roundNearest_zero]

theorem par_15 : roundNearest 53 ((1592262918131443 / 2251799813685248) - (6369051672525771 / 9007199254740992)) = (1 / 9007199254740992) := by
  refine rn53 (-53) 4503599627370496 ?_ ?_ ?_ ?_ ?_ <;> norm_num

theorem par_16 : roundNearest 53 (0 * (1592262918131443 / 2251799813685248)) = 0 := by
  norm_num [roundNearest_zero]

theorem par_17 : roundNearest 53 (0 + 0) = 0 := by
  norm_num [roundNearest_zero]

theorem par_18 : roundNearest 53 ((1 / 9007199254740992) * (1 / 9007199254740992)) = (1 / 81129638414606681695789005144064) := by
  refine rn53 (-106) 4503599627370496 ?_ ?_ ?_ ?_ ?_ <;> norm_num

theorem par_19 : roundNearest 53 (0 + (1 / 81129638414606681695789005144064)) = (1 / 81129638414606681695789005144064) := by
  refine rn53 (-106) 4503599627370496 ?_ ?_ ?_ ?_ ?_ <;> norm_num

theorem par_20 : roundNearest 53 ((1 / 81129638414606681695789005144064) + (1 / 81129638414606681695789005144064)) = (1 / 40564819207303340847894502572032) := by
  refine rn53 (-105) 4503599627370496 ?_ ?_ ?_ ?_ ?_ <;> norm_num

theorem par_21 : roundNearest 53 ((1 / 40564819207303340847894502572032) + 0) = (1 / 40564819207303340847894502572032) := by
  refine rn53 (-105) 4503599627370496 ?_ ?_ ?_ ?_ ?_ <;> norm_num

theorem par_22 : roundNearest 53 (Real.sqrt (1 / 40564819207303340847894502572032)) = (6369051672525773 / 40564819207303340847894502572032) := by
  refine rn53_sqrt (-53) 6369051672525773 (by norm_num) ?_ ?_ ?_ ?_ ?_ <;> norm_num

theorem par_23 : roundNearest 53 ((6369051672525773 / 40564819207303340847894502572032) * (6369051672525773 / 40564819207303340847894502572032)) = (4503599627370497 / 182687704666362864775460604089535377456991567872) := by
  refine rn53 (-105) 4503599627370497 ?_ ?_ ?_ ?_ ?_ <;> norm_num

theorem par_24 : roundNearest 53 ((1 / 9007199254740992) * 0) = 0 := by
  norm_num [roundNearest_zero]

theorem par_25 : roundNearest 53 (2 * 0) = 0 := by
  norm_num [roundNearest_zero]

theorem par_26 : roundNearest 53 (Real.sqrt 0) = 0 := by
  rw [Real.sqrt_zero, roundNearest_zero]

theorem par_27 : roundNearest 53 (0 - 1) = (-1) := by
  refine rn53_neg 0 4503599627370496 ?_ ?_ ?_ ?_ ?_ <;> norm_num

theorem par_28 : roundNearest 53 (4 * (4503599627370497 / 182687704666362864775460604089535377456991567872)) = (4503599627370497 / 45671926166590716193865151022383844364247891968) := by
  refine rn53 (-103) 4503599627370497 ?_ ?_ ?_ ?_ ?_ <;> norm_num

theorem par_29 : roundNearest 53 ((4503599627370497 / 45671926166590716193865151022383844364247891968) * (-1)) = (-(4503599627370497 / 45671926166590716193865151022383844364247891968)) := by
  refine rn53_neg (-103) 4503599627370497 ?_ ?_ ?_ ?_ ?_ <;> norm_num

theorem par_30 : roundNearest 53 (0 - (-(4503599627370497 / 45671926166590716193865151022383844364247891968))) = (4503599627370497 / 45671926166590716193865151022383844364247891968) := by
  refine rn53 (-103) 4503599627370497 ?_ ?_ ?_ ?_ ?_ <;> norm_num

theorem par_31 : roundNearest 53 (Real.sqrt (4503599627370497 / 45671926166590716193865151022383844364247891968)) = (6369051672525773 / 20282409603651670423947251286016) := by
  refine rn53_sqrt (-52) 6369051672525773 (by norm_num) ?_ ?_ ?_ ?_ ?_ <;> norm_num

theorem par_32 : roundNearest 53 ((-1) * (6369051672525773 / 20282409603651670423947251286016)) = (-(6369051672525773 / 20282409603651670423947251286016)) := by
  refine rn53_neg (-52) 6369051672525773 ?_ ?_ ?_ ?_ ?_ <;> norm_num

theorem par_33 : roundNearest 53 (0 + (-(6369051672525773 / 20282409603651670423947251286016))) = (-(6369051672525773 / 20282409603651670423947251286016)) := by
  refine rn53_neg (-52) 6369051672525773 ?_ ?_ ?_ ?_ ?_ <;> norm_num

theorem par_34 : roundNearest 53 (2 * (4503599627370497 / 182687704666362864775460604089535377456991567872)) = (4503599627370497 / 91343852333181432387730302044767688728495783936) := by
  refine rn53 (-104) 4503599627370497 ?_ ?_ ?_ ?_ ?_ <;> norm_num

theorem par_35 : roundNearest 53 ((-(6369051672525773 / 20282409603651670423947251286016)) / (4503599627370497 / 91343852333181432387730302044767688728495783936)) = (-6369051672525772) := by
  refine rn53_neg 52 6369051672525772 ?_ ?_ ?_ ?_ ?_ <;> norm_num

theorem par_36 : roundNearest 53 (1 * (6369051672525773 / 20282409603651670423947251286016)) = (6369051672525773 / 20282409603651670423947251286016) := by
  refine rn53 (-52) 6369051672525773 ?_ ?_ ?_ ?_ ?_ <;> norm_num

theorem par_37 : roundNearest 53 (0 + (6369051672525773 / 20282409603651670423947251286016)) = (6369051672525773 / 20282409603651670423947251286016) := by
  refine rn53 (-52) 6369051672525773 ?_ ?_ ?_ ?_ ?_ <;> norm_num

theorem par_38 : roundNearest 53 ((6369051672525773 / 20282409603651670423947251286016) / (4503599627370497 / 91343852333181432387730302044767688728495783936)) = 6369051672525772 := by
  refine rn53 52 6369051672525772 ?_ ?_ ?_ ?_ ?_ <;> norm_num

theorem par_39 : roundNearest 53 ((-6369051672525772) * (1592262918131443 / 2251799813685248)) = (-4503599627370495) := by
  refine rn53_neg 51 9007199254740990 ?_ ?_ ?_ ?_ ?_ <;> norm_num

theorem par_40 : roundNearest 53 ((-6369051672525772) * 0) = 0 := by
  norm_num [roundNearest_zero]

theorem par_41 : roundNearest 53 (0 + (-4503599627370495)) = (-4503599627370495) := by
  refine rn53_neg 51 9007199254740990 ?_ ?_ ?_ ?_ ?_ <;> norm_num

theorem par_42 : roundNearest 53 (6369051672525772 * (1592262918131443 / 2251799813685248)) = 4503599627370495 := by
  refine rn53 51 9007199254740990 ?_ ?_ ?_ ?_ ?_ <;> norm_num

theorem par_43 : roundNearest 53 (6369051672525772 * 0) = 0 := by
  norm_num [roundNearest_zero]

theorem par_44 : roundNearest 53 (0 + 4503599627370495) = 4503599627370495 := by
  refine rn53 51 9007199254740990 ?_ ?_ ?_ ?_ ?_ <;> norm_num

end SkSpatial.Binary64

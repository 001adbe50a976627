import Verif.Lemmas.RoundNearest
/-! # Roundings of binary64 used in `Props/Rounding21.lean` (generated by tools/binary64.py) -/

namespace SkSpatial.Binary64

theorem rima_0 : roundNearest 53 (0 * 0) = 0 := by
  norm_num [roundNearest_zero]

theorem rima_1 : roundNearest 53 (1 * 1) = 1 := by
  refine rn53 0 4503599627370496 ?_ ?_ ?_ ?_ ?_ <;> norm_num

theorem rima_2 : roundNearest 53 (0 + 0) = 0 := by
  norm_num [roundNearest_zero]

theorem rima_3 : roundNearest 53 (0 + 1) = 1 := by
  refine rn53 0 4503599627370496 ?_ ?_ ?_ ?_ ?_ <;> norm_num

theorem rima_4 : roundNearest 53 (55 * 55) = 3025 := by
  refine rn53 11 6652045348044800 ?_ ?_ ?_ ?_ ?_ <;> norm_num

theorem rima_5 : roundNearest 53 (11 * 11) = 121 := by
  refine rn53 6 8514618045497344 ?_ ?_ ?_ ?_ ?_ <;> norm_num

theorem rima_6 : roundNearest 53 (0 + 3025) = 3025 := by
  refine rn53 11 6652045348044800 ?_ ?_ ?_ ?_ ?_ <;> norm_num

theorem rima_7 : roundNearest 53 (3025 + 0) = 3025 := by
  refine rn53 11 6652045348044800 ?_ ?_ ?_ ?_ ?_ <;> norm_num

theorem rima_8 : roundNearest 53 (3025 + 121) = 3146 := by
  refine rn53 11 6918127161966592 ?_ ?_ ?_ ?_ ?_ <;> norm_num

theorem rima_9 : roundNearest 53 (17 - 0) = 17 := by
  refine rn53 4 4785074604081152 ?_ ?_ ?_ ?_ ?_ <;> norm_num

theorem rima_10 : roundNearest 53 (0 - 0) = 0 := by
  norm_num [roundNearest_zero]

theorem rima_11 : roundNearest 53 (4 - 0) = 4 := by
  refine rn53 2 4503599627370496 ?_ ?_ ?_ ?_ ?_ <;> norm_num

theorem rima_12 : roundNearest 53 (0 * 17) = 0 := by
  norm_num [roundNearest_zero]

theorem rima_13 : roundNearest 53 (1 * 4) = 4 := by
  refine rn53 2 4503599627370496 ?_ ?_ ?_ ?_ ?_ <;> norm_num

theorem rima_14 : roundNearest 53 (0 + 4) = 4 := by
  refine rn53 2 4503599627370496 ?_ ?_ ?_ ?_ ?_ <;> norm_num

theorem rima_15 : roundNearest 53 (0 * 55) = 0 := by
  norm_num [roundNearest_zero]

theorem rima_16 : roundNearest 53 (1 * 11) = 11 := by
  refine rn53 3 6192449487634432 ?_ ?_ ?_ ?_ ?_ <;> norm_num

theorem rima_17 : roundNearest 53 (0 + 11) = 11 := by
  refine rn53 3 6192449487634432 ?_ ?_ ?_ ?_ ?_ <;> norm_num

theorem rima_18 : roundNearest 53 ((-4) / 11) = (-(3275345183542179 / 9007199254740992)) := by
  refine rn53_neg (-2) 6550690367084358 ?_ ?_ ?_ ?_ ?_ <;> norm_num

theorem rima_19 : roundNearest 53 ((-(3275345183542179 / 9007199254740992)) * 55) = (-20) := by
  refine rn53_neg 4 5629499534213120 ?_ ?_ ?_ ?_ ?_ <;> norm_num

theorem rima_20 : roundNearest 53 ((-(3275345183542179 / 9007199254740992)) * 0) = 0 := by
  norm_num [roundNearest_zero]

theorem rima_21 : roundNearest 53 ((-(3275345183542179 / 9007199254740992)) * 11) = (-4) := by
  refine rn53_neg 2 4503599627370496 ?_ ?_ ?_ ?_ ?_ <;> norm_num

theorem rima_22 : roundNearest 53 (17 + (-20)) = (-3) := by
  refine rn53_neg 1 6755399441055744 ?_ ?_ ?_ ?_ ?_ <;> norm_num

theorem rima_23 : roundNearest 53 (4 + (-4)) = 0 := by
  norm_num [roundNearest_zero]

theorem rima_24 : roundNearest 53 (0 - (-3)) = 3 := by
  refine rn53 1 6755399441055744 ?_ ?_ ?_ ?_ ?_ <;> norm_num

theorem rima_25 : roundNearest 53 (3 * 3) = 9 := by
  refine rn53 3 5066549580791808 ?_ ?_ ?_ ?_ ?_ <;> norm_num

theorem rima_26 : roundNearest 53 (0 + 9) = 9 := by
  refine rn53 3 5066549580791808 ?_ ?_ ?_ ?_ ?_ <;> norm_num

theorem rima_27 : roundNearest 53 (9 + 0) = 9 := by
  refine rn53 3 5066549580791808 ?_ ?_ ?_ ?_ ?_ <;> norm_num

theorem rima_28 : roundNearest 53 (Real.sqrt 9) = 3 := by
  refine rn53_sqrt 1 6755399441055744 (by norm_num) ?_ ?_ ?_ ?_ ?_ <;> norm_num

theorem rima_29 : roundNearest 53 (4 - 1) = 3 := by
  refine rn53 1 6755399441055744 ?_ ?_ ?_ ?_ ?_ <;> norm_num

theorem rima_30 : roundNearest 53 (1 * 3) = 3 := by
  refine rn53 1 6755399441055744 ?_ ?_ ?_ ?_ ?_ <;> norm_num

theorem rima_31 : roundNearest 53 (0 + 3) = 3 := by
  refine rn53 1 6755399441055744 ?_ ?_ ?_ ?_ ?_ <;> norm_num

theorem rima_32 : roundNearest 53 ((-3) / 11) = (-(1228254443828317 / 4503599627370496)) := by
  refine rn53_neg (-2) 4913017775313268 ?_ ?_ ?_ ?_ ?_ <;> norm_num

theorem rima_33 : roundNearest 53 ((-(1228254443828317 / 4503599627370496)) * 55) = (-(8444249301319679 / 562949953421312)) := by
  refine rn53_neg 3 8444249301319679 ?_ ?_ ?_ ?_ ?_ <;> norm_num

theorem rima_34 : roundNearest 53 ((-(1228254443828317 / 4503599627370496)) * 0) = 0 := by
  norm_num [roundNearest_zero]

theorem rima_35 : roundNearest 53 ((-(1228254443828317 / 4503599627370496)) * 11) = (-3) := by
  refine rn53_neg_tie 1 6755399441055744 (by decide) ?_ ?_ ?_ ?_ ?_ <;> norm_num

theorem rima_36 : roundNearest 53 (17 + (-(8444249301319679 / 562949953421312))) = (1125899906842625 / 562949953421312) := by
  refine rn53 1 4503599627370500 ?_ ?_ ?_ ?_ ?_ <;> norm_num

theorem rima_37 : roundNearest 53 (4 + (-3)) = 1 := by
  refine rn53 0 4503599627370496 ?_ ?_ ?_ ?_ ?_ <;> norm_num

theorem rima_38 : roundNearest 53 (0 - (1125899906842625 / 562949953421312)) = (-(1125899906842625 / 562949953421312)) := by
  refine rn53_neg 1 4503599627370500 ?_ ?_ ?_ ?_ ?_ <;> norm_num

theorem rima_39 : roundNearest 53 (1 - 1) = 0 := by
  norm_num [roundNearest_zero]

theorem rima_40 : roundNearest 53 ((-(1125899906842625 / 562949953421312)) * (-(1125899906842625 / 562949953421312))) = (562949953421313 / 140737488355328) := by
  refine rn53 2 4503599627370504 ?_ ?_ ?_ ?_ ?_ <;> norm_num

theorem rima_41 : roundNearest 53 (0 + (562949953421313 / 140737488355328)) = (562949953421313 / 140737488355328) := by
  refine rn53 2 4503599627370504 ?_ ?_ ?_ ?_ ?_ <;> norm_num

theorem rima_42 : roundNearest 53 ((562949953421313 / 140737488355328) + 0) = (562949953421313 / 140737488355328) := by
  refine rn53 2 4503599627370504 ?_ ?_ ?_ ?_ ?_ <;> norm_num

theorem rima_43 : roundNearest 53 (Real.sqrt (562949953421313 / 140737488355328)) = (1125899906842625 / 562949953421312) := by
  refine rn53_sqrt 1 4503599627370500 (by norm_num) ?_ ?_ ?_ ?_ ?_ <;> norm_num

theorem rima_44 : roundNearest 53 (Real.sqrt 1) = 1 := by
  refine rn53_sqrt 0 4503599627370496 (by norm_num) ?_ ?_ ?_ ?_ ?_ <;> norm_num

theorem rima_45 : roundNearest 53 (0 / 1) = 0 := by
  norm_num [roundNearest_zero]

theorem rima_46 : roundNearest 53 (1 / 1) = 1 := by
  refine rn53 0 4503599627370496 ?_ ?_ ?_ ?_ ?_ <;> norm_num

theorem rima_47 : roundNearest 53 (Real.sqrt 3146) = (7893855193596403 / 140737488355328) := by
  refine rn53_sqrt 5 7893855193596403 (by norm_num) ?_ ?_ ?_ ?_ ?_ <;> norm_num

theorem rima_48 : roundNearest 53 (55 / (7893855193596403 / 140737488355328)) = (4416142765648337 / 4503599627370496) := by
  refine rn53 (-1) 8832285531296674 ?_ ?_ ?_ ?_ ?_ <;> norm_num

theorem rima_49 : roundNearest 53 (0 / (7893855193596403 / 140737488355328)) = 0 := by
  norm_num [roundNearest_zero]

theorem rima_50 : roundNearest 53 (11 / (7893855193596403 / 140737488355328)) = (7065828425037339 / 36028797018963968) := by
  refine rn53 (-3) 7065828425037339 ?_ ?_ ?_ ?_ ?_ <;> norm_num

theorem rima_51 : roundNearest 53 ((4416142765648337 / 4503599627370496) * 0) = 0 := by
  norm_num [roundNearest_zero]

theorem rima_52 : roundNearest 53 ((7065828425037339 / 36028797018963968) * 1) = (7065828425037339 / 36028797018963968) := by
  refine rn53 (-3) 7065828425037339 ?_ ?_ ?_ ?_ ?_ <;> norm_num

theorem rima_53 : roundNearest 53 (0 + (7065828425037339 / 36028797018963968)) = (7065828425037339 / 36028797018963968) := by
  refine rn53 (-3) 7065828425037339 ?_ ?_ ?_ ?_ ?_ <;> norm_num

theorem rima_54 : roundNearest 53 ((7065828425037339 / 36028797018963968) * 0) = 0 := by
  norm_num [roundNearest_zero]

theorem rima_55 : roundNearest 53 ((4416142765648337 / 4503599627370496) - 0) = (4416142765648337 / 4503599627370496) := by
  refine rn53 (-1) 8832285531296674 ?_ ?_ ?_ ?_ ?_ <;> norm_num

theorem rima_56 : roundNearest 53 ((7065828425037339 / 36028797018963968) - (7065828425037339 / 36028797018963968)) = 0 := by
  norm_num [roundNearest_zero]

theorem rima_57 : roundNearest 53 (17 * 0) = 0 := by
  norm_num [roundNearest_zero]

theorem rima_58 : roundNearest 53 (4 * 1) = 4 := by
  refine rn53 2 4503599627370496 ?_ ?_ ?_ ?_ ?_ <;> norm_num

theorem rima_59 : roundNearest 53 (4 * 0) = 0 := by
  norm_num [roundNearest_zero]

theorem rima_60 : roundNearest 53 (4 - 4) = 0 := by
  norm_num [roundNearest_zero]

theorem rima_61 : roundNearest 53 ((4416142765648337 / 4503599627370496) * (4416142765648337 / 4503599627370496)) = (4330384257087015 / 4503599627370496) := by
  refine rn53 (-1) 8660768514174030 ?_ ?_ ?_ ?_ ?_ <;> norm_num

theorem rima_62 : roundNearest 53 (0 + (4330384257087015 / 4503599627370496)) = (4330384257087015 / 4503599627370496) := by
  refine rn53 (-1) 8660768514174030 ?_ ?_ ?_ ?_ ?_ <;> norm_num

theorem rima_63 : roundNearest 53 ((4330384257087015 / 4503599627370496) + 0) = (4330384257087015 / 4503599627370496) := by
  refine rn53 (-1) 8660768514174030 ?_ ?_ ?_ ?_ ?_ <;> norm_num

theorem rima_64 : roundNearest 53 (Real.sqrt (4330384257087015 / 4503599627370496)) = (4416142765648337 / 4503599627370496) := by
  refine rn53_sqrt (-1) 8832285531296674 (by norm_num) ?_ ?_ ?_ ?_ ?_ <;> norm_num

theorem rima_65 : roundNearest 53 ((4416142765648337 / 4503599627370496) * 17) = (2346075844250679 / 140737488355328) := by
  refine rn53 4 4692151688501358 ?_ ?_ ?_ ?_ ?_ <;> norm_num

theorem rima_66 : roundNearest 53 (0 + (2346075844250679 / 140737488355328)) = (2346075844250679 / 140737488355328) := by
  refine rn53 4 4692151688501358 ?_ ?_ ?_ ?_ ?_ <;> norm_num

theorem rima_67 : roundNearest 53 ((2346075844250679 / 140737488355328) + 0) = (2346075844250679 / 140737488355328) := by
  refine rn53 4 4692151688501358 ?_ ?_ ?_ ?_ ?_ <;> norm_num

theorem rima_68 : roundNearest 53 (2 * (2346075844250679 / 140737488355328)) = (2346075844250679 / 70368744177664) := by
  refine rn53 5 4692151688501358 ?_ ?_ ?_ ?_ ?_ <;> norm_num

theorem rima_69 : roundNearest 53 (17 * 17) = 289 := by
  refine rn53 8 5084141766836224 ?_ ?_ ?_ ?_ ?_ <;> norm_num

theorem rima_70 : roundNearest 53 (0 + 289) = 289 := by
  refine rn53 8 5084141766836224 ?_ ?_ ?_ ?_ ?_ <;> norm_num

theorem rima_71 : roundNearest 53 (289 + 0) = 289 := by
  refine rn53 8 5084141766836224 ?_ ?_ ?_ ?_ ?_ <;> norm_num

theorem rima_72 : roundNearest 53 (Real.sqrt 289) = 17 := by
  refine rn53_sqrt 4 4785074604081152 (by norm_num) ?_ ?_ ?_ ?_ ?_ <;> norm_num

theorem rima_73 : roundNearest 53 (2 * 2) = 4 := by
  refine rn53 2 4503599627370496 ?_ ?_ ?_ ?_ ?_ <;> norm_num

theorem rima_74 : roundNearest 53 (289 - 4) = 285 := by
  refine rn53 8 5013773022658560 ?_ ?_ ?_ ?_ ?_ <;> norm_num

theorem rima_75 : roundNearest 53 ((2346075844250679 / 70368744177664) * (2346075844250679 / 70368744177664)) = (2444298926363569 / 2199023255552) := by
  refine rn53 10 4888597852727138 ?_ ?_ ?_ ?_ ?_ <;> norm_num

theorem rima_76 : roundNearest 53 (4 * (4330384257087015 / 4503599627370496)) = (4330384257087015 / 1125899906842624) := by
  refine rn53 1 8660768514174030 ?_ ?_ ?_ ?_ ?_ <;> norm_num

theorem rima_77 : roundNearest 53 ((4330384257087015 / 1125899906842624) * 285) = (4820935598710153 / 4398046511104) := by
  refine rn53 10 4820935598710153 ?_ ?_ ?_ ?_ ?_ <;> norm_num

theorem rima_78 : roundNearest 53 ((2444298926363569 / 2199023255552) - (4820935598710153 / 4398046511104)) = (67662254016985 / 4398046511104) := by
  refine rn53 3 8660768514174080 ?_ ?_ ?_ ?_ ?_ <;> norm_num

theorem rima_79 : roundNearest 53 (Real.sqrt (67662254016985 / 4398046511104)) = (2208071382824175 / 562949953421312) := by
  refine rn53_sqrt 1 8832285531296700 (by norm_num) ?_ ?_ ?_ ?_ ?_ <;> norm_num

theorem rima_80 : roundNearest 53 ((-1) * (2208071382824175 / 562949953421312)) = (-(2208071382824175 / 562949953421312)) := by
  refine rn53_neg 1 8832285531296700 ?_ ?_ ?_ ?_ ?_ <;> norm_num

theorem rima_81 : roundNearest 53 ((-(2346075844250679 / 70368744177664)) + (-(2208071382824175 / 562949953421312))) = (-(2622084767103701 / 70368744177664)) := by
  refine rn53_neg 5 5244169534207402 ?_ ?_ ?_ ?_ ?_ <;> norm_num

theorem rima_82 : roundNearest 53 (2 * (4330384257087015 / 4503599627370496)) = (4330384257087015 / 2251799813685248) := by
  refine rn53 0 8660768514174030 ?_ ?_ ?_ ?_ ?_ <;> norm_num

theorem rima_83 : roundNearest 53 ((-(2622084767103701 / 70368744177664)) / (4330384257087015 / 2251799813685248)) = (-(5453936315575699 / 281474976710656)) := by
  refine rn53_neg 4 5453936315575699 ?_ ?_ ?_ ?_ ?_ <;> norm_num

theorem rima_84 : roundNearest 53 (1 * (2208071382824175 / 562949953421312)) = (2208071382824175 / 562949953421312) := by
  refine rn53 1 8832285531296700 ?_ ?_ ?_ ?_ ?_ <;> norm_num

theorem rima_85 : roundNearest 53 ((-(2346075844250679 / 70368744177664)) + (2208071382824175 / 562949953421312)) = (-(2070066921397657 / 70368744177664)) := by
  refine rn53_neg_tie 4 8280267685590628 (by decide) ?_ ?_ ?_ ?_ ?_ <;> norm_num

theorem rima_86 : roundNearest 53 ((-(2070066921397657 / 70368744177664)) / (4330384257087015 / 2251799813685248)) = (-(4305739196507127 / 281474976710656)) := by
  refine rn53_neg 3 8611478393014254 ?_ ?_ ?_ ?_ ?_ <;> norm_num

theorem rima_87 : roundNearest 53 ((-(5453936315575699 / 281474976710656)) * (4416142765648337 / 4503599627370496)) = (-(2674012278751233 / 140737488355328)) := by
  refine rn53_neg 4 5348024557502466 ?_ ?_ ?_ ?_ ?_ <;> norm_num

theorem rima_88 : roundNearest 53 ((-(5453936315575699 / 281474976710656)) * 0) = 0 := by
  norm_num [roundNearest_zero]

theorem rima_89 : roundNearest 53 ((-(5453936315575699 / 281474976710656)) * (7065828425037339 / 36028797018963968)) = (-(4278419646001973 / 1125899906842624)) := by
  refine rn53_neg 1 8556839292003946 ?_ ?_ ?_ ?_ ?_ <;> norm_num

theorem rima_90 : roundNearest 53 (17 + (-(2674012278751233 / 140737488355328))) = (-(281474976710657 / 140737488355328)) := by
  refine rn53_neg 1 4503599627370512 ?_ ?_ ?_ ?_ ?_ <;> norm_num

theorem rima_91 : roundNearest 53 (4 + (-(4278419646001973 / 1125899906842624))) = (225179981368523 / 1125899906842624) := by
  refine rn53 (-3) 7205759403792736 ?_ ?_ ?_ ?_ ?_ <;> norm_num

theorem rima_92 : roundNearest 53 ((-(4305739196507127 / 281474976710656)) * (4416142765648337 / 4503599627370496)) = (-(2111062325329919 / 140737488355328)) := by
  refine rn53_neg 3 8444249301319676 ?_ ?_ ?_ ?_ ?_ <;> norm_num

theorem rima_93 : roundNearest 53 ((-(4305739196507127 / 281474976710656)) * 0) = 0 := by
  norm_num [roundNearest_zero]

theorem rima_94 : roundNearest 53 ((-(4305739196507127 / 281474976710656)) * (7065828425037339 / 36028797018963968)) = (-(6755399441055741 / 2251799813685248)) := by
  refine rn53_neg 1 6755399441055741 ?_ ?_ ?_ ?_ ?_ <;> norm_num

theorem rima_95 : roundNearest 53 (17 + (-(2111062325329919 / 140737488355328))) = (281474976710657 / 140737488355328) := by
  refine rn53 1 4503599627370512 ?_ ?_ ?_ ?_ ?_ <;> norm_num

theorem rima_96 : roundNearest 53 (4 + (-(6755399441055741 / 2251799813685248))) = (2251799813685251 / 2251799813685248) := by
  refine rn53 0 4503599627370502 ?_ ?_ ?_ ?_ ?_ <;> norm_num

theorem rima_97 : roundNearest 53 ((-(281474976710657 / 140737488355328)) - 0) = (-(281474976710657 / 140737488355328)) := by
  refine rn53_neg 1 4503599627370512 ?_ ?_ ?_ ?_ ?_ <;> norm_num

theorem rima_98 : roundNearest 53 ((225179981368523 / 1125899906842624) - 0) = (225179981368523 / 1125899906842624) := by
  refine rn53 (-3) 7205759403792736 ?_ ?_ ?_ ?_ ?_ <;> norm_num

theorem rima_99 : roundNearest 53 (0 * (-(281474976710657 / 140737488355328))) = 0 := by
  norm_num [roundNearest_zero]

theorem rima_100 : roundNearest 53 (1 * (225179981368523 / 1125899906842624)) = (225179981368523 / 1125899906842624) := by
  refine rn53 (-3) 7205759403792736 ?_ ?_ ?_ ?_ ?_ <;> norm_num

theorem rima_101 : roundNearest 53 (0 + (225179981368523 / 1125899906842624)) = (225179981368523 / 1125899906842624) := by
  refine rn53 (-3) 7205759403792736 ?_ ?_ ?_ ?_ ?_ <;> norm_num

theorem rima_102 : roundNearest 53 ((281474976710657 / 140737488355328) - 0) = (281474976710657 / 140737488355328) := by
  refine rn53 1 4503599627370512 ?_ ?_ ?_ ?_ ?_ <;> norm_num

theorem rima_103 : roundNearest 53 ((2251799813685251 / 2251799813685248) - 0) = (2251799813685251 / 2251799813685248) := by
  refine rn53 0 4503599627370502 ?_ ?_ ?_ ?_ ?_ <;> norm_num

theorem rima_104 : roundNearest 53 (0 * (281474976710657 / 140737488355328)) = 0 := by
  norm_num [roundNearest_zero]

theorem rima_105 : roundNearest 53 (1 * (2251799813685251 / 2251799813685248)) = (2251799813685251 / 2251799813685248) := by
  refine rn53 0 4503599627370502 ?_ ?_ ?_ ?_ ?_ <;> norm_num

theorem rima_106 : roundNearest 53 (0 + (2251799813685251 / 2251799813685248)) = (2251799813685251 / 2251799813685248) := by
  refine rn53 0 4503599627370502 ?_ ?_ ?_ ?_ ?_ <;> norm_num

theorem rimb_0 : roundNearest 53 (0 * 0) = 0 := by
  norm_num [roundNearest_zero]

theorem rimb_1 : roundNearest 53 (3 * 3) = 9 := by
  refine rn53 3 5066549580791808 ?_ ?_ ?_ ?_ ?_ <;> norm_num

theorem rimb_2 : roundNearest 53 (0 + 0) = 0 := by
  norm_num [roundNearest_zero]

theorem rimb_3 : roundNearest 53 (0 + 9) = 9 := by
  refine rn53 3 5066549580791808 ?_ ?_ ?_ ?_ ?_ <;> norm_num

theorem rimb_4 : roundNearest 53 (6 * 6) = 36 := by
  refine rn53 5 5066549580791808 ?_ ?_ ?_ ?_ ?_ <;> norm_num

theorem rimb_5 : roundNearest 53 (2 * 2) = 4 := by
  refine rn53 2 4503599627370496 ?_ ?_ ?_ ?_ ?_ <;> norm_num

theorem rimb_6 : roundNearest 53 (5 * 5) = 25 := by
  refine rn53 4 7036874417766400 ?_ ?_ ?_ ?_ ?_ <;> norm_num

theorem rimb_7 : roundNearest 53 (0 + 36) = 36 := by
  refine rn53 5 5066549580791808 ?_ ?_ ?_ ?_ ?_ <;> norm_num

theorem rimb_8 : roundNearest 53 (36 + 4) = 40 := by
  refine rn53 5 5629499534213120 ?_ ?_ ?_ ?_ ?_ <;> norm_num

theorem rimb_9 : roundNearest 53 (40 + 25) = 65 := by
  refine rn53 6 4573968371548160 ?_ ?_ ?_ ?_ ?_ <;> norm_num

theorem rimb_10 : roundNearest 53 (0 + 3) = 3 := by
  refine rn53 1 6755399441055744 ?_ ?_ ?_ ?_ ?_ <;> norm_num

theorem rimb_11 : roundNearest 53 (8 - 0) = 8 := by
  refine rn53 3 4503599627370496 ?_ ?_ ?_ ?_ ?_ <;> norm_num

theorem rimb_12 : roundNearest 53 (2 - 0) = 2 := by
  refine rn53 1 4503599627370496 ?_ ?_ ?_ ?_ ?_ <;> norm_num

theorem rimb_13 : roundNearest 53 (0 * 8) = 0 := by
  norm_num [roundNearest_zero]

theorem rimb_14 : roundNearest 53 (0 * 2) = 0 := by
  norm_num [roundNearest_zero]

theorem rimb_15 : roundNearest 53 (3 * 8) = 24 := by
  refine rn53 4 6755399441055744 ?_ ?_ ?_ ?_ ?_ <;> norm_num

theorem rimb_16 : roundNearest 53 (0 + 24) = 24 := by
  refine rn53 4 6755399441055744 ?_ ?_ ?_ ?_ ?_ <;> norm_num

theorem rimb_17 : roundNearest 53 (0 * 6) = 0 := by
  norm_num [roundNearest_zero]

theorem rimb_18 : roundNearest 53 (3 * 5) = 15 := by
  refine rn53 3 8444249301319680 ?_ ?_ ?_ ?_ ?_ <;> norm_num

theorem rimb_19 : roundNearest 53 (0 + 15) = 15 := by
  refine rn53 3 8444249301319680 ?_ ?_ ?_ ?_ ?_ <;> norm_num

theorem rimb_20 : roundNearest 53 ((-24) / 15) = (-(3602879701896397 / 2251799813685248)) := by
  refine rn53_neg 0 7205759403792794 ?_ ?_ ?_ ?_ ?_ <;> norm_num

theorem rimb_21 : roundNearest 53 ((-(3602879701896397 / 2251799813685248)) * 6) = (-(1351079888211149 / 140737488355328)) := by
  refine rn53_neg_tie 3 5404319552844596 (by decide) ?_ ?_ ?_ ?_ ?_ <;> norm_num

theorem rimb_22 : roundNearest 53 ((-(3602879701896397 / 2251799813685248)) * 2) = (-(3602879701896397 / 1125899906842624)) := by
  refine rn53_neg 1 7205759403792794 ?_ ?_ ?_ ?_ ?_ <;> norm_num

theorem rimb_23 : roundNearest 53 ((-(3602879701896397 / 2251799813685248)) * 5) = (-8) := by
  refine rn53_neg 3 4503599627370496 ?_ ?_ ?_ ?_ ?_ <;> norm_num

theorem rimb_24 : roundNearest 53 (8 + (-(1351079888211149 / 140737488355328))) = (-(225179981368525 / 140737488355328)) := by
  refine rn53_neg 0 7205759403792800 ?_ ?_ ?_ ?_ ?_ <;> norm_num

theorem rimb_25 : roundNearest 53 (2 + (-(3602879701896397 / 1125899906842624))) = (-(1351079888211149 / 1125899906842624)) := by
  refine rn53_neg 0 5404319552844596 ?_ ?_ ?_ ?_ ?_ <;> norm_num

theorem rimb_26 : roundNearest 53 (8 + (-8)) = 0 := by
  norm_num [roundNearest_zero]

theorem rimb_27 : roundNearest 53 (0 - (-(225179981368525 / 140737488355328))) = (225179981368525 / 140737488355328) := by
  refine rn53 0 7205759403792800 ?_ ?_ ?_ ?_ ?_ <;> norm_num

theorem rimb_28 : roundNearest 53 (0 - (-(1351079888211149 / 1125899906842624))) = (1351079888211149 / 1125899906842624) := by
  refine rn53 0 5404319552844596 ?_ ?_ ?_ ?_ ?_ <;> norm_num

theorem rimb_29 : roundNearest 53 (0 - 0) = 0 := by
  norm_num [roundNearest_zero]

theorem rimb_30 : roundNearest 53 ((225179981368525 / 140737488355328) * (225179981368525 / 140737488355328)) = (5764607523034245 / 2251799813685248) := by
  refine rn53 1 5764607523034245 ?_ ?_ ?_ ?_ ?_ <;> norm_num

theorem rimb_31 : roundNearest 53 ((1351079888211149 / 1125899906842624) * (1351079888211149 / 1125899906842624)) = (1621295865853379 / 1125899906842624) := by
  refine rn53 0 6485183463413516 ?_ ?_ ?_ ?_ ?_ <;> norm_num

theorem rimb_32 : roundNearest 53 (0 + (5764607523034245 / 2251799813685248)) = (5764607523034245 / 2251799813685248) := by
  refine rn53 1 5764607523034245 ?_ ?_ ?_ ?_ ?_ <;> norm_num

theorem rimb_33 : roundNearest 53 ((5764607523034245 / 2251799813685248) + (1621295865853379 / 1125899906842624)) = (2251799813685251 / 562949953421312) := by
  refine rn53_tie 2 4503599627370502 (by decide) ?_ ?_ ?_ ?_ ?_ <;> norm_num

theorem rimb_34 : roundNearest 53 ((2251799813685251 / 562949953421312) + 0) = (2251799813685251 / 562949953421312) := by
  refine rn53 2 4503599627370502 ?_ ?_ ?_ ?_ ?_ <;> norm_num

theorem rimb_35 : roundNearest 53 (Real.sqrt (2251799813685251 / 562949953421312)) = (4503599627370499 / 2251799813685248) := by
  refine rn53_sqrt 1 4503599627370499 (by norm_num) ?_ ?_ ?_ ?_ ?_ <;> norm_num

theorem rimb_36 : roundNearest 53 (8 - 3) = 5 := by
  refine rn53 2 5629499534213120 ?_ ?_ ?_ ?_ ?_ <;> norm_num

theorem rimb_37 : roundNearest 53 ((-15) / 15) = (-1) := by
  refine rn53_neg 0 4503599627370496 ?_ ?_ ?_ ?_ ?_ <;> norm_num

theorem rimb_38 : roundNearest 53 ((-1) * 6) = (-6) := by
  refine rn53_neg 2 6755399441055744 ?_ ?_ ?_ ?_ ?_ <;> norm_num

theorem rimb_39 : roundNearest 53 ((-1) * 2) = (-2) := by
  refine rn53_neg 1 4503599627370496 ?_ ?_ ?_ ?_ ?_ <;> norm_num

theorem rimb_40 : roundNearest 53 ((-1) * 5) = (-5) := by
  refine rn53_neg 2 5629499534213120 ?_ ?_ ?_ ?_ ?_ <;> norm_num

theorem rimb_41 : roundNearest 53 (8 + (-6)) = 2 := by
  refine rn53 1 4503599627370496 ?_ ?_ ?_ ?_ ?_ <;> norm_num

theorem rimb_42 : roundNearest 53 (2 + (-2)) = 0 := by
  norm_num [roundNearest_zero]

theorem rimb_43 : roundNearest 53 (8 + (-5)) = 3 := by
  refine rn53 1 6755399441055744 ?_ ?_ ?_ ?_ ?_ <;> norm_num

theorem rimb_44 : roundNearest 53 (0 - 2) = (-2) := by
  refine rn53_neg 1 4503599627370496 ?_ ?_ ?_ ?_ ?_ <;> norm_num

theorem rimb_45 : roundNearest 53 (3 - 3) = 0 := by
  norm_num [roundNearest_zero]

theorem rimb_46 : roundNearest 53 ((-2) * (-2)) = 4 := by
  refine rn53 2 4503599627370496 ?_ ?_ ?_ ?_ ?_ <;> norm_num

theorem rimb_47 : roundNearest 53 (0 + 4) = 4 := by
  refine rn53 2 4503599627370496 ?_ ?_ ?_ ?_ ?_ <;> norm_num

theorem rimb_48 : roundNearest 53 (4 + 0) = 4 := by
  refine rn53 2 4503599627370496 ?_ ?_ ?_ ?_ ?_ <;> norm_num

theorem rimb_49 : roundNearest 53 (Real.sqrt 4) = 2 := by
  refine rn53_sqrt 1 4503599627370496 (by norm_num) ?_ ?_ ?_ ?_ ?_ <;> norm_num

theorem rimb_50 : roundNearest 53 (Real.sqrt 9) = 3 := by
  refine rn53_sqrt 1 6755399441055744 (by norm_num) ?_ ?_ ?_ ?_ ?_ <;> norm_num

theorem rimb_51 : roundNearest 53 (0 / 3) = 0 := by
  norm_num [roundNearest_zero]

theorem rimb_52 : roundNearest 53 (3 / 3) = 1 := by
  refine rn53 0 4503599627370496 ?_ ?_ ?_ ?_ ?_ <;> norm_num

theorem rimb_53 : roundNearest 53 (Real.sqrt 65) = (283665476492205 / 35184372088832) := by
  refine rn53_sqrt 3 4538647623875280 (by norm_num) ?_ ?_ ?_ ?_ ?_ <;> norm_num

theorem rimb_54 : roundNearest 53 (6 / (283665476492205 / 35184372088832)) = (6703233413723491 / 9007199254740992) := by
  refine rn53 (-1) 6703233413723491 ?_ ?_ ?_ ?_ ?_ <;> norm_num

theorem rimb_55 : roundNearest 53 (2 / (283665476492205 / 35184372088832)) = (4468822275815661 / 18014398509481984) := by
  refine rn53 (-3) 8937644551631322 ?_ ?_ ?_ ?_ ?_ <;> norm_num

theorem rimb_56 : roundNearest 53 (5 / (283665476492205 / 35184372088832)) = (698253480596197 / 1125899906842624) := by
  refine rn53 (-1) 5586027844769576 ?_ ?_ ?_ ?_ ?_ <;> norm_num

theorem rimb_57 : roundNearest 53 ((6703233413723491 / 9007199254740992) * 0) = 0 := by
  norm_num [roundNearest_zero]

theorem rimb_58 : roundNearest 53 ((4468822275815661 / 18014398509481984) * 0) = 0 := by
  norm_num [roundNearest_zero]

theorem rimb_59 : roundNearest 53 ((698253480596197 / 1125899906842624) * 1) = (698253480596197 / 1125899906842624) := by
  refine rn53 (-1) 5586027844769576 ?_ ?_ ?_ ?_ ?_ <;> norm_num

theorem rimb_60 : roundNearest 53 (0 + (698253480596197 / 1125899906842624)) = (698253480596197 / 1125899906842624) := by
  refine rn53 (-1) 5586027844769576 ?_ ?_ ?_ ?_ ?_ <;> norm_num

theorem rimb_61 : roundNearest 53 ((698253480596197 / 1125899906842624) * 0) = 0 := by
  norm_num [roundNearest_zero]

theorem rimb_62 : roundNearest 53 ((6703233413723491 / 9007199254740992) - 0) = (6703233413723491 / 9007199254740992) := by
  refine rn53 (-1) 6703233413723491 ?_ ?_ ?_ ?_ ?_ <;> norm_num

theorem rimb_63 : roundNearest 53 ((4468822275815661 / 18014398509481984) - 0) = (4468822275815661 / 18014398509481984) := by
  refine rn53 (-3) 8937644551631322 ?_ ?_ ?_ ?_ ?_ <;> norm_num

theorem rimb_64 : roundNearest 53 ((698253480596197 / 1125899906842624) - (698253480596197 / 1125899906842624)) = 0 := by
  norm_num [roundNearest_zero]

theorem rimb_65 : roundNearest 53 (8 * 0) = 0 := by
  norm_num [roundNearest_zero]

theorem rimb_66 : roundNearest 53 (2 * 0) = 0 := by
  norm_num [roundNearest_zero]

theorem rimb_67 : roundNearest 53 (8 * 1) = 8 := by
  refine rn53 3 4503599627370496 ?_ ?_ ?_ ?_ ?_ <;> norm_num

theorem rimb_68 : roundNearest 53 (0 + 8) = 8 := by
  refine rn53 3 4503599627370496 ?_ ?_ ?_ ?_ ?_ <;> norm_num

theorem rimb_69 : roundNearest 53 (8 - 8) = 0 := by
  norm_num [roundNearest_zero]

theorem rimb_70 : roundNearest 53 ((6703233413723491 / 9007199254740992) * (6703233413723491 / 9007199254740992)) = (2494301332082121 / 4503599627370496) := by
  refine rn53 (-1) 4988602664164242 ?_ ?_ ?_ ?_ ?_ <;> norm_num

theorem rimb_71 : roundNearest 53 ((4468822275815661 / 18014398509481984) * (4468822275815661 / 18014398509481984)) = (8868626958514209 / 144115188075855872) := by
  refine rn53 (-5) 8868626958514209 ?_ ?_ ?_ ?_ ?_ <;> norm_num

theorem rimb_72 : roundNearest 53 (0 + (2494301332082121 / 4503599627370496)) = (2494301332082121 / 4503599627370496) := by
  refine rn53 (-1) 4988602664164242 ?_ ?_ ?_ ?_ ?_ <;> norm_num

theorem rimb_73 : roundNearest 53 ((2494301332082121 / 4503599627370496) + (8868626958514209 / 144115188075855872)) = (1385722962267845 / 2251799813685248) := by
  refine rn53 (-1) 5542891849071380 ?_ ?_ ?_ ?_ ?_ <;> norm_num

theorem rimb_74 : roundNearest 53 ((1385722962267845 / 2251799813685248) + 0) = (1385722962267845 / 2251799813685248) := by
  refine rn53 (-1) 5542891849071380 ?_ ?_ ?_ ?_ ?_ <;> norm_num

theorem rimb_75 : roundNearest 53 (Real.sqrt (1385722962267845 / 2251799813685248)) = (1766457106259335 / 2251799813685248) := by
  refine rn53_sqrt (-1) 7065828425037340 (by norm_num) ?_ ?_ ?_ ?_ ?_ <;> norm_num

theorem rimb_76 : roundNearest 53 ((1766457106259335 / 2251799813685248) * (1766457106259335 / 2251799813685248)) = (1385722962267845 / 2251799813685248) := by
  refine rn53 (-1) 5542891849071380 ?_ ?_ ?_ ?_ ?_ <;> norm_num

theorem rimb_77 : roundNearest 53 ((6703233413723491 / 9007199254740992) * 8) = (6703233413723491 / 1125899906842624) := by
  refine rn53 2 6703233413723491 ?_ ?_ ?_ ?_ ?_ <;> norm_num

theorem rimb_78 : roundNearest 53 ((4468822275815661 / 18014398509481984) * 2) = (4468822275815661 / 9007199254740992) := by
  refine rn53 (-2) 8937644551631322 ?_ ?_ ?_ ?_ ?_ <;> norm_num

theorem rimb_79 : roundNearest 53 (0 + (6703233413723491 / 1125899906842624)) = (6703233413723491 / 1125899906842624) := by
  refine rn53 2 6703233413723491 ?_ ?_ ?_ ?_ ?_ <;> norm_num

theorem rimb_80 : roundNearest 53 ((6703233413723491 / 1125899906842624) + (4468822275815661 / 9007199254740992)) = (7261836198200449 / 1125899906842624) := by
  refine rn53 2 7261836198200449 ?_ ?_ ?_ ?_ ?_ <;> norm_num

theorem rimb_81 : roundNearest 53 ((7261836198200449 / 1125899906842624) + 0) = (7261836198200449 / 1125899906842624) := by
  refine rn53 2 7261836198200449 ?_ ?_ ?_ ?_ ?_ <;> norm_num

theorem rimb_82 : roundNearest 53 (2 * (7261836198200449 / 1125899906842624)) = (7261836198200449 / 562949953421312) := by
  refine rn53 3 7261836198200449 ?_ ?_ ?_ ?_ ?_ <;> norm_num

theorem rimb_83 : roundNearest 53 (8 * 8) = 64 := by
  refine rn53 6 4503599627370496 ?_ ?_ ?_ ?_ ?_ <;> norm_num

theorem rimb_84 : roundNearest 53 (0 + 64) = 64 := by
  refine rn53 6 4503599627370496 ?_ ?_ ?_ ?_ ?_ <;> norm_num

theorem rimb_85 : roundNearest 53 (64 + 4) = 68 := by
  refine rn53 6 4785074604081152 ?_ ?_ ?_ ?_ ?_ <;> norm_num

theorem rimb_86 : roundNearest 53 (68 + 0) = 68 := by
  refine rn53 6 4785074604081152 ?_ ?_ ?_ ?_ ?_ <;> norm_num

theorem rimb_87 : roundNearest 53 (Real.sqrt 68) = (4642204239785223 / 562949953421312) := by
  refine rn53_sqrt 3 4642204239785223 (by norm_num) ?_ ?_ ?_ ?_ ?_ <;> norm_num

theorem rimb_88 : roundNearest 53 ((4642204239785223 / 562949953421312) * (4642204239785223 / 562949953421312)) = 68 := by
  refine rn53 6 4785074604081152 ?_ ?_ ?_ ?_ ?_ <;> norm_num

theorem rimb_89 : roundNearest 53 (68 - 4) = 64 := by
  refine rn53 6 4503599627370496 ?_ ?_ ?_ ?_ ?_ <;> norm_num

theorem rimb_90 : roundNearest 53 ((7261836198200449 / 562949953421312) * (7261836198200449 / 562949953421312)) = (2927339757790823 / 17592186044416) := by
  refine rn53 7 5854679515581646 ?_ ?_ ?_ ?_ ?_ <;> norm_num

theorem rimb_91 : roundNearest 53 (4 * (1385722962267845 / 2251799813685248)) = (1385722962267845 / 562949953421312) := by
  refine rn53 1 5542891849071380 ?_ ?_ ?_ ?_ ?_ <;> norm_num

theorem rimb_92 : roundNearest 53 ((1385722962267845 / 562949953421312) * 64) = (1385722962267845 / 8796093022208) := by
  refine rn53 7 5542891849071380 ?_ ?_ ?_ ?_ ?_ <;> norm_num

theorem rimb_93 : roundNearest 53 ((2927339757790823 / 17592186044416) - (1385722962267845 / 8796093022208)) = (155893833255133 / 17592186044416) := by
  refine rn53 3 4988602664164256 ?_ ?_ ?_ ?_ ?_ <;> norm_num

theorem rimb_94 : roundNearest 53 (Real.sqrt (155893833255133 / 17592186044416)) = (1675808353430875 / 562949953421312) := by
  refine rn53_sqrt 1 6703233413723500 (by norm_num) ?_ ?_ ?_ ?_ ?_ <;> norm_num

theorem rimb_95 : roundNearest 53 ((-1) * (1675808353430875 / 562949953421312)) = (-(1675808353430875 / 562949953421312)) := by
  refine rn53_neg 1 6703233413723500 ?_ ?_ ?_ ?_ ?_ <;> norm_num

theorem rimb_96 : roundNearest 53 ((-(7261836198200449 / 562949953421312)) + (-(1675808353430875 / 562949953421312))) = (-(2234411137907831 / 140737488355328)) := by
  refine rn53_neg 3 8937644551631324 ?_ ?_ ?_ ?_ ?_ <;> norm_num

theorem rimb_97 : roundNearest 53 (2 * (1385722962267845 / 2251799813685248)) = (1385722962267845 / 1125899906842624) := by
  refine rn53 0 5542891849071380 ?_ ?_ ?_ ?_ ?_ <;> norm_num

theorem rimb_98 : roundNearest 53 ((-(2234411137907831 / 140737488355328)) / (1385722962267845 / 1125899906842624)) = (-(3630918099100225 / 281474976710656)) := by
  refine rn53_neg 3 7261836198200450 ?_ ?_ ?_ ?_ ?_ <;> norm_num

theorem rimb_99 : roundNearest 53 (1 * (1675808353430875 / 562949953421312)) = (1675808353430875 / 562949953421312) := by
  refine rn53 1 6703233413723500 ?_ ?_ ?_ ?_ ?_ <;> norm_num

theorem rimb_100 : roundNearest 53 ((-(7261836198200449 / 562949953421312)) + (1675808353430875 / 562949953421312)) = (-(2793013922384787 / 281474976710656)) := by
  refine rn53_neg 3 5586027844769574 ?_ ?_ ?_ ?_ ?_ <;> norm_num

theorem rimb_101 : roundNearest 53 ((-(2793013922384787 / 281474976710656)) / (1385722962267845 / 1125899906842624)) = (-(4538647623875279 / 562949953421312)) := by
  refine rn53_neg 3 4538647623875279 ?_ ?_ ?_ ?_ ?_ <;> norm_num

theorem rimb_102 : roundNearest 53 ((-(3630918099100225 / 281474976710656)) * (6703233413723491 / 9007199254740992)) = (-(1351079888211149 / 140737488355328)) := by
  refine rn53_neg 3 5404319552844596 ?_ ?_ ?_ ?_ ?_ <;> norm_num

theorem rimb_103 : roundNearest 53 ((-(3630918099100225 / 281474976710656)) * (4468822275815661 / 18014398509481984)) = (-(1801439850948199 / 562949953421312)) := by
  refine rn53_neg 1 7205759403792796 ?_ ?_ ?_ ?_ ?_ <;> norm_num

theorem rimb_104 : roundNearest 53 ((-(3630918099100225 / 281474976710656)) * (698253480596197 / 1125899906842624)) = (-(4503599627370497 / 562949953421312)) := by
  refine rn53_neg 3 4503599627370497 ?_ ?_ ?_ ?_ ?_ <;> norm_num

theorem rimb_105 : roundNearest 53 (2 + (-(1801439850948199 / 562949953421312))) = (-(675539944105575 / 562949953421312)) := by
  refine rn53_neg 0 5404319552844600 ?_ ?_ ?_ ?_ ?_ <;> norm_num

theorem rimb_106 : roundNearest 53 (8 + (-(4503599627370497 / 562949953421312))) = (-(1 / 562949953421312)) := by
  refine rn53_neg (-49) 4503599627370496 ?_ ?_ ?_ ?_ ?_ <;> norm_num

theorem rimb_107 : roundNearest 53 ((-(4538647623875279 / 562949953421312)) * (6703233413723491 / 9007199254740992)) = (-(3377699720527871 / 562949953421312)) := by
  refine rn53_neg 2 6755399441055742 ?_ ?_ ?_ ?_ ?_ <;> norm_num

theorem rimb_108 : roundNearest 53 ((-(4538647623875279 / 562949953421312)) * (4468822275815661 / 18014398509481984)) = (-(4503599627370495 / 2251799813685248)) := by
  refine rn53_neg 0 9007199254740990 ?_ ?_ ?_ ?_ ?_ <;> norm_num

theorem rimb_109 : roundNearest 53 ((-(4538647623875279 / 562949953421312)) * (698253480596197 / 1125899906842624)) = (-(5629499534213119 / 1125899906842624)) := by
  refine rn53_neg 2 5629499534213119 ?_ ?_ ?_ ?_ ?_ <;> norm_num

theorem rimb_110 : roundNearest 53 (8 + (-(3377699720527871 / 562949953421312))) = (1125899906842625 / 562949953421312) := by
  refine rn53 1 4503599627370500 ?_ ?_ ?_ ?_ ?_ <;> norm_num

theorem rimb_111 : roundNearest 53 (2 + (-(4503599627370495 / 2251799813685248))) = (1 / 2251799813685248) := by
  refine rn53 (-51) 4503599627370496 ?_ ?_ ?_ ?_ ?_ <;> norm_num

theorem rimb_112 : roundNearest 53 (8 + (-(5629499534213119 / 1125899906842624))) = (3377699720527873 / 1125899906842624) := by
  refine rn53 1 6755399441055746 ?_ ?_ ?_ ?_ ?_ <;> norm_num

theorem rimb_113 : roundNearest 53 ((-(225179981368525 / 140737488355328)) - 0) = (-(225179981368525 / 140737488355328)) := by
  refine rn53_neg 0 7205759403792800 ?_ ?_ ?_ ?_ ?_ <;> norm_num

theorem rimb_114 : roundNearest 53 ((-(675539944105575 / 562949953421312)) - 0) = (-(675539944105575 / 562949953421312)) := by
  refine rn53_neg 0 5404319552844600 ?_ ?_ ?_ ?_ ?_ <;> norm_num

theorem rimb_115 : roundNearest 53 ((-(1 / 562949953421312)) - 0) = (-(1 / 562949953421312)) := by
  refine rn53_neg (-49) 4503599627370496 ?_ ?_ ?_ ?_ ?_ <;> norm_num

theorem rimb_116 : roundNearest 53 (0 * (-(225179981368525 / 140737488355328))) = 0 := by
  norm_num [roundNearest_zero]

theorem rimb_117 : roundNearest 53 (0 * (-(675539944105575 / 562949953421312))) = 0 := by
  norm_num [roundNearest_zero]

theorem rimb_118 : roundNearest 53 (1 * (-(1 / 562949953421312))) = (-(1 / 562949953421312)) := by
  refine rn53_neg (-49) 4503599627370496 ?_ ?_ ?_ ?_ ?_ <;> norm_num

theorem rimb_119 : roundNearest 53 (0 + (-(1 / 562949953421312))) = (-(1 / 562949953421312)) := by
  refine rn53_neg (-49) 4503599627370496 ?_ ?_ ?_ ?_ ?_ <;> norm_num

theorem rimb_120 : roundNearest 53 ((1125899906842625 / 562949953421312) - 0) = (1125899906842625 / 562949953421312) := by
  refine rn53 1 4503599627370500 ?_ ?_ ?_ ?_ ?_ <;> norm_num

theorem rimb_121 : roundNearest 53 ((1 / 2251799813685248) - 0) = (1 / 2251799813685248) := by
  refine rn53 (-51) 4503599627370496 ?_ ?_ ?_ ?_ ?_ <;> norm_num

theorem rimb_122 : roundNearest 53 ((3377699720527873 / 1125899906842624) - 0) = (3377699720527873 / 1125899906842624) := by
  refine rn53 1 6755399441055746 ?_ ?_ ?_ ?_ ?_ <;> norm_num

theorem rimb_123 : roundNearest 53 (0 * (1125899906842625 / 562949953421312)) = 0 := by
  norm_num [roundNearest_zero]

theorem rimb_124 : roundNearest 53 (0 * (1 / 2251799813685248)) = 0 := by
  norm_num [roundNearest_zero]

theorem rimb_125 : roundNearest 53 (1 * (3377699720527873 / 1125899906842624)) = (3377699720527873 / 1125899906842624) := by
  refine rn53 1 6755399441055746 ?_ ?_ ?_ ?_ ?_ <;> norm_num

theorem rimb_126 : roundNearest 53 (0 + (3377699720527873 / 1125899906842624)) = (3377699720527873 / 1125899906842624) := by
  refine rn53 1 6755399441055746 ?_ ?_ ?_ ?_ ?_ <;> norm_num

end SkSpatial.Binary64

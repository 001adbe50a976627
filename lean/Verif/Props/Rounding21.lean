import Verif.Props.Rounding20
import Verif.Lemmas.Binary64Rim
/-! # C112: lines through the rim of a cylinder in binary64 -/

namespace SkSpatial
open StdRounding Binary64

set_option linter.unusedSimpArgs false

local notation "b64" => rounded (leftToRight (roundNearest 53))

/-- Normalised direction vectors. -/
theorem rima_unit : @Vec.unit ℝ b64 [0, 0, 1] = .ok [0, 0, 1] ∧ @Vec.unit ℝ b64 [55, 0, 11] = .ok [(4416142765648337 / 4503599627370496), 0, (7065828425037339 / 36028797018963968)] := by
  constructor <;>
  · simp only [Vec.unit, norm_3, eq_rd, zero_rd, leftToRight_fl,
      rima_0, rima_1, rima_2, rima_3, rima_4, rima_5, rima_6, rima_7, rima_8, rima_9, rima_10, rima_11, rima_12, rima_13,
      rima_14, rima_15, rima_16, rima_17, rima_18, rima_19, rima_20, rima_21, rima_22, rima_23, rima_24, rima_25, rima_26, rima_27,
      rima_28, rima_29, rima_30, rima_31, rima_32, rima_33, rima_34, rima_35, rima_36, rima_37, rima_38, rima_39, rima_40, rima_41,
      rima_42, rima_43, rima_44, rima_45, rima_46, rima_47, rima_48, rima_49, rima_50, rima_51, rima_52, rima_53, rima_54, rima_55,
      rima_56, rima_57, rima_58, rima_59, rima_60, rima_61, rima_62, rima_63, rima_64, rima_65, rima_66, rima_67, rima_68, rima_69,
      rima_70, rima_71, rima_72, rima_73, rima_74, rima_75, rima_76, rima_77, rima_78, rima_79, rima_80, rima_81, rima_82, rima_83,
      rima_84, rima_85, rima_86, rima_87, rima_88, rima_89, rima_90, rima_91, rima_92, rima_93, rima_94, rima_95, rima_96, rima_97,
      rima_98, rima_99, rima_100, rima_101, rima_102, rima_103, rima_104, rima_105, rima_106]
    rw [if_neg (by norm_num)]
    simp only [sdiv_3, leftToRight_fl,
      rima_0, rima_1, rima_2, rima_3, rima_4, rima_5, rima_6, rima_7, rima_8, rima_9, rima_10, rima_11, rima_12, rima_13,
      rima_14, rima_15, rima_16, rima_17, rima_18, rima_19, rima_20, rima_21, rima_22, rima_23, rima_24, rima_25, rima_26, rima_27,
      rima_28, rima_29, rima_30, rima_31, rima_32, rima_33, rima_34, rima_35, rima_36, rima_37, rima_38, rima_39, rima_40, rima_41,
      rima_42, rima_43, rima_44, rima_45, rima_46, rima_47, rima_48, rima_49, rima_50, rima_51, rima_52, rima_53, rima_54, rima_55,
      rima_56, rima_57, rima_58, rima_59, rima_60, rima_61, rima_62, rima_63, rima_64, rima_65, rima_66, rima_67, rima_68, rima_69,
      rima_70, rima_71, rima_72, rima_73, rima_74, rima_75, rima_76, rima_77, rima_78, rima_79, rima_80, rima_81, rima_82, rima_83,
      rima_84, rima_85, rima_86, rima_87, rima_88, rima_89, rima_90, rima_91, rima_92, rima_93, rima_94, rima_95, rima_96, rima_97,
      rima_98, rima_99, rima_100, rima_101, rima_102, rima_103, rima_104, rima_105, rima_106]

theorem rima_planes : @Plane.new ℝ b64 [0, 0, 0] [0, 0, 1] = .ok ⟨[0, 0, 0], [0, 0, 1]⟩ ∧ @Plane.new ℝ b64 [0, 0, 1] [0, 0, 1] = .ok ⟨[0, 0, 1], [0, 0, 1]⟩ := by
  constructor <;>
  · simp only [Plane.new, newLinePlane, new1D_3, ok_bind, leftToRight_fl, Vec.isZero, dot_3, isclose_zero_53,
      rima_0, rima_1, rima_2, rima_3, rima_4, rima_5, rima_6, rima_7, rima_8, rima_9, rima_10, rima_11, rima_12, rima_13,
      rima_14, rima_15, rima_16, rima_17, rima_18, rima_19, rima_20, rima_21, rima_22, rima_23, rima_24, rima_25, rima_26, rima_27,
      rima_28, rima_29, rima_30, rima_31, rima_32, rima_33, rima_34, rima_35, rima_36, rima_37, rima_38, rima_39, rima_40, rima_41,
      rima_42, rima_43, rima_44, rima_45, rima_46, rima_47, rima_48, rima_49, rima_50, rima_51, rima_52, rima_53, rima_54, rima_55,
      rima_56, rima_57, rima_58, rima_59, rima_60, rima_61, rima_62, rima_63, rima_64, rima_65, rima_66, rima_67, rima_68, rima_69,
      rima_70, rima_71, rima_72, rima_73, rima_74, rima_75, rima_76, rima_77, rima_78, rima_79, rima_80, rima_81, rima_82, rima_83,
      rima_84, rima_85, rima_86, rima_87, rima_88, rima_89, rima_90, rima_91, rima_92, rima_93, rima_94, rima_95, rima_96, rima_97,
      rima_98, rima_99, rima_100, rima_101, rima_102, rima_103, rima_104, rima_105, rima_106]
    norm_num

theorem rima_new : @Cylinder.new ℝ b64 [0, 0, 0] [0, 0, 1] 2 = .ok ⟨[0, 0, 0], [0, 0, 1], 2⟩ ∧ @Line.new ℝ b64 [17, 0, 4] [55, 0, 11] = .ok ⟨[17, 0, 4], [55, 0, 11]⟩ := by
  constructor
  · simp only [Cylinder.new, new1D_3, ok_bind, leftToRight_fl, Vec.isZero, dot_3, isclose_zero_53,
      rima_0, rima_1, rima_2, rima_3, rima_4, rima_5, rima_6, rima_7, rima_8, rima_9, rima_10, rima_11, rima_12, rima_13,
      rima_14, rima_15, rima_16, rima_17, rima_18, rima_19, rima_20, rima_21, rima_22, rima_23, rima_24, rima_25, rima_26, rima_27,
      rima_28, rima_29, rima_30, rima_31, rima_32, rima_33, rima_34, rima_35, rima_36, rima_37, rima_38, rima_39, rima_40, rima_41,
      rima_42, rima_43, rima_44, rima_45, rima_46, rima_47, rima_48, rima_49, rima_50, rima_51, rima_52, rima_53, rima_54, rima_55,
      rima_56, rima_57, rima_58, rima_59, rima_60, rima_61, rima_62, rima_63, rima_64, rima_65, rima_66, rima_67, rima_68, rima_69,
      rima_70, rima_71, rima_72, rima_73, rima_74, rima_75, rima_76, rima_77, rima_78, rima_79, rima_80, rima_81, rima_82, rima_83,
      rima_84, rima_85, rima_86, rima_87, rima_88, rima_89, rima_90, rima_91, rima_92, rima_93, rima_94, rima_95, rima_96, rima_97,
      rima_98, rima_99, rima_100, rima_101, rima_102, rima_103, rima_104, rima_105, rima_106]
    norm_num [lt_rd, zero_rd]
  · simp only [Line.new, newLinePlane, new1D_3, ok_bind, leftToRight_fl, Vec.isZero, dot_3, isclose_zero_53,
      rima_0, rima_1, rima_2, rima_3, rima_4, rima_5, rima_6, rima_7, rima_8, rima_9, rima_10, rima_11, rima_12, rima_13,
      rima_14, rima_15, rima_16, rima_17, rima_18, rima_19, rima_20, rima_21, rima_22, rima_23, rima_24, rima_25, rima_26, rima_27,
      rima_28, rima_29, rima_30, rima_31, rima_32, rima_33, rima_34, rima_35, rima_36, rima_37, rima_38, rima_39, rima_40, rima_41,
      rima_42, rima_43, rima_44, rima_45, rima_46, rima_47, rima_48, rima_49, rima_50, rima_51, rima_52, rima_53, rima_54, rima_55,
      rima_56, rima_57, rima_58, rima_59, rima_60, rima_61, rima_62, rima_63, rima_64, rima_65, rima_66, rima_67, rima_68, rima_69,
      rima_70, rima_71, rima_72, rima_73, rima_74, rima_75, rima_76, rima_77, rima_78, rima_79, rima_80, rima_81, rima_82, rima_83,
      rima_84, rima_85, rima_86, rima_87, rima_88, rima_89, rima_90, rima_91, rima_92, rima_93, rima_94, rima_95, rima_96, rima_97,
      rima_98, rima_99, rima_100, rima_101, rima_102, rima_103, rima_104, rima_105, rima_106]
    norm_num

theorem rima_cap : @Cylinder.intersectCap ℝ b64 ⟨[0, 0, 0], [0, 0, 1], 2⟩ ⟨[17, 0, 4], [55, 0, 11]⟩ ⟨[0, 0, 0], [0, 0, 1]⟩ = .ok (none) ∧
    @Cylinder.intersectCap ℝ b64 ⟨[0, 0, 0], [0, 0, 1], 2⟩ ⟨[17, 0, 4], [55, 0, 11]⟩ ⟨[0, 0, 1], [0, 0, 1]⟩ = .ok (none) := by
  constructor <;>
  · simp only [Cylinder.intersectCap, wrapped_rd, Plane.intersectLine, Vec.isPerpendicular, dot_3, ok_bind, leftToRight_fl, isclose_zero_53,
      rima_0, rima_1, rima_2, rima_3, rima_4, rima_5, rima_6, rima_7, rima_8, rima_9, rima_10, rima_11, rima_12, rima_13,
      rima_14, rima_15, rima_16, rima_17, rima_18, rima_19, rima_20, rima_21, rima_22, rima_23, rima_24, rima_25, rima_26, rima_27,
      rima_28, rima_29, rima_30, rima_31, rima_32, rima_33, rima_34, rima_35, rima_36, rima_37, rima_38, rima_39, rima_40, rima_41,
      rima_42, rima_43, rima_44, rima_45, rima_46, rima_47, rima_48, rima_49, rima_50, rima_51, rima_52, rima_53, rima_54, rima_55,
      rima_56, rima_57, rima_58, rima_59, rima_60, rima_61, rima_62, rima_63, rima_64, rima_65, rima_66, rima_67, rima_68, rima_69,
      rima_70, rima_71, rima_72, rima_73, rima_74, rima_75, rima_76, rima_77, rima_78, rima_79, rima_80, rima_81, rima_82, rima_83,
      rima_84, rima_85, rima_86, rima_87, rima_88, rima_89, rima_90, rima_91, rima_92, rima_93, rima_94, rima_95, rima_96, rima_97,
      rima_98, rima_99, rima_100, rima_101, rima_102, rima_103, rima_104, rima_105, rima_106]
    norm_num only
    simp only [decide_false, Bool.false_eq_true, if_false, fromPoints_3, dot_3, ok_bind, neg_rd, div_rd, smul_3, vadd_3, leftToRight_fl,
      Pt.distancePoint, norm_3, le_rd, pure_ok, neg_zero, neg_neg,
      rima_0, rima_1, rima_2, rima_3, rima_4, rima_5, rima_6, rima_7, rima_8, rima_9, rima_10, rima_11, rima_12, rima_13,
      rima_14, rima_15, rima_16, rima_17, rima_18, rima_19, rima_20, rima_21, rima_22, rima_23, rima_24, rima_25, rima_26, rima_27,
      rima_28, rima_29, rima_30, rima_31, rima_32, rima_33, rima_34, rima_35, rima_36, rima_37, rima_38, rima_39, rima_40, rima_41,
      rima_42, rima_43, rima_44, rima_45, rima_46, rima_47, rima_48, rima_49, rima_50, rima_51, rima_52, rima_53, rima_54, rima_55,
      rima_56, rima_57, rima_58, rima_59, rima_60, rima_61, rima_62, rima_63, rima_64, rima_65, rima_66, rima_67, rima_68, rima_69,
      rima_70, rima_71, rima_72, rima_73, rima_74, rima_75, rima_76, rima_77, rima_78, rima_79, rima_80, rima_81, rima_82, rima_83,
      rima_84, rima_85, rima_86, rima_87, rima_88, rima_89, rima_90, rima_91, rima_92, rima_93, rima_94, rima_95, rima_96, rima_97,
      rima_98, rima_99, rima_100, rima_101, rima_102, rima_103, rima_104, rima_105, rima_106]
    norm_num

theorem rima_caps : @Cylinder.intersectCaps ℝ b64 ⟨[0, 0, 0], [0, 0, 1], 2⟩ ⟨[17, 0, 4], [55, 0, 11]⟩ = .ok (none, none) := by
  have hv : @vadd ℝ b64 [0, 0, 0] [0, 0, 1] = .ok [0, 0, 1] := by
    simp only [vadd_3, leftToRight_fl,
      rima_0, rima_1, rima_2, rima_3, rima_4, rima_5, rima_6, rima_7, rima_8, rima_9, rima_10, rima_11, rima_12, rima_13,
      rima_14, rima_15, rima_16, rima_17, rima_18, rima_19, rima_20, rima_21, rima_22, rima_23, rima_24, rima_25, rima_26, rima_27,
      rima_28, rima_29, rima_30, rima_31, rima_32, rima_33, rima_34, rima_35, rima_36, rima_37, rima_38, rima_39, rima_40, rima_41,
      rima_42, rima_43, rima_44, rima_45, rima_46, rima_47, rima_48, rima_49, rima_50, rima_51, rima_52, rima_53, rima_54, rima_55,
      rima_56, rima_57, rima_58, rima_59, rima_60, rima_61, rima_62, rima_63, rima_64, rima_65, rima_66, rima_67, rima_68, rima_69,
      rima_70, rima_71, rima_72, rima_73, rima_74, rima_75, rima_76, rima_77, rima_78, rima_79, rima_80, rima_81, rima_82, rima_83,
      rima_84, rima_85, rima_86, rima_87, rima_88, rima_89, rima_90, rima_91, rima_92, rima_93, rima_94, rima_95, rima_96, rima_97,
      rima_98, rima_99, rima_100, rima_101, rima_102, rima_103, rima_104, rima_105, rima_106]
  simp only [Cylinder.intersectCaps, rima_planes.1, rima_planes.2, rima_cap.1, rima_cap.2, hv, ok_bind, pure_ok]

theorem rima_inf : @Cylinder.intersectInfinite ℝ b64 ⟨[0, 0, 0], [0, 0, 1], 2⟩ ⟨[17, 0, 4], [55, 0, 11]⟩ none = .ok ([(-(281474976710657 / 140737488355328)), 0, (225179981368523 / 1125899906842624)], [(281474976710657 / 140737488355328), 0, (2251799813685251 / 2251799813685248)]) := by
  have h4 : ((4 : ℤ) : ℝ) = 4 := by norm_num
  have ha : ¬ ((4330384257087015 / 4503599627370496) : ℝ) = 0 := by norm_num
  have hb : ¬ ((67662254016985 / 4398046511104) : ℝ) < 0 := by norm_num
  simp only [Cylinder.intersectInfinite, wrapped_rd, rima_unit.1, rima_unit.2,
      fromPoints_3, dot_3, smul_3, vadd_3, vsub_3, norm_3, new1D_3, ok_bind, pure_ok, leftToRight_fl, sq_rd, two_rd, mul_rd, sub_rd, solveQuadratic,
      id, eq_rd, zero_rd, ofInt_rd, h4, lt_rd, mathSqrt, sqrt_rd, neg_rd, add_rd, div_rd, Int.cast_neg, Int.cast_one, neg_zero, ha, hb, decide_false,
      Bool.false_eq_true, if_false, if_true, not_true_eq_false, Nat.reduceAdd,
      rima_0, rima_1, rima_2, rima_3, rima_4, rima_5, rima_6, rima_7, rima_8, rima_9, rima_10, rima_11, rima_12, rima_13,
      rima_14, rima_15, rima_16, rima_17, rima_18, rima_19, rima_20, rima_21, rima_22, rima_23, rima_24, rima_25, rima_26, rima_27,
      rima_28, rima_29, rima_30, rima_31, rima_32, rima_33, rima_34, rima_35, rima_36, rima_37, rima_38, rima_39, rima_40, rima_41,
      rima_42, rima_43, rima_44, rima_45, rima_46, rima_47, rima_48, rima_49, rima_50, rima_51, rima_52, rima_53, rima_54, rima_55,
      rima_56, rima_57, rima_58, rima_59, rima_60, rima_61, rima_62, rima_63, rima_64, rima_65, rima_66, rima_67, rima_68, rima_69,
      rima_70, rima_71, rima_72, rima_73, rima_74, rima_75, rima_76, rima_77, rima_78, rima_79, rima_80, rima_81, rima_82, rima_83,
      rima_84, rima_85, rima_86, rima_87, rima_88, rima_89, rima_90, rima_91, rima_92, rima_93, rima_94, rima_95, rima_96, rima_97,
      rima_98, rima_99, rima_100, rima_101, rima_102, rima_103, rima_104, rima_105, rima_106]

theorem rima_between : @Cylinder.betweenCapPlanes ℝ b64 ⟨[0, 0, 0], [0, 0, 1], 2⟩ [(-(281474976710657 / 140737488355328)), 0, (225179981368523 / 1125899906842624)] = .ok true ∧
    @Cylinder.betweenCapPlanes ℝ b64 ⟨[0, 0, 0], [0, 0, 1], 2⟩ [(281474976710657 / 140737488355328), 0, (2251799813685251 / 2251799813685248)] = .ok false := by
  constructor <;>
  · simp only [Cylinder.betweenCapPlanes, rima_planes.1, ok_bind, Plane.distancePointSigned, Vec.scalarProjection, fromPoints_3, rima_unit.1, dot_3,
      leftToRight_fl, Cylinder.length, norm_3, le_rd, zero_rd, pure_ok,
      rima_0, rima_1, rima_2, rima_3, rima_4, rima_5, rima_6, rima_7, rima_8, rima_9, rima_10, rima_11, rima_12, rima_13,
      rima_14, rima_15, rima_16, rima_17, rima_18, rima_19, rima_20, rima_21, rima_22, rima_23, rima_24, rima_25, rima_26, rima_27,
      rima_28, rima_29, rima_30, rima_31, rima_32, rima_33, rima_34, rima_35, rima_36, rima_37, rima_38, rima_39, rima_40, rima_41,
      rima_42, rima_43, rima_44, rima_45, rima_46, rima_47, rima_48, rima_49, rima_50, rima_51, rima_52, rima_53, rima_54, rima_55,
      rima_56, rima_57, rima_58, rima_59, rima_60, rima_61, rima_62, rima_63, rima_64, rima_65, rima_66, rima_67, rima_68, rima_69,
      rima_70, rima_71, rima_72, rima_73, rima_74, rima_75, rima_76, rima_77, rima_78, rima_79, rima_80, rima_81, rima_82, rima_83,
      rima_84, rima_85, rima_86, rima_87, rima_88, rima_89, rima_90, rima_91, rima_92, rima_93, rima_94, rima_95, rima_96, rima_97,
      rima_98, rima_99, rima_100, rima_101, rima_102, rima_103, rima_104, rima_105, rima_106]
    norm_num

theorem rima_finite : @Cylinder.intersectFinite ℝ b64 ⟨[0, 0, 0], [0, 0, 1], 2⟩ ⟨[17, 0, 4], [55, 0, 11]⟩ none = .error (.valueError "The line does not intersect the cylinder.") := by
  rw [@finite_ok ℝ b64 _ _ none _ _ rima_caps (Or.inl rfl) _ _ _ _ rima_inf rima_between.1 rima_between.2]
  rfl

/-- Normalised direction vectors. -/
theorem rimb_unit : @Vec.unit ℝ b64 [0, 0, 3] = .ok [0, 0, 1] ∧ @Vec.unit ℝ b64 [6, 2, 5] = .ok [(6703233413723491 / 9007199254740992), (4468822275815661 / 18014398509481984), (698253480596197 / 1125899906842624)] := by
  constructor <;>
  · simp only [Vec.unit, norm_3, eq_rd, zero_rd, leftToRight_fl,
      rimb_0, rimb_1, rimb_2, rimb_3, rimb_4, rimb_5, rimb_6, rimb_7, rimb_8, rimb_9, rimb_10, rimb_11, rimb_12, rimb_13,
      rimb_14, rimb_15, rimb_16, rimb_17, rimb_18, rimb_19, rimb_20, rimb_21, rimb_22, rimb_23, rimb_24, rimb_25, rimb_26, rimb_27,
      rimb_28, rimb_29, rimb_30, rimb_31, rimb_32, rimb_33, rimb_34, rimb_35, rimb_36, rimb_37, rimb_38, rimb_39, rimb_40, rimb_41,
      rimb_42, rimb_43, rimb_44, rimb_45, rimb_46, rimb_47, rimb_48, rimb_49, rimb_50, rimb_51, rimb_52, rimb_53, rimb_54, rimb_55,
      rimb_56, rimb_57, rimb_58, rimb_59, rimb_60, rimb_61, rimb_62, rimb_63, rimb_64, rimb_65, rimb_66, rimb_67, rimb_68, rimb_69,
      rimb_70, rimb_71, rimb_72, rimb_73, rimb_74, rimb_75, rimb_76, rimb_77, rimb_78, rimb_79, rimb_80, rimb_81, rimb_82, rimb_83,
      rimb_84, rimb_85, rimb_86, rimb_87, rimb_88, rimb_89, rimb_90, rimb_91, rimb_92, rimb_93, rimb_94, rimb_95, rimb_96, rimb_97,
      rimb_98, rimb_99, rimb_100, rimb_101, rimb_102, rimb_103, rimb_104, rimb_105, rimb_106, rimb_107, rimb_108, rimb_109, rimb_110, rimb_111,
      rimb_112, rimb_113, rimb_114, rimb_115, rimb_116, rimb_117, rimb_118, rimb_119, rimb_120, rimb_121, rimb_122, rimb_123, rimb_124, rimb_125,
      rimb_126]
    rw [if_neg (by norm_num)]
    simp only [sdiv_3, leftToRight_fl,
      rimb_0, rimb_1, rimb_2, rimb_3, rimb_4, rimb_5, rimb_6, rimb_7, rimb_8, rimb_9, rimb_10, rimb_11, rimb_12, rimb_13,
      rimb_14, rimb_15, rimb_16, rimb_17, rimb_18, rimb_19, rimb_20, rimb_21, rimb_22, rimb_23, rimb_24, rimb_25, rimb_26, rimb_27,
      rimb_28, rimb_29, rimb_30, rimb_31, rimb_32, rimb_33, rimb_34, rimb_35, rimb_36, rimb_37, rimb_38, rimb_39, rimb_40, rimb_41,
      rimb_42, rimb_43, rimb_44, rimb_45, rimb_46, rimb_47, rimb_48, rimb_49, rimb_50, rimb_51, rimb_52, rimb_53, rimb_54, rimb_55,
      rimb_56, rimb_57, rimb_58, rimb_59, rimb_60, rimb_61, rimb_62, rimb_63, rimb_64, rimb_65, rimb_66, rimb_67, rimb_68, rimb_69,
      rimb_70, rimb_71, rimb_72, rimb_73, rimb_74, rimb_75, rimb_76, rimb_77, rimb_78, rimb_79, rimb_80, rimb_81, rimb_82, rimb_83,
      rimb_84, rimb_85, rimb_86, rimb_87, rimb_88, rimb_89, rimb_90, rimb_91, rimb_92, rimb_93, rimb_94, rimb_95, rimb_96, rimb_97,
      rimb_98, rimb_99, rimb_100, rimb_101, rimb_102, rimb_103, rimb_104, rimb_105, rimb_106, rimb_107, rimb_108, rimb_109, rimb_110, rimb_111,
      rimb_112, rimb_113, rimb_114, rimb_115, rimb_116, rimb_117, rimb_118, rimb_119, rimb_120, rimb_121, rimb_122, rimb_123, rimb_124, rimb_125,
      rimb_126]

theorem rimb_planes : @Plane.new ℝ b64 [0, 0, 0] [0, 0, 3] = .ok ⟨[0, 0, 0], [0, 0, 3]⟩ ∧ @Plane.new ℝ b64 [0, 0, 3] [0, 0, 3] = .ok ⟨[0, 0, 3], [0, 0, 3]⟩ := by
  constructor <;>
  · simp only [Plane.new, newLinePlane, new1D_3, ok_bind, leftToRight_fl, Vec.isZero, dot_3, isclose_zero_53,
      rimb_0, rimb_1, rimb_2, rimb_3, rimb_4, rimb_5, rimb_6, rimb_7, rimb_8, rimb_9, rimb_10, rimb_11, rimb_12, rimb_13,
      rimb_14, rimb_15, rimb_16, rimb_17, rimb_18, rimb_19, rimb_20, rimb_21, rimb_22, rimb_23, rimb_24, rimb_25, rimb_26, rimb_27,
      rimb_28, rimb_29, rimb_30, rimb_31, rimb_32, rimb_33, rimb_34, rimb_35, rimb_36, rimb_37, rimb_38, rimb_39, rimb_40, rimb_41,
      rimb_42, rimb_43, rimb_44, rimb_45, rimb_46, rimb_47, rimb_48, rimb_49, rimb_50, rimb_51, rimb_52, rimb_53, rimb_54, rimb_55,
      rimb_56, rimb_57, rimb_58, rimb_59, rimb_60, rimb_61, rimb_62, rimb_63, rimb_64, rimb_65, rimb_66, rimb_67, rimb_68, rimb_69,
      rimb_70, rimb_71, rimb_72, rimb_73, rimb_74, rimb_75, rimb_76, rimb_77, rimb_78, rimb_79, rimb_80, rimb_81, rimb_82, rimb_83,
      rimb_84, rimb_85, rimb_86, rimb_87, rimb_88, rimb_89, rimb_90, rimb_91, rimb_92, rimb_93, rimb_94, rimb_95, rimb_96, rimb_97,
      rimb_98, rimb_99, rimb_100, rimb_101, rimb_102, rimb_103, rimb_104, rimb_105, rimb_106, rimb_107, rimb_108, rimb_109, rimb_110, rimb_111,
      rimb_112, rimb_113, rimb_114, rimb_115, rimb_116, rimb_117, rimb_118, rimb_119, rimb_120, rimb_121, rimb_122, rimb_123, rimb_124, rimb_125,
      rimb_126]
    norm_num

theorem rimb_new : @Cylinder.new ℝ b64 [0, 0, 0] [0, 0, 3] 2 = .ok ⟨[0, 0, 0], [0, 0, 3], 2⟩ ∧ @Line.new ℝ b64 [8, 2, 8] [6, 2, 5] = .ok ⟨[8, 2, 8], [6, 2, 5]⟩ := by
  constructor
  · simp only [Cylinder.new, new1D_3, ok_bind, leftToRight_fl, Vec.isZero, dot_3, isclose_zero_53,
      rimb_0, rimb_1, rimb_2, rimb_3, rimb_4, rimb_5, rimb_6, rimb_7, rimb_8, rimb_9, rimb_10, rimb_11, rimb_12, rimb_13,
      rimb_14, rimb_15, rimb_16, rimb_17, rimb_18, rimb_19, rimb_20, rimb_21, rimb_22, rimb_23, rimb_24, rimb_25, rimb_26, rimb_27,
      rimb_28, rimb_29, rimb_30, rimb_31, rimb_32, rimb_33, rimb_34, rimb_35, rimb_36, rimb_37, rimb_38, rimb_39, rimb_40, rimb_41,
      rimb_42, rimb_43, rimb_44, rimb_45, rimb_46, rimb_47, rimb_48, rimb_49, rimb_50, rimb_51, rimb_52, rimb_53, rimb_54, rimb_55,
      rimb_56, rimb_57, rimb_58, rimb_59, rimb_60, rimb_61, rimb_62, rimb_63, rimb_64, rimb_65, rimb_66, rimb_67, rimb_68, rimb_69,
      rimb_70, rimb_71, rimb_72, rimb_73, rimb_74, rimb_75, rimb_76, rimb_77, rimb_78, rimb_79, rimb_80, rimb_81, rimb_82, rimb_83,
      rimb_84, rimb_85, rimb_86, rimb_87, rimb_88, rimb_89, rimb_90, rimb_91, rimb_92, rimb_93, rimb_94, rimb_95, rimb_96, rimb_97,
      rimb_98, rimb_99, rimb_100, rimb_101, rimb_102, rimb_103, rimb_104, rimb_105, rimb_106, rimb_107, rimb_108, rimb_109, rimb_110, rimb_111,
      rimb_112, rimb_113, rimb_114, rimb_115, rimb_116, rimb_117, rimb_118, rimb_119, rimb_120, rimb_121, rimb_122, rimb_123, rimb_124, rimb_125,
      rimb_126]
    norm_num [lt_rd, zero_rd]
  · simp only [Line.new, newLinePlane, new1D_3, ok_bind, leftToRight_fl, Vec.isZero, dot_3, isclose_zero_53,
      rimb_0, rimb_1, rimb_2, rimb_3, rimb_4, rimb_5, rimb_6, rimb_7, rimb_8, rimb_9, rimb_10, rimb_11, rimb_12, rimb_13,
      rimb_14, rimb_15, rimb_16, rimb_17, rimb_18, rimb_19, rimb_20, rimb_21, rimb_22, rimb_23, rimb_24, rimb_25, rimb_26, rimb_27,
      rimb_28, rimb_29, rimb_30, rimb_31, rimb_32, rimb_33, rimb_34, rimb_35, rimb_36, rimb_37, rimb_38, rimb_39, rimb_40, rimb_41,
      rimb_42, rimb_43, rimb_44, rimb_45, rimb_46, rimb_47, rimb_48, rimb_49, rimb_50, rimb_51, rimb_52, rimb_53, rimb_54, rimb_55,
      rimb_56, rimb_57, rimb_58, rimb_59, rimb_60, rimb_61, rimb_62, rimb_63, rimb_64, rimb_65, rimb_66, rimb_67, rimb_68, rimb_69,
      rimb_70, rimb_71, rimb_72, rimb_73, rimb_74, rimb_75, rimb_76, rimb_77, rimb_78, rimb_79, rimb_80, rimb_81, rimb_82, rimb_83,
      rimb_84, rimb_85, rimb_86, rimb_87, rimb_88, rimb_89, rimb_90, rimb_91, rimb_92, rimb_93, rimb_94, rimb_95, rimb_96, rimb_97,
      rimb_98, rimb_99, rimb_100, rimb_101, rimb_102, rimb_103, rimb_104, rimb_105, rimb_106, rimb_107, rimb_108, rimb_109, rimb_110, rimb_111,
      rimb_112, rimb_113, rimb_114, rimb_115, rimb_116, rimb_117, rimb_118, rimb_119, rimb_120, rimb_121, rimb_122, rimb_123, rimb_124, rimb_125,
      rimb_126]
    norm_num

theorem rimb_cap : @Cylinder.intersectCap ℝ b64 ⟨[0, 0, 0], [0, 0, 3], 2⟩ ⟨[8, 2, 8], [6, 2, 5]⟩ ⟨[0, 0, 0], [0, 0, 3]⟩ = .ok (none) ∧
    @Cylinder.intersectCap ℝ b64 ⟨[0, 0, 0], [0, 0, 3], 2⟩ ⟨[8, 2, 8], [6, 2, 5]⟩ ⟨[0, 0, 3], [0, 0, 3]⟩ = .ok (some [2, 0, 3]) := by
  constructor <;>
  · simp only [Cylinder.intersectCap, wrapped_rd, Plane.intersectLine, Vec.isPerpendicular, dot_3, ok_bind, leftToRight_fl, isclose_zero_53,
      rimb_0, rimb_1, rimb_2, rimb_3, rimb_4, rimb_5, rimb_6, rimb_7, rimb_8, rimb_9, rimb_10, rimb_11, rimb_12, rimb_13,
      rimb_14, rimb_15, rimb_16, rimb_17, rimb_18, rimb_19, rimb_20, rimb_21, rimb_22, rimb_23, rimb_24, rimb_25, rimb_26, rimb_27,
      rimb_28, rimb_29, rimb_30, rimb_31, rimb_32, rimb_33, rimb_34, rimb_35, rimb_36, rimb_37, rimb_38, rimb_39, rimb_40, rimb_41,
      rimb_42, rimb_43, rimb_44, rimb_45, rimb_46, rimb_47, rimb_48, rimb_49, rimb_50, rimb_51, rimb_52, rimb_53, rimb_54, rimb_55,
      rimb_56, rimb_57, rimb_58, rimb_59, rimb_60, rimb_61, rimb_62, rimb_63, rimb_64, rimb_65, rimb_66, rimb_67, rimb_68, rimb_69,
      rimb_70, rimb_71, rimb_72, rimb_73, rimb_74, rimb_75, rimb_76, rimb_77, rimb_78, rimb_79, rimb_80, rimb_81, rimb_82, rimb_83,
      rimb_84, rimb_85, rimb_86, rimb_87, rimb_88, rimb_89, rimb_90, rimb_91, rimb_92, rimb_93, rimb_94, rimb_95, rimb_96, rimb_97,
      rimb_98, rimb_99, rimb_100, rimb_101, rimb_102, rimb_103, rimb_104, rimb_105, rimb_106, rimb_107, rimb_108, rimb_109, rimb_110, rimb_111,
      rimb_112, rimb_113, rimb_114, rimb_115, rimb_116, rimb_117, rimb_118, rimb_119, rimb_120, rimb_121, rimb_122, rimb_123, rimb_124, rimb_125,
      rimb_126]
    norm_num only
    simp only [decide_false, Bool.false_eq_true, if_false, fromPoints_3, dot_3, ok_bind, neg_rd, div_rd, smul_3, vadd_3, leftToRight_fl,
      Pt.distancePoint, norm_3, le_rd, pure_ok, neg_zero, neg_neg,
      rimb_0, rimb_1, rimb_2, rimb_3, rimb_4, rimb_5, rimb_6, rimb_7, rimb_8, rimb_9, rimb_10, rimb_11, rimb_12, rimb_13,
      rimb_14, rimb_15, rimb_16, rimb_17, rimb_18, rimb_19, rimb_20, rimb_21, rimb_22, rimb_23, rimb_24, rimb_25, rimb_26, rimb_27,
      rimb_28, rimb_29, rimb_30, rimb_31, rimb_32, rimb_33, rimb_34, rimb_35, rimb_36, rimb_37, rimb_38, rimb_39, rimb_40, rimb_41,
      rimb_42, rimb_43, rimb_44, rimb_45, rimb_46, rimb_47, rimb_48, rimb_49, rimb_50, rimb_51, rimb_52, rimb_53, rimb_54, rimb_55,
      rimb_56, rimb_57, rimb_58, rimb_59, rimb_60, rimb_61, rimb_62, rimb_63, rimb_64, rimb_65, rimb_66, rimb_67, rimb_68, rimb_69,
      rimb_70, rimb_71, rimb_72, rimb_73, rimb_74, rimb_75, rimb_76, rimb_77, rimb_78, rimb_79, rimb_80, rimb_81, rimb_82, rimb_83,
      rimb_84, rimb_85, rimb_86, rimb_87, rimb_88, rimb_89, rimb_90, rimb_91, rimb_92, rimb_93, rimb_94, rimb_95, rimb_96, rimb_97,
      rimb_98, rimb_99, rimb_100, rimb_101, rimb_102, rimb_103, rimb_104, rimb_105, rimb_106, rimb_107, rimb_108, rimb_109, rimb_110, rimb_111,
      rimb_112, rimb_113, rimb_114, rimb_115, rimb_116, rimb_117, rimb_118, rimb_119, rimb_120, rimb_121, rimb_122, rimb_123, rimb_124, rimb_125,
      rimb_126]
    norm_num

theorem rimb_caps : @Cylinder.intersectCaps ℝ b64 ⟨[0, 0, 0], [0, 0, 3], 2⟩ ⟨[8, 2, 8], [6, 2, 5]⟩ = .ok (none, some [2, 0, 3]) := by
  have hv : @vadd ℝ b64 [0, 0, 0] [0, 0, 3] = .ok [0, 0, 3] := by
    simp only [vadd_3, leftToRight_fl,
      rimb_0, rimb_1, rimb_2, rimb_3, rimb_4, rimb_5, rimb_6, rimb_7, rimb_8, rimb_9, rimb_10, rimb_11, rimb_12, rimb_13,
      rimb_14, rimb_15, rimb_16, rimb_17, rimb_18, rimb_19, rimb_20, rimb_21, rimb_22, rimb_23, rimb_24, rimb_25, rimb_26, rimb_27,
      rimb_28, rimb_29, rimb_30, rimb_31, rimb_32, rimb_33, rimb_34, rimb_35, rimb_36, rimb_37, rimb_38, rimb_39, rimb_40, rimb_41,
      rimb_42, rimb_43, rimb_44, rimb_45, rimb_46, rimb_47, rimb_48, rimb_49, rimb_50, rimb_51, rimb_52, rimb_53, rimb_54, rimb_55,
      rimb_56, rimb_57, rimb_58, rimb_59, rimb_60, rimb_61, rimb_62, rimb_63, rimb_64, rimb_65, rimb_66, rimb_67, rimb_68, rimb_69,
      rimb_70, rimb_71, rimb_72, rimb_73, rimb_74, rimb_75, rimb_76, rimb_77, rimb_78, rimb_79, rimb_80, rimb_81, rimb_82, rimb_83,
      rimb_84, rimb_85, rimb_86, rimb_87, rimb_88, rimb_89, rimb_90, rimb_91, rimb_92, rimb_93, rimb_94, rimb_95, rimb_96, rimb_97,
      rimb_98, rimb_99, rimb_100, rimb_101, rimb_102, rimb_103, rimb_104, rimb_105, rimb_106, rimb_107, rimb_108, rimb_109, rimb_110, rimb_111,
      rimb_112, rimb_113, rimb_114, rimb_115, rimb_116, rimb_117, rimb_118, rimb_119, rimb_120, rimb_121, rimb_122, rimb_123, rimb_124, rimb_125,
      rimb_126]
  simp only [Cylinder.intersectCaps, rimb_planes.1, rimb_planes.2, rimb_cap.1, rimb_cap.2, hv, ok_bind, pure_ok]

theorem rimb_inf : @Cylinder.intersectInfinite ℝ b64 ⟨[0, 0, 0], [0, 0, 3], 2⟩ ⟨[8, 2, 8], [6, 2, 5]⟩ none = .ok ([(-(225179981368525 / 140737488355328)), (-(675539944105575 / 562949953421312)), (-(1 / 562949953421312))], [(1125899906842625 / 562949953421312), (1 / 2251799813685248), (3377699720527873 / 1125899906842624)]) := by
  have h4 : ((4 : ℤ) : ℝ) = 4 := by norm_num
  have ha : ¬ ((1385722962267845 / 2251799813685248) : ℝ) = 0 := by norm_num
  have hb : ¬ ((155893833255133 / 17592186044416) : ℝ) < 0 := by norm_num
  simp only [Cylinder.intersectInfinite, wrapped_rd, rimb_unit.1, rimb_unit.2,
      fromPoints_3, dot_3, smul_3, vadd_3, vsub_3, norm_3, new1D_3, ok_bind, pure_ok, leftToRight_fl, sq_rd, two_rd, mul_rd, sub_rd, solveQuadratic,
      id, eq_rd, zero_rd, ofInt_rd, h4, lt_rd, mathSqrt, sqrt_rd, neg_rd, add_rd, div_rd, Int.cast_neg, Int.cast_one, neg_zero, ha, hb, decide_false,
      Bool.false_eq_true, if_false, if_true, not_true_eq_false, Nat.reduceAdd,
      rimb_0, rimb_1, rimb_2, rimb_3, rimb_4, rimb_5, rimb_6, rimb_7, rimb_8, rimb_9, rimb_10, rimb_11, rimb_12, rimb_13,
      rimb_14, rimb_15, rimb_16, rimb_17, rimb_18, rimb_19, rimb_20, rimb_21, rimb_22, rimb_23, rimb_24, rimb_25, rimb_26, rimb_27,
      rimb_28, rimb_29, rimb_30, rimb_31, rimb_32, rimb_33, rimb_34, rimb_35, rimb_36, rimb_37, rimb_38, rimb_39, rimb_40, rimb_41,
      rimb_42, rimb_43, rimb_44, rimb_45, rimb_46, rimb_47, rimb_48, rimb_49, rimb_50, rimb_51, rimb_52, rimb_53, rimb_54, rimb_55,
      rimb_56, rimb_57, rimb_58, rimb_59, rimb_60, rimb_61, rimb_62, rimb_63, rimb_64, rimb_65, rimb_66, rimb_67, rimb_68, rimb_69,
      rimb_70, rimb_71, rimb_72, rimb_73, rimb_74, rimb_75, rimb_76, rimb_77, rimb_78, rimb_79, rimb_80, rimb_81, rimb_82, rimb_83,
      rimb_84, rimb_85, rimb_86, rimb_87, rimb_88, rimb_89, rimb_90, rimb_91, rimb_92, rimb_93, rimb_94, rimb_95, rimb_96, rimb_97,
      rimb_98, rimb_99, rimb_100, rimb_101, rimb_102, rimb_103, rimb_104, rimb_105, rimb_106, rimb_107, rimb_108, rimb_109, rimb_110, rimb_111,
      rimb_112, rimb_113, rimb_114, rimb_115, rimb_116, rimb_117, rimb_118, rimb_119, rimb_120, rimb_121, rimb_122, rimb_123, rimb_124, rimb_125,
      rimb_126]

theorem rimb_between : @Cylinder.betweenCapPlanes ℝ b64 ⟨[0, 0, 0], [0, 0, 3], 2⟩ [(-(225179981368525 / 140737488355328)), (-(675539944105575 / 562949953421312)), (-(1 / 562949953421312))] = .ok false ∧
    @Cylinder.betweenCapPlanes ℝ b64 ⟨[0, 0, 0], [0, 0, 3], 2⟩ [(1125899906842625 / 562949953421312), (1 / 2251799813685248), (3377699720527873 / 1125899906842624)] = .ok false := by
  constructor <;>
  · simp only [Cylinder.betweenCapPlanes, rimb_planes.1, ok_bind, Plane.distancePointSigned, Vec.scalarProjection, fromPoints_3, rimb_unit.1, dot_3,
      leftToRight_fl, Cylinder.length, norm_3, le_rd, zero_rd, pure_ok,
      rimb_0, rimb_1, rimb_2, rimb_3, rimb_4, rimb_5, rimb_6, rimb_7, rimb_8, rimb_9, rimb_10, rimb_11, rimb_12, rimb_13,
      rimb_14, rimb_15, rimb_16, rimb_17, rimb_18, rimb_19, rimb_20, rimb_21, rimb_22, rimb_23, rimb_24, rimb_25, rimb_26, rimb_27,
      rimb_28, rimb_29, rimb_30, rimb_31, rimb_32, rimb_33, rimb_34, rimb_35, rimb_36, rimb_37, rimb_38, rimb_39, rimb_40, rimb_41,
      rimb_42, rimb_43, rimb_44, rimb_45, rimb_46, rimb_47, rimb_48, rimb_49, rimb_50, rimb_51, rimb_52, rimb_53, rimb_54, rimb_55,
      rimb_56, rimb_57, rimb_58, rimb_59, rimb_60, rimb_61, rimb_62, rimb_63, rimb_64, rimb_65, rimb_66, rimb_67, rimb_68, rimb_69,
      rimb_70, rimb_71, rimb_72, rimb_73, rimb_74, rimb_75, rimb_76, rimb_77, rimb_78, rimb_79, rimb_80, rimb_81, rimb_82, rimb_83,
      rimb_84, rimb_85, rimb_86, rimb_87, rimb_88, rimb_89, rimb_90, rimb_91, rimb_92, rimb_93, rimb_94, rimb_95, rimb_96, rimb_97,
      rimb_98, rimb_99, rimb_100, rimb_101, rimb_102, rimb_103, rimb_104, rimb_105, rimb_106, rimb_107, rimb_108, rimb_109, rimb_110, rimb_111,
      rimb_112, rimb_113, rimb_114, rimb_115, rimb_116, rimb_117, rimb_118, rimb_119, rimb_120, rimb_121, rimb_122, rimb_123, rimb_124, rimb_125,
      rimb_126]
    norm_num

theorem rimb_finite : @Cylinder.intersectFinite ℝ b64 ⟨[0, 0, 0], [0, 0, 3], 2⟩ ⟨[8, 2, 8], [6, 2, 5]⟩ none = .ok ([2, 0, 3], [2, 0, 3]) := by
  rw [@finite_ok ℝ b64 _ _ none _ _ rimb_caps (Or.inl rfl) _ _ _ _ rimb_inf rimb_between.1 rimb_between.2]
  rfl

/-- The upright cylinder around the origin. -/
theorem upright_mem {r h : ℝ} (hr : 0 < r) (hh : 0 < h) (x : E 3) :
    x ∈ solidCyl (vec3 0 0 0) (vec3 0 0 h) r ↔ 0 ≤ x 2 ∧ x 2 ≤ h ∧ x 0 ^ 2 + x 1 ^ 2 ≤ r ^ 2 := by
  constructor
  · rintro ⟨t, w, h0, h1, hw, hwr, rfl⟩
    have hw2 : w 2 = 0 := by
      simp [inner3, vec3] at hw
      rcases hw with hw | hw
      · exact hw
      · exact absurd hw hh.ne'
    have hn := pow_le_pow_left₀ (norm_nonneg w) hwr 2
    rw [norm_sq3, hw2] at hn
    simp [vec3, hw2]
    refine ⟨by positivity, ?_, by linarith⟩
    nlinarith
  · rintro ⟨h0, h1, h2⟩
    refine ⟨x 2 / h, vec3 (x 0) (x 1) 0, by positivity, by rw [div_le_one hh]; exact h1, by simp [inner3, vec3], ?_, ?_⟩
    · refine le_of_sq_le_sq ?_ hr.le
      rw [norm_sq3]; simpa [vec3] using h2
    · ext i; fin_cases i <;> simp [vec3]
      field_simp

/-- **C112** Lines through a rim, in binary64. The line through `(17, 0, 4)` with direction `(55, 0, 11)` enters the cylinder of radius 2 between
the origin and `(0, 0, 1)` at the rim point `(2, 0, 1)` and leaves it at `(-2, 0, 0.2)`, but the method raises. The line through `(8, 2, 8)` with
direction `(6, 2, 5)` passes from the top rim point `(2, 0, 3)` of the cylinder of height 3 to the bottom rim point `(-1.6, -1.2, 0)`, but the
method returns `(2, 0, 3)` twice. -/
theorem C112_rim_defect :
    (∃ C L, @Cylinder.new ℝ b64 (arr (vec3 0 0 0)) (arr (vec3 0 0 1)) 2 = .ok C ∧ @Line.new ℝ b64 (arr (vec3 17 0 4)) (arr (vec3 55 0 11)) = .ok L ∧
      @Cylinder.intersectLine ℝ b64 C L none false = .error (.valueError "The line does not intersect the cylinder.") ∧
      solidCyl (vec3 0 0 0) (vec3 0 0 1) 2 ∩ lineSet (vec3 17 0 4) (vec3 55 0 11) = segment ℝ (vec3 (-2) 0 (1 / 5)) (vec3 2 0 1)) ∧
    (∃ C L, @Cylinder.new ℝ b64 (arr (vec3 0 0 0)) (arr (vec3 0 0 3)) 2 = .ok C ∧ @Line.new ℝ b64 (arr (vec3 8 2 8)) (arr (vec3 6 2 5)) = .ok L ∧
      @Cylinder.intersectLine ℝ b64 C L none false = .ok (arr (vec3 2 0 3), arr (vec3 2 0 3)) ∧
      solidCyl (vec3 0 0 0) (vec3 0 0 3) 2 ∩ lineSet (vec3 8 2 8) (vec3 6 2 5) = segment ℝ (vec3 (-8 / 5) (-6 / 5) 0) (vec3 2 0 3)) := by
  constructor
  · refine ⟨_, _, rima_new.1, rima_new.2, ?_, ?_⟩
    · rw [← rima_finite]; rfl
    · rw [show vec3 (-2) 0 (1 / 5) = vec3 17 0 4 + (-19 / 55 : ℝ) • vec3 55 0 11 by ext i; fin_cases i <;> norm_num [vec3],
        show vec3 2 0 1 = vec3 17 0 4 + (-3 / 11 : ℝ) • vec3 55 0 11 by ext i; fin_cases i <;> norm_num [vec3], segment_line,
        Set.uIcc_of_le (by norm_num)]
      ext z
      constructor
      · rintro ⟨hz, t, rfl⟩
        rw [upright_mem two_pos one_pos] at hz
        simp [vec3] at hz
        obtain ⟨h1, h2, h3⟩ := hz
        exact ⟨t, ⟨by nlinarith, by linarith⟩, rfl⟩
      · rintro ⟨t, ⟨h1, h2⟩, rfl⟩
        refine ⟨?_, t, rfl⟩
        rw [upright_mem two_pos one_pos]
        simp [vec3]
        exact ⟨by linarith, by linarith, by nlinarith⟩
  · refine ⟨_, _, rimb_new.1, rimb_new.2, ?_, ?_⟩
    · rw [arr_vec3, ← rimb_finite]; rfl
    · rw [show vec3 (-8 / 5) (-6 / 5) 0 = vec3 8 2 8 + (-8 / 5 : ℝ) • vec3 6 2 5 by ext i; fin_cases i <;> norm_num [vec3],
        show vec3 2 0 3 = vec3 8 2 8 + (-1 : ℝ) • vec3 6 2 5 by ext i; fin_cases i <;> norm_num [vec3], segment_line,
        Set.uIcc_of_le (by norm_num)]
      ext z
      constructor
      · rintro ⟨hz, t, rfl⟩
        rw [upright_mem two_pos three_pos] at hz
        simp [vec3] at hz
        obtain ⟨h1, h2, h3⟩ := hz
        exact ⟨t, ⟨by linarith, by linarith⟩, rfl⟩
      · rintro ⟨t, ⟨h1, h2⟩, rfl⟩
        refine ⟨?_, t, rfl⟩
        rw [upright_mem two_pos three_pos]
        simp [vec3]
        exact ⟨by linarith, by linarith, by nlinarith⟩

end SkSpatial

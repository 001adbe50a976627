import Verif.Spec.Arrays
import Verif.Lemmas.XReal
/-! # C04, C05: constructors of lines, planes, circles, spheres and cylinders -/

namespace SkSpatial
open XReal

theorem newLinePlane_xreal (p v : List XReal) :
    (∀ r, newLinePlane p v = .ok r →
      ValidArray p ∧ ValidArray v ∧ p.length = v.length ∧ NonZero v ∧ r = (p, v)) ∧
    (ValidArray p → ValidArray v → p.length = v.length → NonZero v → newLinePlane p v = .ok (p, v)) ∧
    (∀ e, newLinePlane p v = .error e → ∃ msg, e = .valueError msg) := by
  by_cases hp : ValidArray p
  swap
  · have : ∀ m, new1D p ≠ .ok m := fun m hm => hp ⟨(new1D_xreal_ok_iff.mp hm).1, (new1D_xreal_ok_iff.mp hm).2.1⟩
    cases h : new1D p with
    | ok m => exact absurd h (this m)
    | error e =>
      simp only [newLinePlane, h, error_bind]
      refine ⟨by simp, fun h' => absurd h' hp, ?_⟩
      intro e' he'; cases he'; exact new1D_error h
  by_cases hv : ValidArray v
  swap
  · have : ∀ m, new1D v ≠ .ok m := fun m hm => hv ⟨(new1D_xreal_ok_iff.mp hm).1, (new1D_xreal_ok_iff.mp hm).2.1⟩
    cases h : new1D v with
    | ok m => exact absurd h (this m)
    | error e =>
      simp only [newLinePlane, new1D_xreal_ok_iff.mpr ⟨hp.1, hp.2, rfl⟩, h, error_bind, ok_bind]
      refine ⟨by simp, fun _ h' => absurd h' hv, ?_⟩
      intro e' he'; cases he'; exact new1D_error h
  obtain ⟨w, rfl⟩ := exists_map_fin hv.2
  have hz : NonZero (w.map fin) ↔ ¬ ∀ x ∈ w, x = 0 := by
    simp [NonZero]
  simp only [newLinePlane, new1D_xreal_ok_iff.mpr ⟨hp.1, hp.2, rfl⟩,
    new1D_xreal_ok_iff.mpr ⟨hv.1, hv.2, rfl⟩, ok_bind, xisZero_default]
  by_cases hl : p.length = (w.map fin).length
  · by_cases h0 : ∀ x ∈ w, x = 0
    · have hd : (decide (∀ x ∈ w, x = 0)) = true := decide_eq_true h0
      simp only [hl, hd]
      simp only [hz]
      simp
      exact fun _ _ => h0
    · simp only [hl, h0]
      simp only [hz]
      simp [hp, hv, h0, eq_comm]
  · simp only [ne_eq, hl]
    simp

/-- C04: `Line(p, v)` succeeds exactly when both arrays are valid, have the same dimension and `v` is
not zero; it stores its inputs; otherwise it raises `ValueError`. -/
theorem C04_line_constructor (p v : List XReal) :
    ((∃ L, Line.new p v = .ok L) ↔
      ValidArray p ∧ ValidArray v ∧ p.length = v.length ∧ NonZero v) ∧
    (∀ L, Line.new p v = .ok L → L = ⟨p, v⟩) ∧
    (∀ e, Line.new p v = .error e → ∃ msg, e = .valueError msg) := by
  obtain ⟨h1, h2, h3⟩ := newLinePlane_xreal p v
  unfold Line.new
  cases h : newLinePlane p v with
  | ok r =>
    obtain ⟨a, b, c, d, e⟩ := h1 r h
    subst e
    simp [a, b, c, d]
  | error e =>
    refine ⟨⟨by simp, fun ⟨a, b, c, d⟩ => ?_⟩, by simp, ?_⟩
    · rw [h2 a b c d] at h; cases h
    · intro e' he'; cases he'; exact h3 e h

/-- C04: the same for `Plane(p, v)`. -/
theorem C04_plane_constructor (p v : List XReal) :
    ((∃ L, Plane.new p v = .ok L) ↔
      ValidArray p ∧ ValidArray v ∧ p.length = v.length ∧ NonZero v) ∧
    (∀ L, Plane.new p v = .ok L → L = ⟨p, v⟩) ∧
    (∀ e, Plane.new p v = .error e → ∃ msg, e = .valueError msg) := by
  obtain ⟨h1, h2, h3⟩ := newLinePlane_xreal p v
  unfold Plane.new
  cases h : newLinePlane p v with
  | ok r =>
    obtain ⟨a, b, c, d, e⟩ := h1 r h
    subst e
    simp [a, b, c, d]
  | error e =>
    refine ⟨⟨by simp, fun ⟨a, b, c, d⟩ => ?_⟩, by simp, ?_⟩
    · rw [h2 a b c d] at h; cases h
    · intro e' he'; cases he'; exact h3 e h

example : ∃ L, Line.new [fin 1, fin 2] [fin 0, fin 3] = .ok L :=
  (C04_line_constructor _ _).1.mpr ⟨⟨by simp, by simp [AllFinite]⟩, ⟨by simp, by simp [AllFinite]⟩, rfl,
    fin 3, by simp, by simp⟩
example : ¬ ∃ L, Plane.new [fin 1, fin 2] [fin 0, fin 0] = .ok L := by
  rw [(C04_plane_constructor _ _).1]; simp [NonZero]

/-! ## C05 -/

theorem le_zero_iff_not_positive {r : XReal} (h : r ≠ nan) :
    (r <=. (zero : XReal)) = true ↔ ¬ PositiveRadius r := by
  cases r with
  | fin r => simp [PositiveRadius]
  | posInf => simp [PositiveRadius]; rfl
  | negInf => simp [PositiveRadius]; rfl
  | nan => exact absurd rfl h

theorem nan_le_zero : (nan <=. (zero : XReal)) = false := by simp; rfl

theorem zero_lt_iff_positive (r : XReal) : ((zero : XReal) <. r) = true ↔ PositiveRadius r := by
  cases r with
  | fin r => simp [PositiveRadius]
  | posInf => simp [PositiveRadius]; rfl
  | negInf => simp [PositiveRadius]; rfl
  | nan => simp [PositiveRadius]; rfl

theorem newBaseSphere_xreal (p : List XReal) (r : XReal) :
    (∀ x, newBaseSphere p r = .ok x ↔ (ValidArray p ∧ (r <=. (zero : XReal)) = false ∧ x = (p, r))) ∧
    (∀ e, newBaseSphere p r = .error e → ∃ msg, e = .valueError msg) := by
  unfold newBaseSphere
  cases hr : (r <=. (zero : XReal))
  · simp only [Bool.false_eq_true, if_false]
    cases h : new1D p with
    | ok m =>
      obtain ⟨h1, h2, rfl⟩ := new1D_xreal_ok_iff.mp h
      simp [ValidArray, h1, h2, eq_comm]
    | error e =>
      have hv : ¬ ValidArray p := fun hv => by
        rw [new1D_xreal_ok_iff.mpr ⟨hv.1, hv.2, rfl⟩] at h; cases h
      simp only [error_bind]
      exact ⟨by simp [hv], fun e' he' => by cases he'; exact new1D_error h⟩
  · simp

/-- C05: `Circle(p, r)` with a radius that is not NaN. -/
theorem C05_circle_constructor (p : List XReal) (r : XReal) (hr : r ≠ nan) :
    ((∃ c, Circle.new p r = .ok c) ↔ p.length = 2 ∧ AllFinite p ∧ PositiveRadius r) ∧
    (∀ c, Circle.new p r = .ok c → c = ⟨p, r⟩) ∧
    (∀ e, Circle.new p r = .error e → ∃ msg, e = .valueError msg) := by
  obtain ⟨h1, h2⟩ := newBaseSphere_xreal p r
  have hneg : (r <=. (zero : XReal)) = false ↔ PositiveRadius r := by
    rw [← not_iff_not, ← le_zero_iff_not_positive hr]; simp
  unfold Circle.new
  cases h : newBaseSphere p r with
  | ok x =>
    obtain ⟨hv, hp, rfl⟩ := (h1 x).mp h
    rw [hneg] at hp
    by_cases hl : p.length = 2 <;> simp [hl, hv.2, hp]
  | error e =>
    have hn : ¬ (ValidArray p ∧ PositiveRadius r) := fun hc => by
      rw [(h1 (p, r)).mpr ⟨hc.1, hneg.mpr hc.2, rfl⟩] at h; cases h
    refine ⟨⟨by simp, fun ⟨a, b, c⟩ => ?_⟩, by simp, fun e' he' => by cases he'; exact h2 e h⟩
    exact absurd ⟨⟨by rintro rfl; simp at a, b⟩, c⟩ hn

/-- C05: `Sphere(p, r)` with a radius that is not NaN. -/
theorem C05_sphere_constructor (p : List XReal) (r : XReal) (hr : r ≠ nan) :
    ((∃ c, Sphere.new p r = .ok c) ↔ p.length = 3 ∧ AllFinite p ∧ PositiveRadius r) ∧
    (∀ c, Sphere.new p r = .ok c → c = ⟨p, r⟩) ∧
    (∀ e, Sphere.new p r = .error e → ∃ msg, e = .valueError msg) := by
  obtain ⟨h1, h2⟩ := newBaseSphere_xreal p r
  have hneg : (r <=. (zero : XReal)) = false ↔ PositiveRadius r := by
    rw [← not_iff_not, ← le_zero_iff_not_positive hr]; simp
  unfold Sphere.new
  cases h : newBaseSphere p r with
  | ok x =>
    obtain ⟨hv, hp, rfl⟩ := (h1 x).mp h
    rw [hneg] at hp
    by_cases hl : p.length = 3 <;> simp [hl, hv.2, hp]
  | error e =>
    have hn : ¬ (ValidArray p ∧ PositiveRadius r) := fun hc => by
      rw [(h1 (p, r)).mpr ⟨hc.1, hneg.mpr hc.2, rfl⟩] at h; cases h
    refine ⟨⟨by simp, fun ⟨a, b, c⟩ => ?_⟩, by simp, fun e' he' => by cases he'; exact h2 e h⟩
    exact absurd ⟨⟨by rintro rfl; simp at a, b⟩, c⟩ hn

/-- C05, defect: a NaN radius is *accepted* by `Circle` and `Sphere`. -/
theorem C05_nan_radius_accepted :
    (∀ p : List XReal, p.length = 2 → AllFinite p → Circle.new p nan = .ok ⟨p, nan⟩) ∧
    (∀ p : List XReal, p.length = 3 → AllFinite p → Sphere.new p nan = .ok ⟨p, nan⟩) := by
  constructor
  · intro p hl hf
    have hv : ValidArray p := ⟨by rintro rfl; simp at hl, hf⟩
    have := ((newBaseSphere_xreal p nan).1 (p, nan)).mpr ⟨hv, nan_le_zero, rfl⟩
    simp [Circle.new, this, hl]
  · intro p hl hf
    have hv : ValidArray p := ⟨by rintro rfl; simp at hl, hf⟩
    have := ((newBaseSphere_xreal p nan).1 (p, nan)).mpr ⟨hv, nan_le_zero, rfl⟩
    simp [Sphere.new, this, hl]

/-- C05: `Cylinder(p, v, r)`, for every radius: NaN is rejected here. -/
theorem C05_cylinder_constructor (p v : List XReal) (r : XReal) :
    ((∃ c, Cylinder.new p v r = .ok c) ↔
      p.length = 3 ∧ AllFinite p ∧ v.length = 3 ∧ AllFinite v ∧ NonZero v ∧ PositiveRadius r) ∧
    (∀ c, Cylinder.new p v r = .ok c → c = ⟨p, v, r⟩) ∧
    (∀ e, Cylinder.new p v r = .error e → ∃ msg, e = .valueError msg) := by
  unfold Cylinder.new
  cases hp : new1D p with
  | error e =>
    refine ⟨⟨by simp, fun ⟨a, b, _⟩ => ?_⟩, by simp, fun e' he' => by cases he'; exact new1D_error hp⟩
    rw [new1D_xreal_ok_iff.mpr ⟨by rintro rfl; simp at a, b, rfl⟩] at hp; cases hp
  | ok p' =>
  obtain ⟨hp1, hp2, rfl⟩ := new1D_xreal_ok_iff.mp hp
  cases hv : new1D v with
  | error e =>
    refine ⟨⟨by simp, fun ⟨_, _, a, b, _⟩ => ?_⟩, by simp, fun e' he' => by cases he'; exact new1D_error hv⟩
    rw [new1D_xreal_ok_iff.mpr ⟨by rintro rfl; simp at a, b, rfl⟩] at hv; cases hv
  | ok v' =>
  obtain ⟨hv1, hv2, rfl⟩ := new1D_xreal_ok_iff.mp hv
  obtain ⟨w, rfl⟩ := exists_map_fin hv2
  simp only [ok_bind]
  by_cases h1 : p'.length = 3
  swap
  · simp [h1]
  by_cases h2 : (w.map fin).length = 3
  swap
  · simp only [ne_eq, h1, h2]; simp
  have hz : NonZero (w.map fin) ↔ ¬ ∀ x ∈ w, x = 0 := by simp [NonZero]
  simp only [ne_eq, h1, h2, not_true_eq_false, if_false, xisZero_default, ok_bind]
  by_cases h0 : ∀ x ∈ w, x = 0
  · have hd : (decide (∀ x ∈ w, x = 0)) = true := decide_eq_true h0
    simp only [hz, hd]
    simp
    intro _ _ x hx hx0; exact absurd (h0 x hx) hx0
  have hr := zero_lt_iff_positive r
  cases hb : ((zero : XReal) <. r)
  · have : ¬ PositiveRadius r := by rw [← hr, hb]; simp
    simp only [h0]
    simp [this]
  · have : PositiveRadius r := by rw [← hr, hb]
    simp only [hz, h0]
    simp [this, hp2, hv2, eq_comm]

example : ∃ c, Circle.new [fin 1, fin 2] (fin 3) = .ok c :=
  (C05_circle_constructor _ _ (by simp)).1.mpr ⟨rfl, by simp [AllFinite], by norm_num [PositiveRadius]⟩
example : ∃ c, Cylinder.new [fin 1, fin 2, fin 0] [fin 0, fin 0, fin 1] (fin 3) = .ok c :=
  (C05_cylinder_constructor _ _ _).1.mpr
    ⟨rfl, by simp [AllFinite], rfl, by simp [AllFinite], ⟨fin 1, by simp, by simp⟩, by norm_num [PositiveRadius]⟩

end SkSpatial

import Verif.Spec.Repr
import Verif.Model.Repr
import Std.Data.String.ToInt
/-!
# C86: `repr`

The text of an object begins with its class and determines the texts of its parts.
-/

namespace SkSpatial
variable {K : Type}

theorem cut {α : Type} {c : α} : ∀ {a a' s s' : List α}, c ∉ a → c ∉ a' → a ++ c :: s = a' ++ c :: s' → a = a' ∧ s = s' := by
  intro a
  induction a with
  | nil =>
    intro a' s s' _ h' h
    cases a' with
    | nil => simpa using h
    | cons y ys => simp at h h'; exact absurd h.1 h'.1
  | cons x xs ih =>
    intro a' s s' h1 h' h
    cases a' with
    | nil => simp at h h1; exact absurd h.1.symm h1.1
    | cons y ys =>
      simp at h h1 h'
      obtain ⟨h2, h3⟩ := ih h1.2 h'.2 h.2
      exact ⟨by rw [h.1, h2], h3⟩

/-- An array text at the front of two equal texts can be read off. -/
theorem cut_array {S : Shown K} (hS : Readable S) {c : Cls} {p q : List (List K)} {s s' : List Char}
    (h : (S.array c p).toList ++ s = (S.array c q).toList ++ s') : S.array c p = S.array c q ∧ s = s' := by
  obtain ⟨b, hb, eb⟩ := hS.array c p
  obtain ⟨b', hb', eb'⟩ := hS.array c q
  rw [eb, eb'] at h
  simp only [List.append_assoc, List.cons_append, List.append_cancel_left_eq, List.cons.injEq, true_and,
    List.nil_append] at h
  obtain ⟨h1, h2⟩ := cut hb hb' h
  refine ⟨?_, h2⟩
  rw [← String.toList_inj, eb, eb', h1]

theorem cut_num {S : Shown K} (hS : Readable S) {p q : K}
    (h : (S.num p).toList ++ [')'] = (S.num q).toList ++ [')']) : S.num p = S.num q := by
  rw [← String.toList_inj]
  exact (cut (hS.num p) (hS.num q) h).1

section
variable (S : Shown K)
theorem repr_point (p : List K) : S.repr (.point p) = S.array .point [p] := rfl
theorem repr_vector (p : List K) : S.repr (.vector p) = S.array .vector [p] := rfl
theorem repr_points (p : List (List K)) : S.repr (.points p) = S.array .points p := rfl
theorem repr_line (l : Line K) : S.repr (.line l) =
    "Line" ++ "(point=" ++ S.array .point [l.point] ++ ", " ++ "direction" ++ "=" ++ S.array .vector [l.direction] ++ ")" := rfl
theorem repr_plane (l : Plane K) : S.repr (.plane l) =
    "Plane" ++ "(point=" ++ S.array .point [l.point] ++ ", " ++ "normal" ++ "=" ++ S.array .vector [l.normal] ++ ")" := rfl
theorem repr_circle (c : Circle K) : S.repr (.circle c) =
    "Circle" ++ "(point=" ++ S.array .point [c.point] ++ ", radius=" ++ S.num c.radius ++ ")" := rfl
theorem repr_sphere (c : Sphere K) : S.repr (.sphere c) =
    "Sphere" ++ "(point=" ++ S.array .point [c.point] ++ ", radius=" ++ S.num c.radius ++ ")" := rfl
theorem repr_cylinder (c : Cylinder K) : S.repr (.cylinder c) =
    "Cylinder(point=" ++ S.array .point [c.point] ++ ", vector=" ++ S.array .vector [c.vector] ++ ", radius=" ++
      S.num c.radius ++ ")" := rfl
theorem repr_triangle (t : Triangle K) : S.repr (.triangle t) =
    "Triangle(point_a=" ++ S.array .point [t.pointA] ++ ", point_b=" ++ S.array .point [t.pointB] ++ ", point_c=" ++
      S.array .point [t.pointC] ++ ")" := rfl
theorem repr_segment (t : LineSegment K) : S.repr (.segment t) =
    "LineSegment(point_a=" ++ S.array .point [t.pointA] ++ ", point_b=" ++ S.array .point [t.pointB] ++ ")" := rfl
end

theorem repr_head {S : Shown K} (hS : Readable S) (x : Obj K) :
    ∃ tail, (S.repr x).toList = x.className.toList ++ '(' :: tail := by
  have ha : ∀ c rows, ∃ tail, (S.array c rows).toList = c.name.toList ++ '(' :: tail := by
    intro c rows
    obtain ⟨b, -, eb⟩ := hS.array c rows
    exact ⟨_, eb⟩
  have hl : ∀ (a b c : String), (a ++ "(" ++ b ++ c).toList = a.toList ++ '(' :: (b.toList ++ c.toList) := by
    intro a b c
    rw [String.toList_append, String.toList_append, String.toList_append, show "(".toList = ['('] from rfl]
    simp only [List.append_assoc, List.cons_append, List.nil_append]
  have e0 : "(point=" = "(" ++ "point=" := by decide
  have e1 : "Cylinder(point=" = "Cylinder" ++ "(" ++ "point=" := by decide
  have e2 : "Triangle(point_a=" = "Triangle" ++ "(" ++ "point_a=" := by decide
  have e3 : "LineSegment(point_a=" = "LineSegment" ++ "(" ++ "point_a=" := by decide
  cases x with
  | point p =>
    rw [repr_point]
    have h := ha .point [p]
    simp only [Cls.name] at h
    exact h
  | vector p =>
    rw [repr_vector]
    have h := ha .vector [p]
    simp only [Cls.name] at h
    exact h
  | points p =>
    rw [repr_points]
    have h := ha .points p
    simp only [Cls.name] at h
    exact h
  | line l =>
    simp only [repr_line, Obj.className, e0, String.append_assoc]
    rw [← String.append_assoc, ← String.append_assoc, hl]
    exact ⟨_, rfl⟩
  | plane l =>
    simp only [repr_plane, Obj.className, e0, String.append_assoc]
    rw [← String.append_assoc, ← String.append_assoc, hl]
    exact ⟨_, rfl⟩
  | circle c =>
    simp only [repr_circle, Obj.className, e0, String.append_assoc]
    rw [← String.append_assoc, ← String.append_assoc, hl]
    exact ⟨_, rfl⟩
  | sphere c =>
    simp only [repr_sphere, Obj.className, e0, String.append_assoc]
    rw [← String.append_assoc, ← String.append_assoc, hl]
    exact ⟨_, rfl⟩
  | cylinder c =>
    simp only [repr_cylinder, Obj.className, e1, String.append_assoc]
    rw [← String.append_assoc, ← String.append_assoc, hl]
    exact ⟨_, rfl⟩
  | triangle c =>
    simp only [repr_triangle, Obj.className, e2, String.append_assoc]
    rw [← String.append_assoc, ← String.append_assoc, hl]
    exact ⟨_, rfl⟩
  | segment c =>
    simp only [repr_segment, Obj.className, e3, String.append_assoc]
    rw [← String.append_assoc, ← String.append_assoc, hl]
    exact ⟨_, rfl⟩

theorem sameClass_cases {P : Obj K → Obj K → Prop} {x y : Obj K} (hc : x.className = y.className)
    (h1 : ∀ p q, P (.point p) (.point q)) (h2 : ∀ p q, P (.vector p) (.vector q)) (h3 : ∀ p q, P (.points p) (.points q))
    (h4 : ∀ p q, P (.line p) (.line q)) (h5 : ∀ p q, P (.plane p) (.plane q)) (h6 : ∀ p q, P (.circle p) (.circle q))
    (h7 : ∀ p q, P (.sphere p) (.sphere q)) (h8 : ∀ p q, P (.cylinder p) (.cylinder q))
    (h9 : ∀ p q, P (.triangle p) (.triangle q)) (h10 : ∀ p q, P (.segment p) (.segment q)) : P x y := by
  cases x <;> cases y <;> first
    | exact h1 _ _ | exact h2 _ _ | exact h3 _ _ | exact h4 _ _ | exact h5 _ _ | exact h6 _ _ | exact h7 _ _
    | exact h8 _ _ | exact h9 _ _ | exact h10 _ _
    | exact absurd hc (by simp only [Obj.className]; decide)

/-- C86: the text of an object begins with the name of its class, followed by a parenthesis. -/
theorem C86_repr_begins_with_class {S : Shown K} (hS : Readable S) (x : Obj K) :
    (x.className ++ "(").toList <+: (S.repr x).toList := by
  obtain ⟨t, ht⟩ := repr_head hS x
  rw [ht]
  exact ⟨t, by rw [String.toList_append, List.append_assoc]; rfl⟩

/-- C86: two objects are printed alike exactly if they are of the same class and their parts are printed alike. -/
theorem C86_repr_unique {S : Shown K} (hS : Readable S) (x y : Obj K) : S.repr x = S.repr y ↔ SameText S x y := by
  constructor
  · intro h
    have hc : x.className.toList = y.className.toList := by
      obtain ⟨t, ht⟩ := repr_head hS x
      obtain ⟨t', ht'⟩ := repr_head hS y
      rw [← String.toList_inj, ht, ht'] at h
      refine (cut ?_ ?_ h).1
      · cases x <;> simp [Obj.className]
      · cases y <;> simp [Obj.className]
    have h' : (S.repr x).toList = (S.repr y).toList := by rw [h]
    rw [String.toList_inj] at hc
    revert h'
    refine sameClass_cases (P := fun x y => (S.repr x).toList = (S.repr y).toList → SameText S x y) hc
      ?_ ?_ ?_ ?_ ?_ ?_ ?_ ?_ ?_ ?_ <;> intro p q h' <;>
      simp only [repr_point, repr_vector, repr_points, repr_line, repr_plane, repr_circle, repr_sphere, repr_cylinder,
        repr_triangle, repr_segment, String.toList_append,
          List.append_assoc, List.append_cancel_left_eq] at h'
    · exact String.toList_inj.mp h'
    · exact String.toList_inj.mp h'
    · exact String.toList_inj.mp h'
    · obtain ⟨h1, h2⟩ := cut_array hS h'
      simp only [List.append_cancel_left_eq] at h2
      exact ⟨h1, (cut_array hS h2).1⟩
    · obtain ⟨h1, h2⟩ := cut_array hS h'
      simp only [List.append_cancel_left_eq] at h2
      exact ⟨h1, (cut_array hS h2).1⟩
    · obtain ⟨h1, h2⟩ := cut_array hS h'
      simp only [List.append_cancel_left_eq] at h2
      exact ⟨h1, cut_num hS h2⟩
    · obtain ⟨h1, h2⟩ := cut_array hS h'
      simp only [List.append_cancel_left_eq] at h2
      exact ⟨h1, cut_num hS h2⟩
    · obtain ⟨h1, h2⟩ := cut_array hS h'
      simp only [List.append_cancel_left_eq] at h2
      obtain ⟨h3, h4⟩ := cut_array hS h2
      simp only [List.append_cancel_left_eq] at h4
      exact ⟨h1, h3, cut_num hS h4⟩
    · obtain ⟨h1, h2⟩ := cut_array hS h'
      simp only [List.append_cancel_left_eq] at h2
      obtain ⟨h3, h4⟩ := cut_array hS h2
      simp only [List.append_cancel_left_eq] at h4
      exact ⟨h1, h3, (cut_array hS h4).1⟩
    · obtain ⟨h1, h2⟩ := cut_array hS h'
      simp only [List.append_cancel_left_eq] at h2
      exact ⟨h1, (cut_array hS h2).1⟩
  · intro h
    cases x <;> cases y <;> simp only [SameText] at h <;>
      simp only [repr_point, repr_vector, repr_points, repr_line, repr_plane, repr_circle, repr_sphere, repr_cylinder,
        repr_triangle, repr_segment, h]

/-- C86: so if arrays of a class and numbers are printed differently whenever they differ, objects are too. -/
theorem C86_repr_injective {S : Shown K} (hS : Readable S) 
    (hp : ∀ c, c ≠ .points → ∀ p q, S.array c [p] = S.array c [q] → p = q)
    (hps : ∀ p q, S.array .points p = S.array .points q → p = q) (hn : ∀ r s, S.num r = S.num s → r = s) (x y : Obj K) : S.repr x = S.repr y ↔ x = y := by
  rw [C86_repr_unique hS]
  constructor
  · intro h
    have h1 := hp .point (by decide)
    have h2 := hp .vector (by decide)
    cases x <;> cases y <;> simp only [SameText] at h
    · rw [h1 _ _ h]
    · rw [h2 _ _ h]
    · rw [hps _ _ h]
    · rename_i l m; cases l; cases m
      simp only at h; rw [h1 _ _ h.1, h2 _ _ h.2]
    · rename_i l m; cases l; cases m
      simp only at h; rw [h1 _ _ h.1, h2 _ _ h.2]
    · rename_i l m; cases l; cases m
      simp only at h; rw [h1 _ _ h.1, hn _ _ h.2]
    · rename_i l m; cases l; cases m
      simp only at h; rw [h1 _ _ h.1, hn _ _ h.2]
    · rename_i l m; cases l; cases m
      simp only at h; rw [h1 _ _ h.1, h2 _ _ h.2.1, hn _ _ h.2.2]
    · rename_i l m; cases l; cases m
      simp only at h; rw [h1 _ _ h.1, h1 _ _ h.2.1, h1 _ _ h.2.2]
    · rename_i l m; cases l; cases m
      simp only at h; rw [h1 _ _ h.1, h1 _ _ h.2]
  · rintro rfl
    cases x <;> simp [SameText]

/-! ### NumPy's format for integer arrays -/

/-- The characters of a printed integer. -/
def IntText (l : List Char) : Prop := l ≠ [] ∧ ∀ c ∈ l, c.isDigit ∨ c = '-'

theorem intText_repr (i : Int) : IntText (toString i).toList := by
  have hnat : ∀ n : Nat, IntText (Nat.repr n).toList := by
    intro n
    rw [Nat.toList_repr]
    exact ⟨Nat.toDigits_ne_nil, fun c hc => .inl (Nat.isDigit_of_mem_toDigits (by decide) (by decide) hc)⟩
  show IntText (Int.repr i).toList
  cases i with
  | ofNat n => exact hnat n
  | negSucc n =>
    show IntText ("-" ++ Nat.repr (n + 1)).toList
    rw [String.toList_append, show "-".toList = ['-'] from rfl]
    refine ⟨by simp, fun c hc => ?_⟩
    rcases List.mem_append.mp hc with h | h
    · right; simpa using h
    · exact (hnat (n + 1)).2 c h

theorem IntText.notMem {l : List Char} (h : IntText l) {c : Char} (h1 : c.isDigit = false) (h2 : c ≠ '-') : c ∉ l := by
  intro hc
  rcases h.2 c hc with h3 | h3
  · rw [h1] at h3; cases h3
  · exact h2 h3

/-- A padded integer: `k` spaces, then the integer. -/
theorem padLeft_toList (w : Nat) (s : String) : (padLeft w s).toList = List.replicate (w - s.length) ' ' ++ s.toList := by
  rw [padLeft, String.toList_append, String.toList_ofList]

theorem strip {k k' : Nat} {a a' : List Char} (ha : IntText a) (ha' : IntText a')
    (h : List.replicate k ' ' ++ a = List.replicate k' ' ' ++ a') : a = a' := by
  have key : ∀ (k : Nat) (a : List Char), IntText a → (List.replicate k ' ' ++ a).dropWhile (· == ' ') = a := by
    intro k a ha
    induction k with
    | zero =>
      obtain ⟨h1, h2⟩ := ha
      cases a with
      | nil => exact absurd rfl h1
      | cons x xs =>
        have : (x == ' ') = false := by
          rcases h2 x (by simp) with h | h
          · cases hx : (x == ' ')
            · rfl
            · rw [beq_iff_eq] at hx; subst hx; simp at h
          · subst h; rfl
        simp [List.dropWhile, this]
    | succ k ih => simpa [List.replicate_succ, List.dropWhile] using ih
  rw [← key k a ha, h, key k' a' ha']

theorem pad_notMem (w : Nat) (i : Int) {c : Char} (h1 : c.isDigit = false) (h2 : c ≠ '-') (h3 : c ≠ ' ') :
    c ∉ (padLeft w (toString i)).toList := by
  rw [padLeft_toList]
  intro hc
  rcases List.mem_append.mp hc with h | h
  · exact h3 (List.eq_of_mem_replicate h)
  · exact (intText_repr i).notMem h1 h2 h

theorem pad_ne_nil (w : Nat) (i : Int) : (padLeft w (toString i)).toList ≠ [] := by
  rw [padLeft_toList]
  intro h
  exact (intText_repr i).1 (List.append_eq_nil_iff.mp h).2

theorem pad_inj {w w' : Nat} {i j : Int} (h : (padLeft w (toString i)).toList = (padLeft w' (toString j)).toList) : i = j := by
  rw [padLeft_toList, padLeft_toList] at h
  have := strip (intText_repr i) (intText_repr j) h
  rw [String.toList_inj] at this
  exact Int.repr_injective this

theorem cut2 {α : Type} {c d : α} : ∀ {a a' s s' : List α}, c ∉ a' → d ∉ a → a ++ c :: s = a' ++ d :: s' →
    a = a' ∧ c = d ∧ s = s' := by
  intro a
  induction a with
  | nil =>
    intro a' s s' h' _ h
    cases a' with
    | nil => simpa using h
    | cons y ys => simp at h h'; exact absurd h.1 h'.1
  | cons x xs ih =>
    intro a' s s' h1 h' h
    cases a' with
    | nil => simp at h h'; exact absurd h.1.symm h'.1
    | cons y ys =>
      simp at h h1 h'
      obtain ⟨h2, h3⟩ := ih h1.2 h'.2 h.2
      exact ⟨by rw [h.1, h2], h3⟩

theorem row_inj {w w' : Nat} : ∀ {r r' : List Int} {s s' : List Char},
    (joinText ", " (r.map fun i => padLeft w (toString i))).toList ++ ']' :: s =
      (joinText ", " (r'.map fun i => padLeft w' (toString i))).toList ++ ']' :: s' → r = r' ∧ s = s' := by
  have nb : ∀ w i, ']' ∉ (padLeft w (toString (i : Int))).toList := fun w i => pad_notMem w i (by decide) (by decide) (by decide)
  have nc : ∀ w i, ',' ∉ (padLeft w (toString (i : Int))).toList := fun w i => pad_notMem w i (by decide) (by decide) (by decide)
  have e0 : ", ".toList = [',', ' '] := rfl
  have e1 : "".toList = [] := rfl
  have first : ∀ (w : Nat) (i : Int) (t s : List Char), ']' :: s ≠ (padLeft w (toString i)).toList ++ t := by
    intro w i t s h
    have h1 := nb w i
    have h2 := pad_ne_nil w i
    cases hl : (padLeft w (toString i)).toList with
    | nil => exact h2 hl
    | cons x xs =>
      rw [hl] at h h1
      simp at h h1
      exact h1.1 h.1
  intro r
  induction r with
  | nil =>
    intro r' s s' h
    rcases r' with _ | ⟨y, _ | ⟨y', ys⟩⟩
    · simpa [joinText] using h
    · simp only [List.map_nil, List.map_cons, joinText, e1, List.nil_append] at h
      exact absurd h (first _ _ _ _)
    · simp only [List.map_nil, List.map_cons, joinText, e1, List.nil_append, String.toList_append, List.append_assoc] at h
      exact absurd h (first _ _ _ _)
  | cons x xs ih =>
    intro r' s s' h
    rcases xs with _ | ⟨x', xs⟩
    · rcases r' with _ | ⟨y, _ | ⟨y', ys⟩⟩
      · simp only [List.map_nil, List.map_cons, joinText, e1, List.nil_append] at h
        exact absurd h.symm (first _ _ _ _)
      · simp only [List.map_nil, List.map_cons, joinText] at h
        obtain ⟨h1, -, h2⟩ := cut2 (nb _ _) (nb _ _) h
        exact ⟨by rw [pad_inj h1], h2⟩
      · simp only [List.map_nil, List.map_cons, joinText, String.toList_append, e0, List.append_assoc, List.cons_append,
          List.nil_append] at h
        exact absurd (cut2 (nb _ _) (nc _ _) h).2.1 (by decide)
    · rcases r' with _ | ⟨y, _ | ⟨y', ys⟩⟩
      · simp only [List.map_nil, List.map_cons, joinText, e1, List.nil_append, String.toList_append, List.append_assoc] at h
        exact absurd h.symm (first _ _ _ _)
      · simp only [List.map_nil, List.map_cons, joinText, String.toList_append, e0, List.append_assoc, List.cons_append,
          List.nil_append] at h
        exact absurd (cut2 (nc _ _) (nb _ _) h).2.1 (by decide)
      · simp only [List.map_cons, joinText, String.toList_append, e0, List.append_assoc, List.cons_append,
          List.nil_append] at h
        obtain ⟨h1, -, h2⟩ := cut2 (nc _ _) (nc _ _) h
        simp only [List.cons.injEq, true_and] at h2
        have h3 := ih (r' := y' :: ys) (s := s) (s' := s') (by simpa only [List.map_cons] using h2)
        exact ⟨by rw [pad_inj h1, h3.1], h3.2⟩

theorem rowText_toList (w : Nat) (r : List Int) (s : List Char) : (rowText w r).toList ++ s =
    '[' :: ((joinText ", " (r.map fun i => padLeft w (toString i))).toList ++ ']' :: s) := by
  rw [rowText, String.toList_append, String.toList_append, show "[".toList = ['['] from rfl,
    show "]".toList = [']'] from rfl]
  simp only [List.append_assoc, List.cons_append, List.nil_append]

theorem rows_inj {w w' : Nat} {sep : String} {t : List Char} (hsep : sep.toList = ',' :: t) :
    ∀ {R R' : List (List Int)} {s s' : List Char},
    (joinText sep (R.map (rowText w))).toList ++ ']' :: s = (joinText sep (R'.map (rowText w'))).toList ++ ']' :: s' →
      R = R' := by
  have e1 : "".toList = [] := rfl
  intro R
  induction R with
  | nil =>
    intro R' s s' h
    rcases R' with _ | ⟨y, _ | ⟨y', ys⟩⟩
    · rfl
    · simp only [List.map_nil, List.map_cons, joinText, e1, List.nil_append, rowText_toList] at h
      simp at h
    · simp only [List.map_nil, List.map_cons, joinText, e1, List.nil_append, String.toList_append, List.append_assoc,
        rowText_toList] at h
      simp at h
  | cons x xs ih =>
    intro R' s s' h
    rcases xs with _ | ⟨x', xs⟩
    · rcases R' with _ | ⟨y, _ | ⟨y', ys⟩⟩
      · simp only [List.map_nil, List.map_cons, joinText, e1, List.nil_append, rowText_toList] at h
        simp at h
      · simp only [List.map_nil, List.map_cons, joinText, rowText_toList, List.cons.injEq, true_and] at h
        rw [(row_inj h).1]
      · simp only [List.map_nil, List.map_cons, joinText, String.toList_append, List.append_assoc,
          rowText_toList, List.cons.injEq, true_and, hsep, List.cons_append] at h
        have := (row_inj h).2
        simp at this
    · rcases R' with _ | ⟨y, _ | ⟨y', ys⟩⟩
      · simp only [List.map_nil, List.map_cons, joinText, e1, List.nil_append, String.toList_append, List.append_assoc,
          rowText_toList] at h
        simp at h
      · simp only [List.map_nil, List.map_cons, joinText, String.toList_append, List.append_assoc,
          rowText_toList, List.cons.injEq, true_and, hsep, List.cons_append] at h
        have := (row_inj h).2
        simp at this
      · simp only [List.map_cons, joinText, String.toList_append, List.append_assoc,
          rowText_toList, List.cons.injEq, true_and, hsep, List.cons_append] at h
        obtain ⟨h1, h2⟩ := row_inj h
        simp only [List.cons.injEq, true_and, List.append_cancel_left_eq] at h2
        have h3 := ih (R' := y' :: ys) (s := s) (s' := s') (by simpa only [List.map_cons] using h2)
        rw [h1, h3]

theorem join_notMem {c : Char} {sep : String} (hs : c ∉ sep.toList) : ∀ {l : List String}, (∀ x ∈ l, c ∉ x.toList) →
    c ∉ (joinText sep l).toList
  | [], _ => by simp [joinText]
  | [x], h => h x (by simp)
  | x :: y :: r, h => by
    rw [joinText, String.toList_append, String.toList_append]
    intro hc
    rcases List.mem_append.mp hc with h1 | h1
    · rcases List.mem_append.mp h1 with h2 | h2
      · exact h x (by simp) h2
      · exact hs h2
    · exact join_notMem hs (fun z hz => h z (List.mem_cons_of_mem x hz)) h1

theorem rowText_notMem (w : Nat) (r : List Int) : ')' ∉ (rowText w r).toList := by
  have h := rowText_toList w r []
  rw [List.append_nil] at h
  rw [h]
  have hj : ')' ∉ (joinText ", " (r.map fun i => padLeft w (toString i))).toList := by
    apply join_notMem (by decide)
    intro x hx
    obtain ⟨i, -, rfl⟩ := List.mem_map.mp hx
    exact pad_notMem w i (by decide) (by decide) (by decide)
  simpa using hj

/-- NumPy's format of integer arrays is readable. -/
theorem npShow_readable : Readable npShow where
  num := fun r => (intText_repr r).notMem (by decide) (by decide)
  array := fun c rows => by
    have single : ∀ (n : String) (r : List Int) (w : Nat), ∃ body : List Char, ')' ∉ body ∧
        (n ++ "(" ++ rowText w r ++ ")").toList = n.toList ++ '(' :: (body ++ [')']) := by
      intro n r w
      refine ⟨(rowText w r).toList, rowText_notMem w r, ?_⟩
      rw [String.toList_append, String.toList_append, String.toList_append, show "(".toList = ['('] from rfl,
        show ")".toList = [')'] from rfl]
      simp only [List.append_assoc, List.cons_append, List.nil_append]
    have empty : ∀ n : String, ∃ body : List Char, ')' ∉ body ∧
        (n ++ "([])").toList = n.toList ++ '(' :: (body ++ [')']) := by
      intro n
      refine ⟨['[', ']'], by decide, ?_⟩
      rw [String.toList_append]
      rfl
    cases c with
    | points =>
      refine ⟨'[' :: ((joinText (",\n" ++ String.ofList (List.replicate (Cls.points.name.length + 2) ' '))
        (rows.map (rowText (entryWidth rows)))).toList ++ [']']), ?_, ?_⟩
      · have hj : ')' ∉ (joinText (",\n" ++ String.ofList (List.replicate (Cls.points.name.length + 2) ' '))
            (rows.map (rowText (entryWidth rows)))).toList := by
          apply join_notMem
          · rw [String.toList_append]
            intro hc
            rcases List.mem_append.mp hc with h | h
            · revert h; decide
            · rw [String.toList_ofList] at h
              exact absurd (List.eq_of_mem_replicate h) (by decide)
          · intro x hx
            obtain ⟨i, -, rfl⟩ := List.mem_map.mp hx
            exact rowText_notMem _ i
        intro hc
        simp only [List.mem_cons, List.mem_append, List.not_mem_nil, or_false] at hc
        rcases hc with h | h | h
        · exact absurd h (by decide)
        · exact hj h
        · exact absurd h (by decide)
      · show (Cls.points.name ++ "([" ++ joinText (",\n" ++ String.ofList (List.replicate (Cls.points.name.length + 2) ' '))
          (rows.map (rowText (entryWidth rows))) ++ "])").toList = _
        rw [String.toList_append, String.toList_append, String.toList_append, show "([".toList = ['(', '['] from rfl,
          show "])".toList = [']', ')'] from rfl]
        simp only [List.append_assoc, List.cons_append, List.nil_append]
    | point =>
      cases rows with
      | nil => exact empty _
      | cons r rs => exact single _ r _
    | vector =>
      cases rows with
      | nil => exact empty _
      | cons r rs => exact single _ r _

theorem npShow_single {c : Cls} (hc : c ≠ .points) (p : List Int) :
    npShow.array c [p] = c.name ++ "(" ++ rowText (entryWidth [p]) p ++ ")" := by
  cases c with
  | points => exact absurd rfl hc
  | point => rfl
  | vector => rfl

theorem npShow_inj {c : Cls} (hc : c ≠ .points) (p q : List Int) (h : npShow.array c [p] = npShow.array c [q]) : p = q := by
  rw [npShow_single hc, npShow_single hc, ← String.toList_inj] at h
  simp only [String.toList_append, List.append_assoc, List.append_cancel_left_eq, rowText_toList, List.cons.injEq,
    true_and] at h
  exact (row_inj h).1

theorem npShow_points_inj (p q : List (List Int)) (h : npShow.array .points p = npShow.array .points q) : p = q := by
  have e : ∀ p : List (List Int), npShow.array .points p = Cls.points.name ++ "([" ++
      joinText (",\n" ++ String.ofList (List.replicate (Cls.points.name.length + 2) ' '))
        (p.map (rowText (entryWidth p))) ++ "])" := fun p => rfl
  rw [e, e, ← String.toList_inj] at h
  simp only [String.toList_append, List.append_assoc, List.append_cancel_left_eq] at h
  have e2 : "])".toList = [']', ')'] := rfl
  rw [e2] at h
  exact rows_inj (t := '\n' :: List.replicate (Cls.points.name.length + 2) ' ') (by
    rw [String.toList_append, String.toList_ofList]; rfl) h

/-- C86: with NumPy's format, integer objects are printed alike only if they are equal. -/
theorem C86_repr_integers (x y : Obj Int) : npShow.repr x = npShow.repr y ↔ x = y :=
  C86_repr_injective npShow_readable (fun _ hc p q h => npShow_inj hc p q h) npShow_points_inj
    (fun _ _ h => Int.repr_injective h) x y

end SkSpatial

import Verif.Spec.Heap
import Verif.Lemmas.Bridge
/-! # The memory invariant of reachable states -/

namespace SkSpatial
namespace Mem
variable {K : Type} [PyNum K]

/-- A view is well-formed in a memory: distinct positions inside its buffer, which an earlier operation allocated. -/
def OK (mem : Addr → List K) (n : Nat) (v : View) : Prop :=
  v.idx.Nodup ∧ (∀ p ∈ v.idx, p < (mem v.buf).length) ∧ v.buf.1 < n

/-- The invariant relating a state to the regions computed from the history. -/
structure Inv (s : State K) (rs : List (List Addr)) : Prop where
  len : s.objs.length = rs.length
  bufs : ∀ (j : Nat) (vs : List View), s.objs[j]? = some (Except.ok vs) → rs[j]? = some (vs.map View.buf)
  wf : ∀ (j : Nat) (vs : List View), s.objs[j]? = some (Except.ok vs) → ∀ v ∈ vs, OK s.mem s.objs.length v

theorem Inv.view {s : State K} {rs} (hI : Inv s rs) {j : Nat} {v : View} (h : s.view j = .ok v) :
    rs[j]? = some [v.buf] ∧ OK s.mem s.objs.length v := by
  unfold State.view at h
  split at h
  · rename_i w heq
    cases h
    exact ⟨hI.bufs _ _ heq, hI.wf _ _ heq _ (by simp)⟩
  · cases h

theorem setBuf_ne {mem : Addr → List K} {a b : Addr} (vals : List K) (h : b ≠ a) : setBuf mem a vals b = mem b := by
  simp [setBuf, h]

theorem setBuf_eq (mem : Addr → List K) (a : Addr) (vals : List K) : setBuf mem a vals a = vals := by
  simp [setBuf]

theorem write1_ne {mem : Addr → List K} {v : View} {b : Addr} (i : Nat) (x : K) (h : b ≠ v.buf) :
    write1 mem v i x b = mem b := by
  unfold write1
  rcases v.idx[i]? with _ | p
  · rfl
  · exact setBuf_ne _ h

theorem write1_len (mem : Addr → List K) (v : View) (b : Addr) (i : Nat) (x : K) :
    (write1 mem v i x b).length = (mem b).length := by
  unfold write1
  rcases v.idx[i]? with _ | p
  · rfl
  · by_cases h : b = v.buf
    · subst h; simp [setBuf_eq]
    · simp [setBuf_ne _ h]

theorem writeFrom_ne {v : View} {b : Addr} (vals : List K) (h : b ≠ v.buf) :
    ∀ (mem : Addr → List K) (i : Nat), writeFrom mem v i vals b = mem b := by
  induction vals with
  | nil => intros; rfl
  | cons x xs ih => intro mem i; rw [writeFrom, ih, write1_ne _ _ h]

theorem writeFrom_len {v : View} (b : Addr) (vals : List K) :
    ∀ (mem : Addr → List K) (i : Nat), (writeFrom mem v i vals b).length = (mem b).length := by
  induction vals with
  | nil => intros; rfl
  | cons x xs ih => intro mem i; rw [writeFrom, ih, write1_len]

theorem fresh_ok (mem : Addr → List K) (n i : Nat) (shape : List Nat) (vals : List K) :
    OK (setBuf mem (n, i) vals) (n + 1) (fresh (n, i) shape vals.length) := by
  refine ⟨List.nodup_range, ?_, Nat.lt_succ_self n⟩
  intro p hp
  simp only [fresh, setBuf_eq]
  simpa [fresh] using hp

theorem OK.mono {mem mem' : Addr → List K} {n m : Nat} {v : View} (h : OK mem n v) (hnm : n ≤ m)
    (hl : ∀ b : Addr, b.1 < n → (mem' b).length = (mem b).length) : OK mem' m v :=
  ⟨h.1, fun p hp => by rw [hl _ h.2.2]; exact h.2.1 p hp, lt_of_lt_of_le h.2.2 hnm⟩

/-- What an operation may do: the facts (a)-(d). -/
structure Eff (s : State K) (rs : List (List Addr)) (op : Op K) (m : Addr → List K) (vs : List View) : Prop where
  frame : ∀ b : Addr, b.1 < s.objs.length → (∀ t v, target op = some t → s.view t = .ok v → v.buf ≠ b) → m b = s.mem b
  len : ∀ b : Addr, b.1 < s.objs.length → (m b).length = (s.mem b).length
  buf : vs.map View.buf = opRegions rs op
  ok : ∀ v ∈ vs, OK m (s.objs.length + 1) v

theorem ne_of_lt {n i : Nat} {b : Addr} (h : b.1 < n) : b ≠ (n, i) := by
  rintro rfl; exact lt_irrefl _ h

theorem new1D_eff {s : State K} {rs} (hI : Inv s rs) {n : Nat} (hn : n = s.objs.length) (i : Nat) {mem : Addr → List K}
    (hmem : ∀ b : Addr, b.1 < n → mem b = s.mem b) {x : Src K}
    {m : Addr → List K} {v : View} (h : State.new1D { s with mem := mem } (n, i) x = .ok (m, v)) :
    (∀ b : Addr, b ≠ (n, i) → m b = mem b) ∧ v.buf = srcRegion rs (n, i) x ∧ OK m (n + 1) v := by
  simp only [State.new1D, bind_ok_iff] at h
  obtain ⟨c, -, d, -, h⟩ := h
  cases x with
  | list vals =>
    simp only [State.asarray, Except.ok.injEq, Prod.mk.injEq] at h
    obtain ⟨rfl, rfl⟩ := h
    exact ⟨fun b hb => setBuf_ne _ hb, rfl, fresh_ok _ _ _ _ _⟩
  | rows shape vals =>
    simp only [State.asarray, Except.ok.injEq, Prod.mk.injEq] at h
    obtain ⟨rfl, rfl⟩ := h
    exact ⟨fun b hb => setBuf_ne _ hb, rfl, fresh_ok _ _ _ _ _⟩
  | obj j =>
    simp only [State.asarray, bind_ok_iff, pure_ok, Except.ok.injEq, Prod.mk.injEq] at h
    obtain ⟨w, hw, rfl, rfl⟩ := h
    obtain ⟨h1, h2⟩ := hI.view (v := w) hw
    refine ⟨fun b _ => rfl, ?_, ?_⟩
    · simp [srcRegion, List.getD, h1]
    · rw [hn] at hmem ⊢
      exact h2.mono (Nat.le_succ _) (fun b hb => by rw [hmem b hb])

theorem newList_eff {s : State K} {rs} (hI : Inv s rs) {n : Nat} (hn : n = s.objs.length) (xs : List (Src K)) :
    ∀ (i : Nat) (mem : Addr → List K), (∀ b : Addr, b.1 < n → mem b = s.mem b) →
    ∀ (m : Addr → List K) (vs : List View), State.newList { s with mem := mem } n i xs = .ok (m, vs) →
      (∀ b : Addr, (b.1 < n ∨ b.2 < i) → m b = mem b) ∧
      vs.map View.buf = (xs.mapIdx fun k x => srcRegion rs (n, i + k) x) ∧ ∀ v ∈ vs, OK m (n + 1) v := by
  induction xs with
  | nil =>
    intro i mem hmem m vs h
    simp only [State.newList, Except.ok.injEq, Prod.mk.injEq] at h
    obtain ⟨rfl, rfl⟩ := h
    simp
  | cons x xs ih =>
    intro i mem hmem m vs h
    simp only [State.newList, bind_ok_iff] at h
    obtain ⟨⟨m1, v⟩, h1, ⟨m2, ws⟩, h2, h3⟩ := h
    simp only [pure_ok, Except.ok.injEq, Prod.mk.injEq] at h3
    obtain ⟨rfl, rfl⟩ := h3
    obtain ⟨a1, a2, a3⟩ := new1D_eff hI hn i hmem h1
    have hm1 : ∀ b : Addr, b.1 < n → m1 b = s.mem b := fun b hb => by rw [a1 b (ne_of_lt hb), hmem b hb]
    obtain ⟨b1, b2, b3⟩ := ih (i + 1) m1 hm1 m2 ws h2
    refine ⟨?_, ?_, ?_⟩
    · intro b hb
      have hne : b ≠ (n, i) := by rintro rfl; simp at hb
      rw [b1 b (by rcases hb with hb | hb; exact Or.inl hb; exact Or.inr (Nat.lt_succ_of_lt hb)), a1 b hne]
    · rw [List.map_cons, List.mapIdx_cons, a2, b2]
      congr 1
      congr 1
      funext k y
      rw [show i + 1 + k = i + (k + 1) by omega]
    · intro w hw
      rcases List.mem_cons.mp hw with rfl | hw
      · refine ⟨a3.1, ?_, a3.2.2⟩
        intro p hp
        have hb : w.buf.1 < n ∨ w.buf.2 < i + 1 := by
          rw [a2]
          cases x with
          | list vals => right; simp [srcRegion]
          | rows shape vals => right; simp [srcRegion]
          | obj j =>
            have hw' : ∃ v, State.view s j = .ok v ∧ v = w := by
              simp only [State.new1D, bind_ok_iff, State.asarray, pure_ok, Except.ok.injEq, Prod.mk.injEq] at h1
              obtain ⟨-, -, -, -, v, hv, -, rfl⟩ := h1
              exact ⟨v, hv, rfl⟩
            obtain ⟨v, hv, rfl⟩ := hw'
            left
            rw [← a2, hn]
            exact (hI.view hv).2.2.2
        rw [b1 _ hb]
        exact a3.2.1 p hp
      · exact b3 w hw


/-- Reading an array just after writing all its entries. -/
theorem read_writeFrom {v : View} (vals : List K) :
    ∀ (mem : Addr → List K) (i : Nat), v.idx.Nodup → (∀ p ∈ v.idx, p < (mem v.buf).length) →
      i + vals.length = v.idx.length →
      ∀ k p, v.idx[k]? = some p →
        (writeFrom mem v i vals v.buf)[p]? = if k < i then (mem v.buf)[p]? else vals[k - i]? := by
  induction vals with
  | nil =>
    intro mem i hn hb hl k p hk
    have : k < v.idx.length := (List.getElem?_eq_some_iff.mp hk).1
    have hl' : i = v.idx.length := by simpa using hl
    rw [if_pos (by omega)]
    rfl
  | cons x xs ih =>
    intro mem i hn hb hl k p hk
    rw [List.length_cons] at hl
    rw [writeFrom, ih (write1 mem v i x) (i + 1) hn (fun q hq => by rw [write1_len]; exact hb q hq) (by omega) k p hk]
    have hi : i < v.idx.length := by omega
    have hkl : k < v.idx.length := (List.getElem?_eq_some_iff.mp hk).1
    have hkp : v.idx[k] = p := (List.getElem?_eq_some_iff.mp hk).2
    have hw : write1 mem v i x v.buf = (mem v.buf).set v.idx[i] x := by
      unfold write1; rw [List.getElem?_eq_getElem hi]; simp [setBuf_eq]
    rw [hw, List.getElem?_set]
    rcases lt_trichotomy k i with hki | rfl | hki
    · have hne : v.idx[i] ≠ p := by
        rw [← hkp]; intro h
        exact absurd ((List.Nodup.getElem_inj_iff hn).mp h) (by omega)
      rw [if_pos (by omega), if_pos hki, if_neg hne]
    · rw [if_pos (by omega), if_neg (lt_irrefl _), if_pos hkp, if_pos (hb _ (hkp ▸ List.getElem_mem hkl))]
      simp
    · rw [if_neg (by omega), if_neg (by omega)]
      rw [show k - i = (k - (i + 1)) + 1 by omega, List.getElem?_cons_succ]

theorem read_writeAll {mem : Addr → List K} {n : Nat} {v : View} (h : OK mem n v) {vals : List K}
    (hl : vals.length = v.idx.length) (objs) : State.read ⟨writeAll mem v vals, objs⟩ v = vals := by
  unfold State.read writeAll
  apply List.ext_getElem?
  intro k
  rw [List.getElem?_map]
  rcases hk : v.idx[k]? with _ | p
  · rw [Option.map_none]
    rw [List.getElem?_eq_none_iff] at hk
    exact (List.getElem?_eq_none_iff.mpr (hl ▸ hk)).symm
  · have hkl : k < vals.length := hl ▸ (List.getElem?_eq_some_iff.mp hk).1
    rw [Option.map_some, List.getD, read_writeFrom vals mem 0 h.1 h.2.1 (by omega) k p hk, if_neg (by omega)]
    simp [List.getElem?_eq_getElem hkl]

theorem read_fresh (mem : Addr → List K) (a : Addr) (shape : List Nat) (vals : List K) (objs) :
    State.read ⟨setBuf mem a vals, objs⟩ (fresh a shape vals.length) = vals := by
  unfold State.read fresh
  simp only [setBuf_eq]
  apply List.ext_getElem?
  intro k
  by_cases hk : k < vals.length
  · simp [hk, List.getD]
  · simp [hk]

theorem read_congr {s s' : State K} {v : View} (h : s'.mem v.buf = s.mem v.buf) : s'.read v = s.read v := by
  unfold State.read; rw [h]

theorem eff_alloc {s : State K} {rs : List (List Addr)} (hI : Inv s rs) {op : Op K} (shape : List Nat) (vals : List K)
    (hop : opRegions rs op = [(rs.length, 0)]) :
    Eff s rs op (setBuf s.mem (s.objs.length, 0) vals) [fresh (s.objs.length, 0) shape vals.length] where
  frame b hb _ := setBuf_ne _ (ne_of_lt hb)
  len b hb := by rw [setBuf_ne _ (ne_of_lt hb)]
  buf := by rw [hop, ← hI.len]; rfl
  ok v hv := by
    rw [List.mem_singleton] at hv; subst hv
    exact fresh_ok _ _ _ _ _

theorem eff_view {s : State K} {rs : List (List Addr)} (hI : Inv s rs) {op : Op K} {j : Nat} {v w : View}
    (hj : s.view j = .ok v) (hop : opRegions rs op = [(rs.getD j []).headD (rs.length, 0)])
    (hw : w.buf = v.buf) (hs : w.idx.Sublist v.idx) : Eff s rs op s.mem [w] where
  frame _ _ _ := rfl
  len _ _ := rfl
  buf := by
    rw [hop]; simp [List.getD, (hI.view hj).1, hw]
  ok u hu := by
    rw [List.mem_singleton] at hu; subst hu
    obtain ⟨h1, h2, h3⟩ := (hI.view hj).2
    refine ⟨h1.sublist hs, fun p hp => ?_, ?_⟩
    · rw [hw]; exact h2 p (hs.subset hp)
    · rw [hw]; exact Nat.lt_succ_of_lt h3

theorem eff_write {s : State K} {rs : List (List Addr)} {op : Op K} {j : Nat} {v : View} {m : Addr → List K}
    {vs : List View} (hj : s.view j = .ok v) (ht : target op = some j)
    (hm : ∀ b, b.1 < s.objs.length → b ≠ v.buf → m b = s.mem b)
    (hl : ∀ b : Addr, b.1 < s.objs.length → (m b).length = (s.mem b).length)
    (hb : vs.map View.buf = opRegions rs op) (hok : ∀ w ∈ vs, OK m (s.objs.length + 1) w) : Eff s rs op m vs where
  frame b hb h := hm b hb (fun hbv => h j v ht hj hbv.symm)
  len := hl
  buf := hb
  ok := hok

theorem effect_eff {s : State K} {rs : List (List Addr)} (hI : Inv s rs) {op : Op K} {m : Addr → List K} {vs : List View}
    (h : s.effect s.objs.length op = .ok (m, vs)) : Eff s rs op m vs := by
  cases op with
  | array x =>
    simp only [State.effect, bind_ok_iff, pure_ok, Except.ok.injEq, Prod.mk.injEq] at h
    obtain ⟨c, -, rfl, rfl⟩ := h
    exact eff_alloc hI _ _ rfl
  | new1D x =>
    simp only [State.effect, bind_ok_iff, pure_ok, Except.ok.injEq, Prod.mk.injEq] at h
    obtain ⟨⟨m', v⟩, h1, rfl, rfl⟩ := h
    obtain ⟨a1, a2, a3⟩ := new1D_eff hI rfl 0 (mem := s.mem) (fun _ _ => rfl) h1
    refine ⟨fun b hb _ => a1 b (ne_of_lt hb), fun b hb => congrArg List.length (a1 b (ne_of_lt hb)), ?_, ?_⟩
    · simp [opRegions, a2, hI.len]
    · intro w hw; rw [List.mem_singleton] at hw; subst hw; exact a3
  | newPoints x =>
    simp only [State.effect, State.newPoints, bind_ok_iff, pure_ok, Except.ok.injEq, Prod.mk.injEq] at h
    obtain ⟨⟨m', v⟩, ⟨c, -, c', -, h1⟩, rfl, rfl⟩ := h
    simp only [Prod.mk.injEq] at h1
    obtain ⟨rfl, rfl⟩ := h1
    exact eff_alloc hI _ _ rfl
  | toArray j =>
    simp only [State.effect, bind_ok_iff, pure_ok, Except.ok.injEq, Prod.mk.injEq] at h
    obtain ⟨v, -, rfl, rfl⟩ := h
    exact eff_alloc hI _ _ rfl
  | row j i =>
    simp only [State.effect, bind_ok_iff] at h
    obtain ⟨v, hv, h⟩ := h
    split at h
    · split at h
      · simp only [pure_ok, Except.ok.injEq, Prod.mk.injEq] at h
        obtain ⟨rfl, rfl⟩ := h
        exact eff_view hI hv rfl rfl ((List.take_sublist _ _).trans (List.drop_sublist _ _))
      · cases h
    · cases h
  | slice j lo hi =>
    simp only [State.effect, bind_ok_iff] at h
    obtain ⟨v, hv, h⟩ := h
    split at h
    · simp only [pure_ok, Except.ok.injEq, Prod.mk.injEq] at h
      obtain ⟨rfl, rfl⟩ := h
      exact eff_view hI hv rfl rfl ((List.drop_sublist _ _).trans (List.take_sublist _ _))
    · simp only [pure_ok, Except.ok.injEq, Prod.mk.injEq] at h
      obtain ⟨rfl, rfl⟩ := h
      exact eff_view hI hv rfl rfl ((List.drop_sublist _ _).trans (List.take_sublist _ _))
    · cases h
  | add j k =>
    simp only [State.effect, bind_ok_iff, pure_ok, Except.ok.injEq, Prod.mk.injEq] at h
    obtain ⟨v, -, w, -, vals, -, rfl, rfl⟩ := h
    exact eff_alloc hI _ _ rfl
  | setDimension j dim =>
    simp only [State.effect, bind_ok_iff, pure_ok, Except.ok.injEq, Prod.mk.injEq] at h
    obtain ⟨v, -, vals, -, rfl, rfl⟩ := h
    exact eff_alloc hI _ _ rfl
  | round j d =>
    simp only [State.effect, bind_ok_iff, pure_ok, Except.ok.injEq, Prod.mk.injEq] at h
    obtain ⟨v, hv, rfl, rfl⟩ := h
    refine eff_write hv rfl (fun b _ hb => writeFrom_ne _ hb _ _) (fun b _ => writeFrom_len _ _ _ _) ?_ ?_
    · simp [opRegions, List.getD, (hI.view hv).1]
    · intro w hw; rw [List.mem_singleton] at hw; subst hw
      exact (hI.view hv).2.mono (Nat.le_succ _) (fun b _ => writeFrom_len _ _ _ _)
  | roundWrap j d =>
    simp only [State.effect, bind_ok_iff, pure_ok, Except.ok.injEq, Prod.mk.injEq] at h
    obtain ⟨v, hv, rfl, rfl⟩ := h
    refine eff_write hv rfl (fun b hn hb => ?_) (fun b hn => ?_) ?_ ?_
    · rw [setBuf_ne _ (ne_of_lt hn)]; exact writeFrom_ne _ hb _ _
    · rw [setBuf_ne _ (ne_of_lt hn)]; exact writeFrom_len _ _ _ _
    · simp [opRegions, fresh, hI.len]
    · intro w hw; rw [List.mem_singleton] at hw; subst hw
      exact fresh_ok _ _ _ _ _
  | setItem j i x =>
    simp only [State.effect, bind_ok_iff] at h
    obtain ⟨v, hv, h⟩ := h
    split at h
    · simp only [pure_ok, Except.ok.injEq, Prod.mk.injEq] at h
      obtain ⟨rfl, rfl⟩ := h
      exact eff_write hv rfl (fun b _ hb => write1_ne _ _ hb) (fun b _ => write1_len _ _ _ _ _) rfl (by simp)
    · cases h
  | fill j x =>
    simp only [State.effect, bind_ok_iff, pure_ok, Except.ok.injEq, Prod.mk.injEq] at h
    obtain ⟨v, hv, rfl, rfl⟩ := h
    exact eff_write hv rfl (fun b _ hb => writeFrom_ne _ hb _ _) (fun b _ => writeFrom_len _ _ _ _) rfl (by simp)
  | iadd j k =>
    simp only [State.effect, bind_ok_iff] at h
    obtain ⟨v, hv, w, -, vals, -, h⟩ := h
    split at h
    · simp only [pure_ok, Except.ok.injEq, Prod.mk.injEq] at h
      obtain ⟨rfl, rfl⟩ := h
      refine eff_write hv rfl (fun b _ hb => writeFrom_ne _ hb _ _) (fun b _ => writeFrom_len _ _ _ _) ?_ ?_
      · simp [opRegions, List.getD, (hI.view hv).1]
      · intro w hw; rw [List.mem_singleton] at hw; subst hw
        exact (hI.view hv).2.mono (Nat.le_succ _) (fun b _ => writeFrom_len _ _ _ _)
    · cases h
  | build check xs =>
    simp only [State.effect, bind_ok_iff, pure_ok, Except.ok.injEq, Prod.mk.injEq] at h
    obtain ⟨⟨m', ws⟩, h1, -, -, rfl, rfl⟩ := h
    obtain ⟨a1, a2, a3⟩ := newList_eff hI rfl xs 0 s.mem (fun _ _ => rfl) _ _ h1
    refine ⟨fun b hb _ => a1 b (Or.inl hb), fun b hb => congrArg List.length (a1 b (Or.inl hb)), ?_, a3⟩
    simp [opRegions, a2, hI.len]
  | call f args =>
    simp only [State.effect, bind_ok_iff, pure_ok, Except.ok.injEq, Prod.mk.injEq] at h
    obtain ⟨xs, -, c, -, rfl, rfl⟩ := h
    exact eff_alloc hI _ _ rfl
  | field j i =>
    simp only [State.effect] at h
    split at h
    · rename_i us heq
      split at h
      · rename_i v hv
        simp only [Except.ok.injEq, Prod.mk.injEq] at h
        obtain ⟨rfl, rfl⟩ := h
        refine ⟨fun _ _ _ => rfl, fun _ _ => rfl, ?_, ?_⟩
        · simp [opRegions, List.getD, hI.bufs _ _ heq, hv]
        · intro w hw; rw [List.mem_singleton] at hw; subst hw
          exact (hI.wf _ _ heq _ (List.mem_of_getElem? hv)).mono (Nat.le_succ _) (fun _ _ => rfl)
      · cases h
    · cases h

/-- A write changes only the cells of the array it is directed to. -/
theorem write1_cell {mem : Addr → List K} {v : View} {p : Nat} (hp : p ∉ v.idx) (i : Nat) (x : K) :
    (write1 mem v i x v.buf)[p]? = (mem v.buf)[p]? := by
  unfold write1
  rcases hq : v.idx[i]? with _ | q
  · rfl
  · have : q ≠ p := by rintro rfl; exact hp (List.mem_of_getElem? hq)
    simp only [setBuf_eq]
    rw [List.getElem?_set_ne this]

theorem writeFrom_cell {v : View} {p : Nat} (hp : p ∉ v.idx) (vals : List K) :
    ∀ (mem : Addr → List K) (i : Nat), (writeFrom mem v i vals v.buf)[p]? = (mem v.buf)[p]? := by
  induction vals with
  | nil => intros; rfl
  | cons x xs ih => intro mem i; rw [writeFrom, ih, write1_cell hp]

theorem effect_cell {s : State K} {rs : List (List Addr)} (hI : Inv s rs) {op : Op K} {m : Addr → List K} {vs : List View}
    (h : s.effect s.objs.length op = .ok (m, vs)) {t : Nat} (ht : target op = some t) {v : View} (hv : s.view t = .ok v)
    {p : Nat} (hp : p ∉ v.idx) : (m v.buf)[p]? = (s.mem v.buf)[p]? := by
  have hlt := (hI.view hv).2.2.2
  cases op <;> simp only [target, Option.some.injEq, reduceCtorEq] at ht <;> subst ht <;>
    simp only [State.effect, hv, bind_ok_iff, pure_ok, Except.ok.injEq, Prod.mk.injEq, exists_eq_left', exists_eq_left] at h
  · obtain ⟨rfl, rfl⟩ := h
    exact writeFrom_cell hp _ _ _
  · obtain ⟨rfl, rfl⟩ := h
    rw [setBuf_ne _ (ne_of_lt hlt)]
    exact writeFrom_cell hp _ _ _
  · split at h
    · simp only [pure_ok, Except.ok.injEq, Prod.mk.injEq] at h
      obtain ⟨rfl, rfl⟩ := h
      exact write1_cell hp _ _
    · cases h
  · obtain ⟨rfl, rfl⟩ := h
    exact writeFrom_cell hp _ _ _
  · obtain ⟨w, -, vals, -, h⟩ := h
    split at h
    · simp only [pure_ok, Except.ok.injEq, Prod.mk.injEq] at h
      obtain ⟨rfl, rfl⟩ := h
      exact writeFrom_cell hp _ _ _
    · cases h

theorem inv_init : Inv (init : State K) [] := ⟨rfl, by simp [init], by simp [init]⟩

theorem inv_step {s : State K} {rs : List (List Addr)} (hI : Inv s rs) (op : Op K) :
    Inv (s.step op) (rs ++ [opRegions rs op]) := by
  unfold State.step
  rcases h : s.effect s.objs.length op with e | ⟨m, vs⟩
  · refine ⟨by simp [hI.len], ?_, ?_⟩
    · intro j us hj
      rcases lt_or_ge j s.objs.length with hlt | hge
      · rw [List.getElem?_append_left hlt] at hj
        rw [List.getElem?_append_left (hI.len ▸ hlt)]
        exact hI.bufs _ _ hj
      · rw [List.getElem?_append_right hge] at hj
        have := List.mem_of_getElem? hj
        simp at this
    · intro j us hj
      rcases lt_or_ge j s.objs.length with hlt | hge
      · rw [List.getElem?_append_left hlt] at hj
        intro v hv
        exact (hI.wf _ _ hj v hv).mono (by simp) (fun _ _ => rfl)
      · rw [List.getElem?_append_right hge] at hj
        have := List.mem_of_getElem? hj
        simp at this
  · have E := effect_eff hI h
    refine ⟨by simp [hI.len], ?_, ?_⟩
    · intro j us hj
      rcases lt_or_ge j s.objs.length with hlt | hge
      · rw [List.getElem?_append_left hlt] at hj
        rw [List.getElem?_append_left (hI.len ▸ hlt)]
        exact hI.bufs _ _ hj
      · rw [List.getElem?_append_right hge] at hj
        obtain ⟨h1, h2⟩ := List.getElem?_eq_some_iff.mp hj
        have h0 : j - s.objs.length = 0 := by simpa using h1
        have hus : us = vs := by simpa [h0] using h2.symm
        rw [List.getElem?_append_right (hI.len ▸ hge), ← hI.len, h0, hus, E.buf]
        rfl
    · intro j us hj v hv
      rcases lt_or_ge j s.objs.length with hlt | hge
      · rw [List.getElem?_append_left hlt] at hj
        exact (hI.wf _ _ hj v hv).mono (by simp) E.len
      · rw [List.getElem?_append_right hge] at hj
        obtain ⟨h1, h2⟩ := List.getElem?_eq_some_iff.mp hj
        have h0 : j - s.objs.length = 0 := by simpa using h1
        have hus : us = vs := by simpa [h0] using h2.symm
        rw [hus] at hv
        simpa using E.ok v hv

theorem run_append (s : State K) (h h' : List (Op K)) : s.run (h ++ h') = (s.run h).run h' := by
  simp [State.run]

theorem regions_append (h : List (Op K)) (op : Op K) : regions (h ++ [op]) = regions h ++ [opRegions (regions h) op] := by
  simp [regions]

theorem run_snoc (s : State K) (h : List (Op K)) (op : Op K) : s.run (h ++ [op]) = (s.run h).step op := by
  simp [State.run]

/-- Every reachable state satisfies the invariant. -/
theorem inv_run (h : List (Op K)) : Inv ((init : State K).run h) (regions h) := by
  induction h using List.reverseRecOn with
  | nil => exact inv_init
  | append_singleton h op ih => rw [run_snoc, regions_append]; exact inv_step ih op

theorem objs_length (h : List (Op K)) : ((init : State K).run h).objs.length = h.length := by
  induction h using List.reverseRecOn with
  | nil => rfl
  | append_singleton h op ih =>
    rw [run_snoc]; unfold State.step
    rcases ((init : State K).run h).effect _ op with e | ⟨m, vs⟩ <;> simp [ih]

theorem objs_step {s : State K} {j : Nat} (op : Op K) (hj : j < s.objs.length) : (s.step op).objs[j]? = s.objs[j]? := by
  unfold State.step
  rcases s.effect _ op with e | ⟨m, vs⟩ <;> exact List.getElem?_append_left hj

end Mem
end SkSpatial

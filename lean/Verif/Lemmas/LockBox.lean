/-
Lemmas for the box of the lock grid.
-/
import Mathlib.Tactic.Linarith
import Mathlib.Tactic.Positivity
import Verif.Spec.LockBox
import Verif.Lemmas.Radius

namespace CDT.Spec
open CDT

/-- The box around all points, before padding. -/
def hullBox : List FPoint → BBox
  | [] => ⟨.nan, .nan, .nan, .nan, .nan, .nan⟩
  | p :: ps => ps.foldl (fun b q => boxSum b (pointBox q)) (pointBox p)

theorem LD.le_fin_trans {a : LD} {x y : ℚ} (h : a.le (.fin x) = true) (h' : x ≤ y) : a.le (.fin y) = true := by
  rcases a with _ | b | a
  · simp [LD.le] at h
  · cases b <;> simp_all [LD.le]
  · simp only [LD.le, decide_eq_true_eq] at *; linarith

theorem LD.fin_le_trans {a : LD} {x y : ℚ} (h : (LD.fin x).le a = true) (h' : y ≤ x) : (LD.fin y).le a = true := by
  rcases a with _ | b | a
  · simp [LD.le] at h
  · cases b <;> simp_all [LD.le]
  · simp only [LD.le, decide_eq_true_eq] at *; linarith

theorem LD.le_lt_fin {a : LD} {x y : ℚ} (h : a.le (.fin x) = true) (h' : x < y) : a.lt (.fin y) = true := by
  rcases a with _ | b | a
  · simp [LD.le] at h
  · cases b <;> simp_all [LD.le, LD.lt]
  · simp only [LD.le, LD.lt, decide_eq_true_eq] at *; linarith

theorem LD.fin_lt_le {a : LD} {x y : ℚ} (h : (LD.fin x).le a = true) (h' : y < x) : (LD.fin y).lt a = true := by
  rcases a with _ | b | a
  · simp [LD.le] at h
  · cases b <;> simp_all [LD.le, LD.lt]
  · simp only [LD.le, LD.lt, decide_eq_true_eq] at *; linarith

/-- The larger of two values, the first not NaN, is above the first, and above the second unless NaN. -/
theorem max2_left {a b : LD} {x : ℚ} (h : (LD.fin x).le a = true) : (LD.fin x).le (a.max2 b) = true := by
  unfold LD.max2
  split
  · rename_i hlt
    rcases a with _ | s | a
    · simp [LD.le] at h
    · cases s <;> rcases b with _ | t | b <;> (try cases t) <;> simp_all [LD.le, LD.lt]
    · rcases b with _ | t | b
      · simp [LD.lt] at hlt
      · cases t <;> simp_all [LD.le, LD.lt]
      · simp only [LD.le, LD.lt, decide_eq_true_eq] at *; linarith
  · exact h

theorem max2_right {a b : LD} {x y : ℚ} (h : (LD.fin x).le a = true) (h' : (LD.fin y).le b = true) :
    (LD.fin y).le (a.max2 b) = true := by
  unfold LD.max2
  split
  · exact h'
  · rename_i hlt
    rcases a with _ | s | a
    · simp [LD.le] at h
    · cases s <;> rcases b with _ | t | b <;> (try cases t) <;> simp_all [LD.le, LD.lt]
    · rcases b with _ | t | b
      · simp [LD.le] at h'
      · cases t <;> simp_all [LD.le, LD.lt]
      · simp only [LD.le, LD.lt, decide_eq_true_eq] at *; linarith

theorem padding_ge_one {F : FloatFormat} (hF : F.Lawful) (b : BBox) : (LD.fin 1).le (boxPadding F b) = true := by
  have h1 : F.ofInt 1 = .fin 1 := by
    have := hF.int 1 (by norm_num)
    simpa [FloatFormat.ofInt] using this
  unfold boxPadding
  simp only [List.foldl_cons, List.foldl_nil, h1]
  exact max2_left (max2_left (max2_left (by simp [LD.le])))

/-- A side pushed out by at least `d`. -/
theorem lower_le {F : FloatFormat} (hF : F.Lawful) {m d : ℚ} {pad : LD} {v : ℚ}
    (hp : (LD.fin d).le pad = true) (hv : F.rnd (m - d) = .fin v) : (F.sub (.fin m) pad).le (.fin v) = true := by
  rcases pad with _ | b | e
  · simp [LD.le] at hp
  · cases b
    · simp [FloatFormat.sub, LD.le]
    · simp [LD.le] at hp
  · simp only [LD.le, decide_eq_true_eq] at hp
    simp only [FloatFormat.sub]
    have := hF.mono (m - e) (m - d) (by linarith)
    rwa [hv] at this

theorem le_upper {F : FloatFormat} (hF : F.Lawful) {m d : ℚ} {pad : LD} {v : ℚ}
    (hp : (LD.fin d).le pad = true) (hv : F.rnd (m + d) = .fin v) : (LD.fin v).le (F.add (.fin m) pad) = true := by
  rcases pad with _ | b | e
  · simp [LD.le] at hp
  · cases b
    · simp [FloatFormat.add, LD.le]
    · simp [LD.le] at hp
  · simp only [LD.le, decide_eq_true_eq] at hp
    simp only [FloatFormat.add]
    have := hF.mono (m + d) (m + e) (by linarith)
    rwa [hv] at this

/-- One axis of the box around the points. -/
theorem min2_fin (a b : ℚ) : (LD.fin a).min2 (.fin b) = .fin (min a b) := by
  unfold LD.min2
  simp only [LD.lt, decide_eq_true_eq]
  split
  · rw [min_eq_right (by linarith)]
  · rw [min_eq_left (by linarith)]

theorem max2_fin (a b : ℚ) : (LD.fin a).max2 (.fin b) = .fin (max a b) := by
  unfold LD.max2
  simp only [LD.lt, decide_eq_true_eq]
  split
  · rw [max_eq_right (by linarith)]
  · rw [max_eq_left (by linarith)]

/-- An axis: how to read a coordinate of a point and the two sides of a box. -/
structure Axis where
  c : ℚ × ℚ × ℚ → ℚ
  lo : BBox → LD
  hi : BBox → LD
  point_lo : ∀ t, lo (pointBox ⟨.fin t.1, .fin t.2.1, .fin t.2.2⟩) = .fin (c t)
  point_hi : ∀ t, hi (pointBox ⟨.fin t.1, .fin t.2.1, .fin t.2.2⟩) = .fin (c t)
  sum_lo : ∀ a b, lo (boxSum a b) = (lo a).min2 (lo b)
  sum_hi : ∀ a b, hi (boxSum a b) = (hi a).max2 (hi b)

def xAxis : Axis := ⟨fun t => t.1, (·.xmin), (·.xmax), fun _ => rfl, fun _ => rfl, fun _ _ => rfl, fun _ _ => rfl⟩
def yAxis : Axis := ⟨fun t => t.2.1, (·.ymin), (·.ymax), fun _ => rfl, fun _ => rfl, fun _ _ => rfl, fun _ _ => rfl⟩
def zAxis : Axis := ⟨fun t => t.2.2, (·.zmin), (·.zmax), fun _ => rfl, fun _ => rfl, fun _ _ => rfl, fun _ _ => rfl⟩

/-- The point with rational coordinates. -/
def mkPoint (t : ℚ × ℚ × ℚ) : FPoint := ⟨.fin t.1, .fin t.2.1, .fin t.2.2⟩

theorem fold_axis (A : Axis) : ∀ (ts : List (ℚ × ℚ × ℚ)) (b : BBox) (l u : ℚ), A.lo b = .fin l → A.hi b = .fin u →
    ∃ l' u', A.lo ((ts.map mkPoint).foldl (fun b q => boxSum b (pointBox q)) b) = .fin l' ∧
      A.hi ((ts.map mkPoint).foldl (fun b q => boxSum b (pointBox q)) b) = .fin u' ∧ l' ≤ l ∧ u ≤ u' ∧
      (∀ t ∈ ts, l' ≤ A.c t ∧ A.c t ≤ u') ∧ (l' = l ∨ ∃ t ∈ ts, l' = A.c t) ∧ (u' = u ∨ ∃ t ∈ ts, u' = A.c t) := by
  intro ts
  induction ts with
  | nil => intro b l u hl hu; exact ⟨l, u, hl, hu, le_rfl, le_rfl, by simp, .inl rfl, .inl rfl⟩
  | cons t ts ih =>
    intro b l u hl hu
    have el : A.lo (boxSum b (pointBox (mkPoint t))) = .fin (min l (A.c t)) := by
      rw [A.sum_lo, hl]; unfold mkPoint; rw [A.point_lo, min2_fin]
    have eu : A.hi (boxSum b (pointBox (mkPoint t))) = .fin (max u (A.c t)) := by
      rw [A.sum_hi, hu]; unfold mkPoint; rw [A.point_hi, max2_fin]
    obtain ⟨l', u', h1, h2, h3, h4, h5, h6, h7⟩ := ih _ _ _ el eu
    refine ⟨l', u', h1, h2, h3.trans (min_le_left _ _), (le_max_left _ _).trans h4, ?_, ?_, ?_⟩
    · intro s hs
      rcases List.mem_cons.1 hs with rfl | hs
      · exact ⟨h3.trans (min_le_right _ _), (le_max_right _ _).trans h4⟩
      · exact h5 s hs
    · rcases h6 with h6 | ⟨s, hs, h6⟩
      · rcases min_choice l (A.c t) with e | e
        · exact .inl (h6.trans e)
        · exact .inr ⟨t, List.mem_cons_self, h6.trans e⟩
      · exact .inr ⟨s, List.mem_cons_of_mem _ hs, h6⟩
    · rcases h7 with h7 | ⟨s, hs, h7⟩
      · rcases max_choice u (A.c t) with e | e
        · exact .inl (h7.trans e)
        · exact .inr ⟨t, List.mem_cons_self, h7.trans e⟩
      · exact .inr ⟨s, List.mem_cons_of_mem _ hs, h7⟩

/-- The sides of the box around nonempty points are the extreme coordinates. -/
theorem hull_axis (A : Axis) {ts : List (ℚ × ℚ × ℚ)} (hne : ts ≠ []) :
    ∃ l u, A.lo (hullBox (ts.map mkPoint)) = .fin l ∧ A.hi (hullBox (ts.map mkPoint)) = .fin u ∧
      (∀ t ∈ ts, l ≤ A.c t ∧ A.c t ≤ u) ∧ (∃ t ∈ ts, l = A.c t) ∧ (∃ t ∈ ts, u = A.c t) := by
  rcases ts with _ | ⟨t, ts⟩
  · exact absurd rfl hne
  obtain ⟨l', u', h1, h2, h3, h4, h5, h6, h7⟩ :=
    fold_axis A ts (pointBox (mkPoint t)) (A.c t) (A.c t) (A.point_lo t) (A.point_hi t)
  refine ⟨l', u', h1, h2, ?_, ?_, ?_⟩
  · intro s hs
    rcases List.mem_cons.1 hs with rfl | hs
    · exact ⟨h3, h4⟩
    · exact h5 s hs
  · rcases h6 with h6 | ⟨s, hs, h6⟩
    · exact ⟨t, List.mem_cons_self, h6⟩
    · exact ⟨s, List.mem_cons_of_mem _ hs, h6⟩
  · rcases h7 with h7 | ⟨s, hs, h7⟩
    · exact ⟨t, List.mem_cons_self, h7⟩
    · exact ⟨s, List.mem_cons_of_mem _ hs, h7⟩

theorem doublePoints_list {F : FloatFormat} : ∀ {ps : List FPoint}, DoublePoints F ps →
    ∃ ts : List (ℚ × ℚ × ℚ), ps = ts.map mkPoint ∧
      ∀ t ∈ ts, F.rnd t.1 = .fin t.1 ∧ F.rnd t.2.1 = .fin t.2.1 ∧ F.rnd t.2.2 = .fin t.2.2
  | [], _ => ⟨[], rfl, by simp⟩
  | p :: ps, h => by
    obtain ⟨ts, rfl, hd⟩ := doublePoints_list (ps := ps) (fun q hq => h q (List.mem_cons_of_mem _ hq))
    obtain ⟨x, y, z, rfl, hx⟩ := h p List.mem_cons_self
    refine ⟨(x, y, z) :: ts, rfl, ?_⟩
    intro t ht
    rcases List.mem_cons.1 ht with rfl | ht
    · exact hx
    · exact hd t ht

theorem lockingBox_eq {F : FloatFormat} {ps : List FPoint} (h : ps ≠ []) :
    lockingBox F ps = padLockingBox F (hullBox ps) := by
  rcases ps with _ | ⟨p, ps⟩
  · exact absurd rfl h
  · rfl

theorem mkPoint_inj {t : ℚ × ℚ × ℚ} {x y z : ℚ} {F : FloatFormat} (h : PointAt F (mkPoint t) x y z) : t = (x, y, z) := by
  obtain ⟨h, -⟩ := h
  obtain ⟨a, b, c⟩ := t
  simp only [mkPoint, FPoint.mk.injEq, LD.fin.injEq] at h
  obtain ⟨rfl, rfl, rfl⟩ := h
  rfl

/-- The padding is at least about a hundredth of each extent. -/
theorem padding_ge_extent {F : FloatFormat} (hF : Accurate F) {b : BBox} (A : Axis)
    (hA : A = xAxis ∨ A = yAxis ∨ A = zAxis) {l u : ℚ} (hl : A.lo b = .fin l) (hu : A.hi b = .fin u) (h0 : 1 ≤ u - l)
    (hb : u - l ≤ 2 ^ 42) : (LD.fin ((u - l) / 101)).le (boxPadding F b) = true := by
  have hL := hF.toLawful
  have h1 : F.ofInt 1 = .fin 1 := by
    have := hL.int 1 (by norm_num)
    simpa [FloatFormat.ofInt] using this
  have key : (LD.fin ((u - l) / 101)).le (F.mul (F.sub (.fin u) (.fin l)) (F.rnd (1 / 100))) = true := by
    obtain ⟨c, hc, hc'⟩ := hF.near (1 / 100) (by rw [abs_of_pos (by norm_num)]; exact le_trans (by norm_num) (one_le_pow₀ (by norm_num)))
    have hb1000 : u - l ≤ 2 ^ 1000 := hb.trans (pow_le_pow_right₀ (by norm_num) (by norm_num))
    obtain ⟨e, he, he'⟩ := hF.near (u - l) (by rw [abs_of_pos (by linarith)]; exact hb1000)
    have ht : tiny ≤ 1 / 2 ^ 60 := by
      unfold tiny
      exact one_div_le_one_div_of_le (by positivity) (pow_le_pow_right₀ (by norm_num) (by norm_num))
    have ht0 := tiny_nonneg
    have hu53 : roundoff = 1 / 2 ^ 53 := rfl
    rw [abs_of_pos (by norm_num : (0:ℚ) < 1/100), hu53] at hc'
    rw [abs_of_pos (show 0 < u - l by linarith), hu53] at he'
    have hc1 : (999 : ℚ) / 100000 ≤ c := by
      have := (abs_le.1 hc').1
      norm_num at this ht ⊢
      linarith
    have hc2 : c ≤ 1001 / 100000 := by
      have := (abs_le.1 hc').2
      norm_num at this ht ⊢
      linarith
    have he1 : (u - l) * (999 / 1000) ≤ e := by
      have := (abs_le.1 he').1
      norm_num at this ht ⊢
      linarith
    have he2 : e ≤ (u - l) * (1001 / 1000) := by
      have := (abs_le.1 he').2
      norm_num at this ht ⊢
      linarith
    have hec : (u - l) * (998 / 100000) ≤ e * c := by nlinarith
    have hec2 : e * c ≤ 2 ^ 43 := by
      have : (2:ℚ) ^ 43 = 2 * 2 ^ 42 := by norm_num
      nlinarith
    have hec0 : 0 ≤ e * c := by linarith
    obtain ⟨v, hv, hv'⟩ := hF.near (e * c) (by rw [abs_of_nonneg hec0]; exact hec2.trans (pow_le_pow_right₀ (by norm_num) (by norm_num)))
    rw [abs_of_nonneg hec0, hu53] at hv'
    simp only [FloatFormat.sub, he, hc, FloatFormat.mul, hv, LD.le, decide_eq_true_eq]
    have := (abs_le.1 hv').1
    norm_num at this ht ⊢
    linarith
  unfold boxPadding
  simp only [List.foldl_cons, List.foldl_nil, h1]
  have one : (LD.fin 1).le (.fin 1) = true := by simp [LD.le]
  rcases hA with rfl | rfl | rfl
  · have hl' : b.xmin = .fin l := hl
    have hu' : b.xmax = .fin u := hu
    rw [← hl', ← hu'] at key
    exact max2_left (max2_left (max2_right one key))
  · have hl' : b.ymin = .fin l := hl
    have hu' : b.ymax = .fin u := hu
    rw [← hl', ← hu'] at key
    exact max2_left (max2_right (max2_left one) key)
  · have hl' : b.zmin = .fin l := hl
    have hu' : b.zmax = .fin u := hu
    rw [← hl', ← hu'] at key
    exact max2_right (max2_left (max2_left one)) key

end CDT.Spec

/-
C82: the lock grid of a parallel triangulation spans every point.
-/
import Verif.Lemmas.LockBox
import Verif.Fixture.Binary64

namespace CDT.Props
open CDT CDT.Spec CDT.Fixture

set_option exponentiation.threshold 4000

/-- What one axis of the padded box guarantees, given that the padding is at least `d`. -/
theorem axis_sides {F : FloatFormat} (A : Axis)
    (hA : A = xAxis ∨ A = yAxis ∨ A = zAxis) {ts : List (ℚ × ℚ × ℚ)} (hne : ts ≠ []) :
    ∃ l u, A.lo (hullBox (ts.map mkPoint)) = .fin l ∧ A.hi (hullBox (ts.map mkPoint)) = .fin u ∧
      (∀ t ∈ ts, l ≤ A.c t ∧ A.c t ≤ u) ∧ (∃ t ∈ ts, l = A.c t) ∧ (∃ t ∈ ts, u = A.c t) ∧
      A.lo (lockingBox F (ts.map mkPoint)) = F.sub (.fin l) (boxPadding F (hullBox (ts.map mkPoint))) ∧
      A.hi (lockingBox F (ts.map mkPoint)) = F.add (.fin u) (boxPadding F (hullBox (ts.map mkPoint))) := by
  obtain ⟨l, u, h1, h2, h3, h4, h5⟩ := hull_axis A hne
  refine ⟨l, u, h1, h2, h3, h4, h5, ?_, ?_⟩
  · rw [lockingBox_eq (by simpa using hne), ← h1]
    rcases hA with rfl | rfl | rfl <;> rfl
  · rw [lockingBox_eq (by simpa using hne), ← h2]
    rcases hA with rfl | rfl | rfl <;> rfl

theorem axis_double {F : FloatFormat} {A : Axis} (hA : A = xAxis ∨ A = yAxis ∨ A = zAxis) {t : ℚ × ℚ × ℚ}
    (h : F.rnd t.1 = .fin t.1 ∧ F.rnd t.2.1 = .fin t.2.1 ∧ F.rnd t.2.2 = .fin t.2.2) :
    F.rnd (A.c t) = .fin (A.c t) := by
  rcases hA with rfl | rfl | rfl
  exacts [h.1, h.2.1, h.2.2]

theorem axis_covers {F : FloatFormat} (hF : F.Lawful) {A : Axis} (hA : A = xAxis ∨ A = yAxis ∨ A = zAxis)
    {ts : List (ℚ × ℚ × ℚ)}
    (hd : ∀ t ∈ ts, F.rnd t.1 = .fin t.1 ∧ F.rnd t.2.1 = .fin t.2.1 ∧ F.rnd t.2.2 = .fin t.2.2) {a : ℚ}
    (h1 : ∃ t ∈ ts, A.c t ≤ a) (h2 : ∃ t ∈ ts, a ≤ A.c t) :
    (A.lo (lockingBox F (ts.map mkPoint))).le (.fin a) = true ∧
      (LD.fin a).le (A.hi (lockingBox F (ts.map mkPoint))) = true := by
  obtain ⟨s, hs, hsa⟩ := h1
  obtain ⟨s', hs', hsa'⟩ := h2
  obtain ⟨l, u, -, -, h3, ⟨t, ht, rfl⟩, ⟨t', ht', rfl⟩, e1, e2⟩ :=
    axis_sides (F := F) A hA (ts := ts) (List.ne_nil_of_mem hs)
  rw [e1, e2]
  have hp : (LD.fin 0).le (boxPadding F (hullBox (ts.map mkPoint))) = true :=
    LD.fin_le_trans (padding_ge_one hF _) (by norm_num)
  constructor
  · exact LD.le_fin_trans (lower_le hF hp (by rw [sub_zero]; exact axis_double hA (hd t ht))) ((h3 s hs).1.trans hsa)
  · exact LD.fin_le_trans (le_upper hF hp (by rw [add_zero]; exact axis_double hA (hd t' ht'))) (hsa'.trans (h3 s' hs').2)

theorem between_axes {F : FloatFormat} {ts : List (ℚ × ℚ × ℚ)} {x y z : ℚ}
    (h : BetweenPoints F (ts.map mkPoint) x y z) :
    ((∃ t ∈ ts, xAxis.c t ≤ x) ∧ ∃ t ∈ ts, x ≤ xAxis.c t) ∧ ((∃ t ∈ ts, yAxis.c t ≤ y) ∧ ∃ t ∈ ts, y ≤ yAxis.c t) ∧
      ((∃ t ∈ ts, zAxis.c t ≤ z) ∧ ∃ t ∈ ts, z ≤ zAxis.c t) := by
  have g : ∀ {P : ℚ × ℚ × ℚ → Prop}, (∃ p ∈ ts.map mkPoint, ∃ a b c, PointAt F p a b c ∧ P (a, b, c)) → ∃ t ∈ ts, P t := by
    rintro P ⟨p, hp, a, b, c, hat, h⟩
    obtain ⟨t, ht, rfl⟩ := List.mem_map.1 hp
    rw [← mkPoint_inj hat] at h
    exact ⟨t, ht, h⟩
  obtain ⟨h1, h2, h3, h4, h5, h6⟩ := h
  exact ⟨⟨g (P := fun t => t.1 ≤ x) h1, g (P := fun t => x ≤ t.1) h2⟩,
    ⟨g (P := fun t => t.2.1 ≤ y) h3, g (P := fun t => y ≤ t.2.1) h4⟩,
    ⟨g (P := fun t => t.2.2 ≤ z) h5, g (P := fun t => z ≤ t.2.2) h6⟩⟩

/-- C82: the box spans every position between the points, in particular their convex hull and so any
position a later move can insert, whatever the coordinates. -/
theorem C82_covers_hull {F : FloatFormat} (hF : F.Lawful) {ps : List FPoint} (hps : DoublePoints F ps) {x y z : ℚ}
    (h : BetweenPoints F ps x y z) : Covers (lockingBox F ps) x y z := by
  obtain ⟨ts, rfl, hd⟩ := doublePoints_list hps
  obtain ⟨⟨a, b⟩, ⟨c, d⟩, e, f⟩ := between_axes h
  exact ⟨axis_covers hF (.inl rfl) hd a b, axis_covers hF (.inr (.inl rfl)) hd c d,
    axis_covers hF (.inr (.inr rfl)) hd e f⟩

/-- C82: the box spans every point. -/
theorem C82_covers {F : FloatFormat} (hF : F.Lawful) {ps : List FPoint} (hps : DoublePoints F ps) {p : FPoint}
    (hp : p ∈ ps) {x y z : ℚ} (h : PointAt F p x y z) : Covers (lockingBox F ps) x y z :=
  C82_covers_hull hF hps ⟨⟨p, hp, x, y, z, h, le_rfl⟩, ⟨p, hp, x, y, z, h, le_rfl⟩, ⟨p, hp, x, y, z, h, le_rfl⟩,
    ⟨p, hp, x, y, z, h, le_rfl⟩, ⟨p, hp, x, y, z, h, le_rfl⟩, ⟨p, hp, x, y, z, h, le_rfl⟩⟩

theorem axis_strict {F : FloatFormat} (hF : F.Lawful) {A : Axis} (hA : A = xAxis ∨ A = yAxis ∨ A = zAxis)
    {ts : List (ℚ × ℚ × ℚ)} {a : ℚ} (hb : ∀ t ∈ ts, |A.c t| < 2 ^ 53 - 1)
    (h1 : ∃ t ∈ ts, A.c t ≤ a) (h2 : ∃ t ∈ ts, a ≤ A.c t) :
    (A.lo (lockingBox F (ts.map mkPoint))).lt (.fin a) = true ∧
      (LD.fin a).lt (A.hi (lockingBox F (ts.map mkPoint))) = true := by
  obtain ⟨s, hs, hsa⟩ := h1
  obtain ⟨s', hs', hsa'⟩ := h2
  obtain ⟨l, u, -, -, h3, ⟨t, ht, rfl⟩, ⟨t', ht', rfl⟩, e1, e2⟩ :=
    axis_sides (F := F) A hA (ts := ts) (List.ne_nil_of_mem hs)
  rw [e1, e2]
  have hp := padding_ge_one hF (hullBox (ts.map mkPoint))
  constructor
  · have hlt := abs_lt.1 (hb t ht)
    have hc1 := Int.le_ceil (A.c t)
    have hc2 := Int.ceil_lt_add_one (A.c t)
    have hi : F.rnd ((⌈A.c t⌉ - 1 : ℤ) : ℚ) = .fin ((⌈A.c t⌉ - 1 : ℤ) : ℚ) := by
      apply hF.int
      have c1 : ((⌈A.c t⌉ : ℤ) : ℚ) < ((2 ^ 53 : ℤ) : ℚ) := by push_cast; linarith
      have c2 : ((-2 ^ 53 : ℤ) : ℚ) < ((⌈A.c t⌉ - 1 : ℤ) : ℚ) := by push_cast; linarith
      have c1' := Int.cast_lt.1 c1
      have c2' := Int.cast_lt.1 c2
      rw [abs_le]; constructor <;> omega
    have hm : (F.sub (.fin (A.c t)) (boxPadding F (hullBox (ts.map mkPoint)))).le (.fin ((⌈A.c t⌉ - 1 : ℤ) : ℚ)) = true := by
      refine lower_le hF (d := A.c t - ((⌈A.c t⌉ - 1 : ℤ) : ℚ)) (LD.fin_le_trans hp ?_) (by rw [sub_sub_cancel]; exact hi)
      push_cast; linarith
    refine LD.le_lt_fin hm ?_
    have := (h3 s hs).1
    push_cast; linarith
  · have hlt := abs_lt.1 (hb t' ht')
    have hc1 := Int.floor_le (A.c t')
    have hc2 := Int.lt_floor_add_one (A.c t')
    have hi : F.rnd ((⌊A.c t'⌋ + 1 : ℤ) : ℚ) = .fin ((⌊A.c t'⌋ + 1 : ℤ) : ℚ) := by
      apply hF.int
      have c1 : ((⌊A.c t'⌋ + 1 : ℤ) : ℚ) < ((2 ^ 53 : ℤ) : ℚ) := by push_cast; linarith
      have c2 : ((-2 ^ 53 : ℤ) : ℚ) < ((⌊A.c t'⌋ : ℤ) : ℚ) := by push_cast; linarith
      have c1' := Int.cast_lt.1 c1
      have c2' := Int.cast_lt.1 c2
      rw [abs_le]; constructor <;> omega
    have hm : (LD.fin ((⌊A.c t'⌋ + 1 : ℤ) : ℚ)).le (F.add (.fin (A.c t')) (boxPadding F (hullBox (ts.map mkPoint)))) = true := by
      refine le_upper hF (d := ((⌊A.c t'⌋ + 1 : ℤ) : ℚ) - A.c t') (LD.fin_le_trans hp ?_) (by rw [add_sub_cancel]; exact hi)
      push_cast; linarith
    refine LD.fin_lt_le hm ?_
    have := (h3 s' hs').2
    push_cast; linarith

/-- C82: below `2^53` no position between the points lies on a face of the box; so the box has positive
width. -/
theorem C82_strict {F : FloatFormat} (hF : F.Lawful) {ps : List FPoint} (hps : DoublePoints F ps)
    (hb : ∀ p ∈ ps, ∀ x y z, PointAt F p x y z → |x| < 2 ^ 53 - 1 ∧ |y| < 2 ^ 53 - 1 ∧ |z| < 2 ^ 53 - 1) {x y z : ℚ}
    (h : BetweenPoints F ps x y z) : StrictlyInside (lockingBox F ps) x y z := by
  obtain ⟨ts, rfl, hd⟩ := doublePoints_list hps
  obtain ⟨⟨a, b⟩, ⟨c, d⟩, e, f⟩ := between_axes h
  have hb' : ∀ t ∈ ts, _ := fun t ht => hb (mkPoint t) (List.mem_map_of_mem ht) t.1 t.2.1 t.2.2 ⟨rfl, hd t ht⟩
  exact ⟨axis_strict hF (.inl rfl) (fun t ht => (hb' t ht).1) a b,
    axis_strict hF (.inr (.inl rfl)) (fun t ht => (hb' t ht).2.1) c d,
    axis_strict hF (.inr (.inr rfl)) (fun t ht => (hb' t ht).2.2) e f⟩

theorem axis_margin {F : FloatFormat} (hF : Accurate F) {A : Axis} (hA : A = xAxis ∨ A = yAxis ∨ A = zAxis)
    {ts : List (ℚ × ℚ × ℚ)} {a d : ℚ} (hb : ∀ t ∈ ts, |A.c t| ≤ 2 ^ 40) (hd1 : 1 ≤ d) (hd2 : d ≤ 2 ^ 42)
    (hp : (LD.fin d).le (boxPadding F (hullBox (ts.map mkPoint))) = true)
    (h1 : ∃ t ∈ ts, A.c t ≤ a) (h2 : ∃ t ∈ ts, a ≤ A.c t) :
    (A.lo (lockingBox F (ts.map mkPoint))).le (.fin (a - (d - 1 / 100))) = true ∧
      (LD.fin (a + (d - 1 / 100))).le (A.hi (lockingBox F (ts.map mkPoint))) = true := by
  obtain ⟨s, hs, hsa⟩ := h1
  obtain ⟨s', hs', hsa'⟩ := h2
  obtain ⟨l, u, -, -, h3, ⟨t, ht, rfl⟩, ⟨t', ht', rfl⟩, e1, e2⟩ :=
    axis_sides (F := F) A hA (ts := ts) (List.ne_nil_of_mem hs)
  rw [e1, e2]
  have hti : tiny ≤ 1 / 2 ^ 60 := by
    unfold tiny
    exact one_div_le_one_div_of_le (by positivity) (pow_le_pow_right₀ (by norm_num) (by norm_num))
  have hu53 : roundoff = 1 / 2 ^ 53 := rfl
  have err : ∀ q : ℚ, |q| ≤ 2 ^ 43 → ∃ v, F.rnd q = .fin v ∧ |v - q| ≤ 1 / 100 := by
    intro q hq
    obtain ⟨v, hv, hv'⟩ := hF.near q (hq.trans (pow_le_pow_right₀ (by norm_num) (by norm_num)))
    refine ⟨v, hv, hv'.trans ?_⟩
    rw [hu53]
    norm_num at hq hti ⊢
    linarith
  have e43 : (2 : ℚ) ^ 40 + 2 ^ 42 ≤ 2 ^ 43 := by norm_num
  constructor
  · have hb1 := abs_le.1 (hb t ht)
    obtain ⟨v, hv, hv'⟩ := err (A.c t - d) (by rw [abs_le]; constructor <;> linarith)
    refine LD.le_fin_trans (lower_le hF.toLawful hp hv) ?_
    have := (abs_le.1 hv').2
    have := (h3 s hs).1
    linarith
  · have hb1 := abs_le.1 (hb t' ht')
    obtain ⟨v, hv, hv'⟩ := err (A.c t' + d) (by rw [abs_le]; constructor <;> linarith)
    refine LD.fin_le_trans (le_upper hF.toLawful hp hv) ?_
    have := (abs_le.1 hv').1
    have := (h3 s' hs').2
    linarith

/-- C82: for coordinates up to `2^40` every position between the points keeps a distance of at least
one half from each face, and of at least a 128th of the largest extent of the points. -/
theorem C82_margin {F : FloatFormat} (hF : Accurate F) {ps : List FPoint} (hps : DoublePoints F ps)
    (hb : ∀ p ∈ ps, ∀ x y z, PointAt F p x y z → |x| ≤ 2 ^ 40 ∧ |y| ≤ 2 ^ 40 ∧ |z| ≤ 2 ^ 40) {e : ℚ}
    (he : SpreadBy F ps e) {x y z : ℚ} (h : BetweenPoints F ps x y z) :
    Margin (lockingBox F ps) (max (1 / 2) (e / 128)) x y z := by
  obtain ⟨ts, rfl, hd⟩ := doublePoints_list hps
  obtain ⟨⟨ha, hb1⟩, ⟨hc, hd1⟩, hE, hf⟩ := between_axes h
  have hb' : ∀ t ∈ ts, _ := fun t ht => hb (mkPoint t) (List.mem_map_of_mem ht) t.1 t.2.1 t.2.2 ⟨rfl, hd t ht⟩
  have one := padding_ge_one hF.toLawful (hullBox (ts.map mkPoint))
  -- the padding is at least `d`, which exceeds the margin by a hundredth
  obtain ⟨d, h1, h2, h3, h4⟩ : ∃ d, 1 ≤ d ∧ d ≤ 2 ^ 42 ∧ max (1 / 2) (e / 128) ≤ d - 1 / 100 ∧
      (LD.fin d).le (boxPadding F (hullBox (ts.map mkPoint))) = true := by
    by_cases hs : e ≤ 101
    · refine ⟨1, le_rfl, by norm_num, max_le (by norm_num) (by linarith), one⟩
    have he0 : 101 < e := not_le.1 hs
    obtain ⟨p, hp, q, hq, x1, y1, z1, x2, y2, z2, hp1, hq1, hxyz⟩ := he
    obtain ⟨t, ht, rfl⟩ := List.mem_map.1 hp
    obtain ⟨t', ht', rfl⟩ := List.mem_map.1 hq
    have et := mkPoint_inj hp1
    have et' := mkPoint_inj hq1
    have key : ∀ A : Axis, (A = xAxis ∨ A = yAxis ∨ A = zAxis) → (∀ t ∈ ts, |A.c t| ≤ 2 ^ 40) → e ≤ A.c t' - A.c t →
        (LD.fin (e / 101)).le (boxPadding F (hullBox (ts.map mkPoint))) = true ∧ e ≤ 2 ^ 41 := by
      intro A hA hbA hle
      obtain ⟨l, u, g1, g2, g3, ⟨m, hm, rfl⟩, ⟨m', hm', rfl⟩⟩ := hull_axis A (List.ne_nil_of_mem ht)
      have i1 := g3 t ht
      have i2 := g3 t' ht'
      have i3 := abs_le.1 (hbA m hm)
      have i4 := abs_le.1 (hbA m' hm')
      have e41 : (2 : ℚ) ^ 41 = 2 ^ 40 + 2 ^ 40 := by norm_num
      have e42 : (2 : ℚ) ^ 41 ≤ 2 ^ 42 := by norm_num
      refine ⟨LD.fin_le_trans (padding_ge_extent hF A hA g1 g2 (by linarith) (by linarith)) ?_, by linarith⟩
      linarith
    have hk : (LD.fin (e / 101)).le (boxPadding F (hullBox (ts.map mkPoint))) = true ∧ e ≤ 2 ^ 41 := by
      rcases hxyz with g | g | g
      · exact key xAxis (.inl rfl) (fun t ht => (hb' t ht).1) (by rw [et, et']; exact g)
      · exact key yAxis (.inr (.inl rfl)) (fun t ht => (hb' t ht).2.1) (by rw [et, et']; exact g)
      · exact key zAxis (.inr (.inr rfl)) (fun t ht => (hb' t ht).2.2) (by rw [et, et']; exact g)
    have hk2 := hk.2
    refine ⟨e / 101, by linarith, ?_, max_le (by linarith) (by linarith), hk.1⟩
    norm_num at hk2 ⊢
    linarith
  have fin : ∀ A : Axis, (A = xAxis ∨ A = yAxis ∨ A = zAxis) → (∀ t ∈ ts, |A.c t| ≤ 2 ^ 40) → ∀ a,
      (∃ t ∈ ts, A.c t ≤ a) → (∃ t ∈ ts, a ≤ A.c t) →
      (A.lo (lockingBox F (ts.map mkPoint))).le (.fin (a - max (1 / 2) (e / 128))) = true ∧
      (LD.fin (a + max (1 / 2) (e / 128))).le (A.hi (lockingBox F (ts.map mkPoint))) = true := by
    intro A hA hbA a k1 k2
    obtain ⟨m1, m2⟩ := axis_margin hF hA hbA h1 h2 h4 k1 k2
    exact ⟨LD.le_fin_trans m1 (by linarith), LD.fin_le_trans m2 (by linarith)⟩
  exact ⟨fin xAxis (.inl rfl) (fun t ht => (hb' t ht).1) x ha hb1,
    fin yAxis (.inr (.inl rfl)) (fun t ht => (hb' t ht).2.1) y hc hd1,
    fin zAxis (.inr (.inr rfl)) (fun t ht => (hb' t ht).2.2) z hE hf⟩

/-- C82: without points the box is the cube from -100 to 100. -/
theorem C82_no_points {F : FloatFormat} (hF : F.Lawful) :
    lockingBox F [] = ⟨.fin (-100), .fin (-100), .fin (-100), .fin 100, .fin 100, .fin 100⟩ := by
  have h := hF.int 100 (by norm_num)
  have h' := hF.int (-100) (by norm_num)
  push_cast at h h'
  simp [lockingBox, defaultLockingBox, boundingBoxSize, FloatFormat.ofInt, FloatFormat.sub, h, h']

/-- C82: the bound of `C82_strict` is needed.  Where 1 is lost to rounding, the box of a single point
has no width along that axis. -/
theorem C82_width_lost {F : FloatFormat} (hF : F.Lawful) {p : FPoint} {x y z : ℚ} (hp : PointAt F p x y z)
    (h1 : F.rnd (x - 1) = .fin x) (h2 : F.rnd (x + 1) = .fin x) :
    (lockingBox F [p]).xmin = (lockingBox F [p]).xmax := by
  obtain ⟨rfl, -, -, -⟩ := hp
  have z0 : F.rnd 0 = .fin 0 := by have := hF.int 0 (by norm_num); simpa using this
  have o1 : F.rnd 1 = .fin 1 := by have := hF.int 1 (by norm_num); simpa using this
  have pad : boxPadding F (pointBox ⟨.fin x, .fin y, .fin z⟩) = .fin 1 := by
    have m : ∀ c : LD, (LD.fin 1).max2 (F.mul (.fin 0) c) = .fin 1 := by
      intro c
      unfold LD.max2
      rcases c with _ | b | c
      · simp [FloatFormat.mul, LD.lt]
      · simp [FloatFormat.mul, LD.lt]
      · simp [FloatFormat.mul, LD.lt, z0]
    simp [boxPadding, pointBox, FloatFormat.sub, FloatFormat.ofInt, z0, o1, m]
  simp [lockingBox, padLockingBox, pad, FloatFormat.sub, FloatFormat.add]
  simp [pointBox, h1, h2]

/-- In binary64, the corners of a tetrahedron with an edge of 1000. -/
def bigTetra : List FPoint := [⟨.fin 0, .fin 0, .fin 0⟩, ⟨.fin 1000, .fin 0, .fin 0⟩, ⟨.fin 0, .fin 3, .fin 0⟩,
  ⟨.fin 0, .fin 0, .fin 4⟩]

example : (lockingBox binary64 bigTetra).xmin = .fin (-10) ∧ (lockingBox binary64 bigTetra).ymax = .fin 13 := by
  decide +kernel

theorem bigTetra_at {p : FPoint} (hp : p ∈ bigTetra) : ∃ a b c : ℕ, (a ≤ 1000 ∧ b ≤ 1000 ∧ c ≤ 1000) ∧
    PointAt binary64 p a b c := by
  have key : ∀ a b c : ℕ, a ≤ 1000 → b ≤ 1000 → c ≤ 1000 →
      PointAt binary64 ⟨.fin a, .fin b, .fin c⟩ a b c := by
    intro a b c ha hb hc
    have g : ∀ n : ℕ, n ≤ 1000 → binary64.rnd n = .fin n := by
      intro n hn
      have := binary64_accurate.int n (by rw [abs_of_nonneg (by positivity)]; exact_mod_cast hn.trans (by norm_num))
      simpa using this
    exact ⟨rfl, g a ha, g b hb, g c hc⟩
  have m := hp
  simp only [bigTetra, List.mem_cons, List.not_mem_nil, or_false] at m
  rcases m with rfl | rfl | rfl | rfl
  · exact ⟨0, 0, 0, by omega, by simpa using key 0 0 0⟩
  · exact ⟨1000, 0, 0, by omega, by simpa using key 1000 0 0⟩
  · exact ⟨0, 3, 0, by omega, by simpa using key 0 3 0⟩
  · exact ⟨0, 0, 4, by omega, by simpa using key 0 0 4⟩

/-- The centroid of that tetrahedron keeps its distance. -/
example : Margin (lockingBox binary64 bigTetra) (1000 / 128) 250 (3 / 4) 1 := by
  have o : PointAt binary64 ⟨.fin 0, .fin 0, .fin 0⟩ 0 0 0 := by
    obtain ⟨a, b, c, -, h⟩ := bigTetra_at (p := ⟨.fin 0, .fin 0, .fin 0⟩) (by simp [bigTetra])
    have := h.1
    simp only [FPoint.mk.injEq, LD.fin.injEq] at this
    obtain ⟨h1, h2, h3⟩ := this
    rw [← h1, ← h2, ← h3] at h
    exact h
  have cx : PointAt binary64 ⟨.fin 1000, .fin 0, .fin 0⟩ 1000 0 0 := by
    obtain ⟨a, b, c, -, h⟩ := bigTetra_at (p := ⟨.fin 1000, .fin 0, .fin 0⟩) (by simp [bigTetra])
    have := h.1
    simp only [FPoint.mk.injEq, LD.fin.injEq] at this
    obtain ⟨h1, h2, h3⟩ := this
    rw [← h1, ← h2, ← h3] at h
    exact h
  have cy : PointAt binary64 ⟨.fin 0, .fin 3, .fin 0⟩ 0 3 0 := by
    obtain ⟨a, b, c, -, h⟩ := bigTetra_at (p := ⟨.fin 0, .fin 3, .fin 0⟩) (by simp [bigTetra])
    have := h.1
    simp only [FPoint.mk.injEq, LD.fin.injEq] at this
    obtain ⟨h1, h2, h3⟩ := this
    rw [← h1, ← h2, ← h3] at h
    exact h
  have cz : PointAt binary64 ⟨.fin 0, .fin 0, .fin 4⟩ 0 0 4 := by
    obtain ⟨a, b, c, -, h⟩ := bigTetra_at (p := ⟨.fin 0, .fin 0, .fin 4⟩) (by simp [bigTetra])
    have := h.1
    simp only [FPoint.mk.injEq, LD.fin.injEq] at this
    obtain ⟨h1, h2, h3⟩ := this
    rw [← h1, ← h2, ← h3] at h
    exact h
  have m1 : ⟨.fin 0, .fin 0, .fin 0⟩ ∈ bigTetra := by simp [bigTetra]
  have m2 : ⟨.fin 1000, .fin 0, .fin 0⟩ ∈ bigTetra := by simp [bigTetra]
  have m3 : ⟨.fin 0, .fin 3, .fin 0⟩ ∈ bigTetra := by simp [bigTetra]
  have m4 : ⟨.fin 0, .fin 0, .fin 4⟩ ∈ bigTetra := by simp [bigTetra]
  have := C82_margin binary64_accurate (ps := bigTetra) (e := 1000) (x := 250) (y := 3 / 4) (z := 1)
    (fun p hp => by obtain ⟨a, b, c, -, h⟩ := bigTetra_at hp; exact ⟨a, b, c, h⟩) ?_
    ⟨_, m1, _, m2, _, _, _, _, _, _, o, cx, .inl (by norm_num)⟩
    ⟨⟨_, m1, _, _, _, o, by norm_num⟩, ⟨_, m2, _, _, _, cx, by norm_num⟩, ⟨_, m1, _, _, _, o, by norm_num⟩,
      ⟨_, m3, _, _, _, cy, by norm_num⟩, ⟨_, m1, _, _, _, o, by norm_num⟩, ⟨_, m4, _, _, _, cz, by norm_num⟩⟩
  · rwa [max_eq_right (by norm_num)] at this
  · intro p hp x y z h
    obtain ⟨a, b, c, ⟨ha, hb, hc⟩, h'⟩ := bigTetra_at hp
    have e := h.1.symm.trans h'.1
    simp only [FPoint.mk.injEq, LD.fin.injEq] at e
    obtain ⟨rfl, rfl, rfl⟩ := e
    have g : ∀ n : ℕ, n ≤ 1000 → |(n : ℚ)| ≤ 2 ^ 40 := by
      intro n hn
      rw [abs_of_nonneg (by positivity)]
      exact le_trans (by exact_mod_cast hn) (by norm_num : ((1000 : ℕ) : ℚ) ≤ 2 ^ 40)
    exact ⟨g a ha, g b hb, g c hc⟩

/-- In binary64 a point at `2^60` loses the padding. -/
example : (lockingBox binary64 [⟨.fin (2 ^ 60), .fin 0, .fin 0⟩]).xmin =
    (lockingBox binary64 [⟨.fin (2 ^ 60), .fin 0, .fin 0⟩]).xmax :=
  C82_width_lost binary64_accurate.toLawful (x := 2 ^ 60) (y := 0) (z := 0)
    ⟨rfl, by decide +kernel, by decide +kernel, by decide +kernel⟩ (by decide +kernel) (by decide +kernel)

end CDT.Props

/-
Finite Markov chains: connected and lazy somewhere, hence mixing.  No code involved.
-/
import Verif.Spec.Convergence
import Mathlib.Data.Matrix.Mul
import Mathlib.Data.Matrix.Basic
import Mathlib.Analysis.SpecificLimits.Basic
import Mathlib.Topology.Algebra.Monoid

namespace CDT.Chain
open CDT Finset Matrix Filter Topology

variable {ι : Type} [Fintype ι]

/-- A stochastic matrix whose entries along the edges `E`, and at the state `s`, are at least `t`. -/
structure Bounded (E : ι → ι → Prop) (s : ι) (t : ℝ) (T : ι → ι → ℝ) : Prop where
  pos : 0 < t
  nonneg : ∀ i j, 0 ≤ T i j
  rows : ∀ i, ∑ j, T i j = 1
  edge : ∀ i j, i ≠ j → E i j → t ≤ T i j
  lazy : t ≤ T s s

theorem evolve_eq (T : ι → ι → ℝ) (d : ι → ℝ) : evolve T d = d ᵥ* (Matrix.of T) := rfl

theorem spread_nonneg (d d' : ι → ℝ) : 0 ≤ spread d d' := sum_nonneg fun _ _ => abs_nonneg _

theorem eq_of_spread {d d' : ι → ℝ} (h : spread d d' ≤ 0) : d = d' := by
  have h0 := le_antisymm h (spread_nonneg d d')
  funext j
  have := (sum_eq_zero_iff_of_nonneg fun _ _ => abs_nonneg _).1 h0 j (mem_univ j)
  exact sub_eq_zero.1 (abs_eq_zero.1 this)

theorem coord_le_spread (d d' : ι → ℝ) (j : ι) : |d j - d' j| ≤ spread d d' :=
  single_le_sum (f := fun j => |d j - d' j|) (fun _ _ => abs_nonneg _) (mem_univ j)

theorem spread_le_two {d d' : ι → ℝ} (h : IsDistribution d) (h' : IsDistribution d') : spread d d' ≤ 2 := by
  unfold spread
  calc ∑ j, |d j - d' j| ≤ ∑ j, (d j + d' j) := sum_le_sum fun j _ => by
        rw [abs_le]; constructor <;> linarith [h.1 j, h'.1 j]
    _ = 2 := by rw [sum_add_distrib, h.2, h'.2]; norm_num

theorem evolve_dist {T : ι → ι → ℝ} (h0 : ∀ i j, 0 ≤ T i j) (h1 : ∀ i, ∑ j, T i j = 1) {d : ι → ℝ}
    (h : IsDistribution d) : IsDistribution (evolve T d) := by
  refine ⟨fun j => sum_nonneg fun i _ => mul_nonneg (h.1 i) (h0 i j), ?_⟩
  unfold evolve
  rw [sum_comm]
  simp only [← mul_sum, h1, mul_one]
  exact h.2

theorem iterate_dist {T : ι → ι → ℝ} (h0 : ∀ i j, 0 ≤ T i j) (h1 : ∀ i, ∑ j, T i j = 1) {d : ι → ℝ}
    (h : IsDistribution d) (k : ℕ) : IsDistribution ((evolve T)^[k] d) := by
  induction k with
  | zero => exact h
  | succ k ih => rw [Function.iterate_succ_apply']; exact evolve_dist h0 h1 ih

section Powers
variable [DecidableEq ι]

theorem iterate_evolve (T : ι → ι → ℝ) (k : ℕ) (d : ι → ℝ) :
    (evolve T)^[k] d = evolve (fun i j => ((Matrix.of T) ^ k : Matrix ι ι ℝ) i j) d := by
  induction k with
  | zero =>
    funext j
    simp [evolve, Matrix.one_apply]
  | succ k ih =>
    rw [Function.iterate_succ_apply', ih]
    show (d ᵥ* (Matrix.of T) ^ k) ᵥ* Matrix.of T = d ᵥ* (Matrix.of T) ^ (k + 1)
    rw [Matrix.vecMul_vecMul, pow_succ]

theorem power_stochastic {T : ι → ι → ℝ} (h0 : ∀ i j, 0 ≤ T i j) (h1 : ∀ i, ∑ j, T i j = 1) (k : ℕ) :
    (∀ i j, 0 ≤ ((Matrix.of T) ^ k : Matrix ι ι ℝ) i j) ∧ ∀ i, ∑ j, ((Matrix.of T) ^ k : Matrix ι ι ℝ) i j = 1 := by
  induction k with
  | zero =>
    refine ⟨fun i j => ?_, fun i => ?_⟩
    · rw [pow_zero, Matrix.one_apply]; split_ifs <;> norm_num
    · simp [Matrix.one_apply]
  | succ k ih =>
    refine ⟨fun i j => ?_, fun i => ?_⟩
    · rw [pow_succ, Matrix.mul_apply]
      exact sum_nonneg fun l _ => mul_nonneg (ih.1 i l) (h0 l j)
    · simp only [pow_succ, Matrix.mul_apply]
      rw [sum_comm]
      simp only [← mul_sum]
      have : ∀ l, ∑ j, (Matrix.of T) l j = 1 := h1
      simp only [this, mul_one]
      exact ih.2 i

/-- However a bounded matrix is chosen, `k` steps lead from `i` to `j` with probability at least `t ^ k`. -/
def Route (E : ι → ι → Prop) (s i j : ι) (k : ℕ) : Prop :=
  ∀ t T, Bounded E s t T → t ^ k ≤ ((Matrix.of T) ^ k : Matrix ι ι ℝ) i j

variable {E : ι → ι → Prop} {s : ι}

theorem Route.trans {i j l : ι} {a b : ℕ} (h : Route E s i j a) (h' : Route E s j l b) : Route E s i l (a + b) := by
  intro t T hT
  have p := power_stochastic hT.nonneg hT.rows
  rw [pow_add, pow_add, Matrix.mul_apply]
  calc t ^ a * t ^ b ≤ ((Matrix.of T) ^ a : Matrix ι ι ℝ) i j * ((Matrix.of T) ^ b : Matrix ι ι ℝ) j l :=
        mul_le_mul (h t T hT) (h' t T hT) (pow_nonneg hT.pos.le _) ((p a).1 i j)
    _ ≤ _ := single_le_sum (f := fun j => ((Matrix.of T) ^ a : Matrix ι ι ℝ) i j * ((Matrix.of T) ^ b : Matrix ι ι ℝ) j l)
        (fun x _ => mul_nonneg ((p a).1 i x) ((p b).1 x l)) (mem_univ j)

theorem Route.here (i : ι) : Route E s i i 0 := by
  intro t T _
  simp

theorem Route.one {i j : ι} (h : E i j) (hij : i ≠ j) : Route E s i j 1 := by
  intro t T hT
  rw [pow_one, pow_one]
  exact hT.edge i j hij h

theorem Route.wait (k : ℕ) : Route E s s s k := by
  induction k with
  | zero => exact .here s
  | succ k ih => exact ih.trans fun t T hT => by rw [pow_one, pow_one]; exact hT.lazy

theorem Route.exists {i j : ι} (h : Relation.ReflTransGen E i j) : ∃ k, Route E s i j k := by
  induction h with
  | refl => exact ⟨0, .here i⟩
  | @tail b c _ hs ih =>
    obtain ⟨k, hk⟩ := ih
    by_cases e : b = c
    · exact ⟨k, e ▸ hk⟩
    · exact ⟨k + 1, hk.trans (.one hs e)⟩

/-- One number of steps is enough for all pairs. -/
theorem Route.all (hE : ∀ i j, Relation.ReflTransGen E i j) (s : ι) : ∃ N, 0 < N ∧ ∀ i j, Route E s i j N := by
  choose k hk using fun i j => Route.exists (s := s) (hE i j)
  refine ⟨univ.sup (fun i => k i s) + univ.sup (fun j => k s j) + 1, by omega, fun i j => ?_⟩
  have h1 : k i s ≤ univ.sup (fun i => k i s) := le_sup (f := fun i => k i s) (mem_univ i)
  have h2 : k s j ≤ univ.sup (fun j => k s j) := le_sup (f := fun j => k s j) (mem_univ j)
  have h := ((hk i s).trans (Route.wait (E := E) (s := s)
    (univ.sup (fun i => k i s) + univ.sup (fun j => k s j) + 1 - k i s - k s j))).trans (hk s j)
  have e : k i s + (univ.sup (fun i => k i s) + univ.sup (fun j => k s j) + 1 - k i s - k s j) + k s j =
      univ.sup (fun i => k i s) + univ.sup (fun j => k s j) + 1 := by omega
  rwa [e] at h

omit [DecidableEq ι] in
/-- A stochastic matrix with no entry below `c` brings distributions closer together. -/
theorem contract {P : ι → ι → ℝ} {c : ℝ} (hc : ∀ i j, c ≤ P i j) (h1 : ∀ i, ∑ j, P i j = 1) {d d' : ι → ℝ}
    (h : IsDistribution d) (h' : IsDistribution d') :
    spread (evolve P d) (evolve P d') ≤ (1 - Fintype.card ι * c) * spread d d' := by
  unfold spread evolve
  have e : ∀ j, ∑ i, d i * P i j - ∑ i, d' i * P i j = ∑ i, (d i - d' i) * (P i j - c) := by
    intro j
    have z : ∑ i, (d i - d' i) * c = 0 := by rw [← sum_mul, sum_sub_distrib, h.2, h'.2]; ring
    rw [← sum_sub_distrib]
    calc ∑ i, (d i * P i j - d' i * P i j) = ∑ i, ((d i - d' i) * (P i j - c) + (d i - d' i) * c) :=
          sum_congr rfl fun i _ => by ring
      _ = _ := by rw [sum_add_distrib, z, add_zero]
  calc ∑ j, |∑ i, d i * P i j - ∑ i, d' i * P i j|
      = ∑ j, |∑ i, (d i - d' i) * (P i j - c)| := sum_congr rfl fun j _ => by rw [e]
    _ ≤ ∑ j, ∑ i, |d i - d' i| * (P i j - c) := by
        refine sum_le_sum fun j _ => (abs_sum_le_sum_abs _ _).trans (sum_le_sum fun i _ => ?_)
        rw [abs_mul, abs_of_nonneg (sub_nonneg.2 (hc i j))]
    _ = ∑ i, |d i - d' i| * (1 - Fintype.card ι * c) := by
        rw [sum_comm]
        refine sum_congr rfl fun i _ => ?_
        rw [← mul_sum, sum_sub_distrib, h1, sum_const, card_univ, nsmul_eq_mul]
    _ = _ := by rw [← sum_mul, mul_comm]

/-- Connected chains that are lazy somewhere mix, at a rate that depends on the bound only. -/
theorem mixing (hE : ∀ i j, Relation.ReflTransGen E i j) (s : ι) : ∃ N, 0 < N ∧ ∀ t T, Bounded E s t T →
    0 ≤ 1 - Fintype.card ι * t ^ N ∧ 1 - Fintype.card ι * t ^ N < 1 ∧
    ∀ d d', IsDistribution d → IsDistribution d' →
      spread ((evolve T)^[N] d) ((evolve T)^[N] d') ≤ (1 - Fintype.card ι * t ^ N) * spread d d' := by
  obtain ⟨N, hN, hr⟩ := Route.all hE s
  refine ⟨N, hN, fun t T hT => ?_⟩
  have p := power_stochastic hT.nonneg hT.rows N
  have hc : ∀ i j, t ^ N ≤ ((Matrix.of T) ^ N : Matrix ι ι ℝ) i j := fun i j => hr i j t T hT
  have pos : 0 < t ^ N := pow_pos hT.pos N
  refine ⟨?_, ?_, fun d d' h h' => ?_⟩
  · have := p.2 s
    have : ∑ j : ι, t ^ N ≤ 1 := by rw [← this]; exact sum_le_sum fun j _ => hc s j
    rw [sum_const, card_univ, nsmul_eq_mul] at this
    linarith
  · have : 0 < (Fintype.card ι : ℝ) := by exact_mod_cast Fintype.card_pos_iff.2 ⟨s⟩
    have := mul_pos this pos
    linarith
  · rw [iterate_evolve, iterate_evolve]
    exact contract hc p.2 h h'

end Powers

/-- A chain that brings distributions closer together by a factor every `N` steps has exactly one
stationary distribution, and comes to it from every other. -/
theorem stationary [DecidableEq ι] [Nonempty ι] {T : ι → ι → ℝ} (h0 : ∀ i j, 0 ≤ T i j) (h1 : ∀ i, ∑ j, T i j = 1)
    (hs : ∀ d d' : ι → ℝ, spread (evolve T d) (evolve T d') ≤ spread d d')
    {N : ℕ} {r : ℝ} (r0 : 0 ≤ r) (r1 : r < 1)
    (hr : ∀ d d', IsDistribution d → IsDistribution d' →
      spread ((evolve T)^[N] d) ((evolve T)^[N] d') ≤ r * spread d d') :
    ∃ π, IsDistribution π ∧ evolve T π = π ∧ (∀ d, IsDistribution d → evolve T d = d → d = π) ∧
      (∀ d, IsDistribution d → ∀ k, spread ((evolve T)^[k] d) π ≤ 2 * r ^ (k / N)) := by
  obtain ⟨i0⟩ := ‹Nonempty ι›
  let d0 : ι → ℝ := fun i => if i = i0 then 1 else 0
  have hd0 : IsDistribution d0 := ⟨fun i => by dsimp only [d0]; split_ifs <;> norm_num, by simp [d0]⟩
  let Q := (evolve T)^[N]
  have hQd : ∀ d, IsDistribution d → IsDistribution (Q d) := fun d h => iterate_dist h0 h1 h N
  let p : ℕ → ι → ℝ := fun k => Q^[k] d0
  have hp : ∀ k, IsDistribution (p k) := by
    intro k
    induction k with
    | zero => exact hd0
    | succ k ih => show IsDistribution (Q^[k + 1] d0); rw [Function.iterate_succ_apply']; exact hQd _ ih
  have hpQ : ∀ k, p (k + 1) = Q (p k) := fun k => Function.iterate_succ_apply' Q k d0
  have gap : ∀ k, spread (p k) (p (k + 1)) ≤ 2 * r ^ k := by
    intro k
    induction k with
    | zero => rw [pow_zero, mul_one]; exact spread_le_two (hp 0) (hp 1)
    | succ k ih =>
      rw [hpQ (k + 1), hpQ k]
      refine (hr _ _ (hp k) (hQd _ (hp k))).trans ?_
      rw [← hpQ k, pow_succ]
      nlinarith
  have lim : ∀ j, ∃ x, Tendsto (fun k => p k j) atTop (𝓝 x) := by
    intro j
    have : CauchySeq fun k => p k j := by
      refine cauchySeq_of_le_geometric r 2 r1 fun k => ?_
      rw [Real.dist_eq]
      exact (coord_le_spread _ _ j).trans (gap k)
    exact cauchySeq_tendsto_of_complete this
  choose π hπ using lim
  have hπd : IsDistribution π := by
    refine ⟨fun i => ge_of_tendsto' (hπ i) fun k => (hp k).1 i, ?_⟩
    have : Tendsto (fun k => ∑ i, p k i) atTop (𝓝 (∑ i, π i)) := tendsto_finsetSum _ fun i _ => hπ i
    have e : (fun k => ∑ i, p k i) = fun _ => (1 : ℝ) := funext fun k => (hp k).2
    rw [e] at this
    exact (tendsto_nhds_unique tendsto_const_nhds this).symm
  have hQπ : Q π = π := by
    funext j
    have e : ∀ d j, Q d j = ∑ i, d i * ((Matrix.of T) ^ N : Matrix ι ι ℝ) i j := by
      intro d j
      show (evolve T)^[N] d j = _
      rw [iterate_evolve]
      rfl
    have h2 : Tendsto (fun k => Q (p k) j) atTop (𝓝 (Q π j)) := by
      simp only [e]
      exact tendsto_finsetSum _ fun i _ => (hπ i).mul_const _
    have h3 : Tendsto (fun k => p (k + 1) j) atTop (𝓝 (π j)) := (tendsto_add_atTop_iff_nat 1).2 (hπ j)
    simp only [hpQ] at h3
    exact tendsto_nhds_unique h2 h3
  have uniq : ∀ d, IsDistribution d → Q d = d → d = π := by
    intro d hd hq
    have := hr d π hd hπd
    change spread (Q d) (Q π) ≤ _ at this
    rw [hq, hQπ] at this
    refine eq_of_spread ?_
    have := spread_nonneg d π
    nlinarith
  have hTπ : evolve T π = π := by
    refine uniq _ (evolve_dist h0 h1 hπd) ?_
    show (evolve T)^[N] (evolve T π) = evolve T π
    rw [← Function.iterate_succ_apply, Function.iterate_succ_apply']
    exact congrArg (evolve T) hQπ
  have iterπ : ∀ k, (evolve T)^[k] π = π := fun k => Function.iterate_fixed hTπ k
  refine ⟨π, hπd, hTπ, fun d hd he => uniq d hd (Function.iterate_fixed he N), fun d hd k => ?_⟩
  have short : ∀ k d, IsDistribution d → spread ((evolve T)^[k] d) π ≤ spread d π := by
    intro k
    induction k with
    | zero => intro d _; exact le_rfl
    | succ k ih =>
      intro d hd
      rw [Function.iterate_succ_apply]
      refine (ih _ (evolve_dist h0 h1 hd)).trans ?_
      have := hs d π
      rwa [hTπ] at this
  have long : ∀ q d, IsDistribution d → spread ((evolve T)^[N * q] d) π ≤ 2 * r ^ q := by
    intro q
    induction q with
    | zero => intro d hd; simpa using spread_le_two hd hπd
    | succ q ih =>
      intro d hd
      rw [Nat.mul_succ, Nat.add_comm, Function.iterate_add_apply]
      have := hr _ π (iterate_dist h0 h1 hd (N * q)) hπd
      rw [iterπ] at this
      refine this.trans ?_
      have := ih d hd
      rw [pow_succ]
      nlinarith
  have e : (evolve T)^[k] d = (evolve T)^[k % N] ((evolve T)^[N * (k / N)] d) := by
    rw [← Function.iterate_add_apply, Nat.mod_add_div]
  rw [e]
  exact (short _ _ (iterate_dist h0 h1 hd _)).trans (long _ _ hd)

/-- The stationary distribution is near every distribution that `N` steps hardly change. -/
theorem near_stationary {T : ι → ι → ℝ} {N : ℕ} {r e : ℝ} (r1 : r < 1)
    (hr : ∀ d d', IsDistribution d → IsDistribution d' →
      spread ((evolve T)^[N] d) ((evolve T)^[N] d') ≤ r * spread d d') {π b : ι → ℝ} (hπ : IsDistribution π)
    (hst : evolve T π = π) (hb : IsDistribution b) (he : spread ((evolve T)^[N] b) b ≤ e) :
    spread π b ≤ e / (1 - r) := by
  have h1 := hr π b hπ hb
  rw [Function.iterate_fixed hst N] at h1
  have h2 : spread π b ≤ spread π ((evolve T)^[N] b) + spread ((evolve T)^[N] b) b := by
    unfold spread
    rw [← sum_add_distrib]
    exact sum_le_sum fun j _ => abs_sub_le _ _ _
  rw [le_div_iff₀ (by linarith)]
  linarith

end CDT.Chain

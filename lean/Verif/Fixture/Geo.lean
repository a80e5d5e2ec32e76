/-
A concrete environment whose vertices are points of rational three-space, ordered
lexicographically as CGAL does, labelled by `expected_timevalue` with initial radius 1 and
spacing 1, and a five-point Delaunay triangulation in it.  Used only as a witness.
-/
import Verif.Lemmas.Canonical
import Verif.Lemmas.Geometry
import Verif.Lemmas.Mirror
import Verif.Spec.Sound
import Mathlib.Data.Prod.Lex
import Mathlib.Algebra.Order.Ring.Rat
import Mathlib.Data.Rat.Floor
import Mathlib.Order.WithBot
import Mathlib.Tactic.Positivity
import Mathlib.Tactic.FinCases

namespace CDT.Geo
open Spec Moves

/-- Rational points and, as the largest element, the vertex at infinity. -/
def GV := WithTop (ℚ ×ₗ ℚ ×ₗ ℚ)

instance : LinearOrder GV := inferInstanceAs (LinearOrder (WithTop (ℚ ×ₗ ℚ ×ₗ ℚ)))
instance : OrderTop GV := inferInstanceAs (OrderTop (WithTop (ℚ ×ₗ ℚ ×ₗ ℚ)))

/-- The point with the given coordinates. -/
def pt (x y z : ℚ) : GV := some (toLex (x, toLex (y, z)))

/-- Coordinates (zero for the vertex at infinity). -/
def xyz : GV → ℚ × ℚ × ℚ
  | none => (0, 0, 0)
  | some p => ((ofLex p).1, (ofLex (ofLex p).2).1, (ofLex (ofLex p).2).2)

/-- Square root rounded down, by counting. -/
def isqrt (n : ℕ) : ℕ := (List.range n).countP (fun k => (k + 1) * (k + 1) ≤ n)

/-- Nearest integer to the square root. -/
def roundSqrt (q : ℚ) : ℤ := (((isqrt ⌊4 * q⌋.toNat + 1) / 2 : ℕ) : ℤ)

/-- Label of a point: slice 1 at radius 1, spacing 1. -/
def label (v : GV) : ℤ := roundSqrt ((xyz v).1 ^ 2 + (xyz v).2.1 ^ 2 + (xyz v).2.2 ^ 2)

/-- Centroid of a triangle of points. -/
def center (F : Finset GV) : GV :=
  match (canonicalPoints F).map xyz with
  | [a, b, c] => pt ((a.1 + b.1 + c.1) / 3) ((a.2.1 + b.2.1 + c.2.1) / 3) ((a.2.2 + b.2.2 + c.2.2) / 3)
  | _ => ⊤

def env : Env GV ℕ where
  geoFacet _ _ _ := true
  geoEdge _ _ _ := true
  centroid := center
  label := label
  iter _ S := canonSites S
  nth le l _ := l.insertionSort (fun a b => le a b = true)
  index n g := (g % n, g / n)
  shuffle l g := (l, g)

/-- The five points. -/
def pd : GV := pt (-1/3) (-2/3) (-2/3)
def pc : GV := pt 0 0 2
def pb : GV := pt 0 2 0
def pa : GV := pt 2 0 0
def pu : GV := pt 2 1 2

/-- A tetrahedron. -/
def tet (a b c d : GV) : Finset GV := {a, b, c, d}

/-- The tetrahedra `abcu` and `abcd` with the cells at infinity. -/
def k : Tri GV where
  inf := ⊤
  cells := {tet pa pb pc pu, tet pa pb pc pd, tet ⊤ pa pb pu, tet ⊤ pa pc pu, tet ⊤ pb pc pu,
    tet ⊤ pa pb pd, tet ⊤ pa pc pd, tet ⊤ pb pc pd}
  time := fun v => if v = ⊤ then 0 else label v
  info := fun c => if ⊤ ∈ c then 0 else if pu ∈ c then 31 else 13

theorem lawful : env.Lawful where
  iter_nodup _ S := nodup_canonSites S
  mem_iter _ _ _ := mem_canonSites
  index_lt n g h := Nat.mod_lt g h
  shuffle_perm l _ := List.Perm.refl l
  nth := by
    intro α le l i tot trans
    haveI : Std.Total (fun a b : α => le a b = true) := ⟨tot⟩
    haveI : IsTrans α (fun a b : α => le a b = true) := ⟨trans⟩
    have hs := List.pairwise_insertionSort (fun a b : α => le a b = true) l
    refine ⟨List.perm_insertionSort _ l, fun x hx => ⟨fun j y hj hy => ?_, fun j y hj hy => ?_⟩⟩
    · obtain ⟨h1, rfl⟩ := List.getElem?_eq_some_iff.1 hx
      obtain ⟨h2, rfl⟩ := List.getElem?_eq_some_iff.1 hy
      exact List.pairwise_iff_getElem.1 hs j i h2 h1 hj
    · obtain ⟨h1, rfl⟩ := List.getElem?_eq_some_iff.1 hx
      obtain ⟨h2, rfl⟩ := List.getElem?_eq_some_iff.1 hy
      exact List.pairwise_iff_getElem.1 hs i j h1 h2 hj

theorem sound : Sound env k where
  closed := isValid_iff.1 (by decide +kernel)
  labels := by decide +kernel
  times := by
    intro v _ h
    exact if_neg h
  quiet := by unfold QuietInfinity; decide +kernel

theorem fresh : FreshCentroids env k := by
  unfold FreshCentroids; decide +kernel

/-- Is the manifold returned by a move causal? -/
def view (r : Except MoveFailure (Tri GV) × ℕ) : Option Bool :=
  match r with
  | (.ok K, _) => some (decide (Causal K.inf K.time K.cells))
  | _ => none

theorem moves : view (doMove env .twoSix k 0) = some false := by decide +kernel

/-- Position of a vertex in real space. -/
noncomputable def pos (v : GV) : Point := !₂[((xyz v).1 : ℝ), ((xyz v).2.1 : ℝ), ((xyz v).2.2 : ℝ)]

theorem isqrt_spec (n : ℕ) : isqrt n * isqrt n ≤ n ∧ n < (isqrt n + 1) * (isqrt n + 1) := by
  have key : ∀ m n : ℕ, Nat.sqrt n ≤ m → (List.range m).countP (fun k => (k + 1) * (k + 1) ≤ n) = Nat.sqrt n := by
    intro m
    induction m with
    | zero => intro n h; simp at h ⊢; omega
    | succ m ih =>
      intro n h
      rw [List.range_succ, List.countP_append, List.countP_singleton]
      by_cases hm : Nat.sqrt n ≤ m
      · rw [ih n hm, if_neg]
        · simp
        · have := Nat.sqrt_lt.1 (Nat.lt_succ_of_le hm)
          simp; exact this
      · have hs : Nat.sqrt n = m + 1 := by omega
        rw [hs]
        have hall : ∀ k ∈ List.range m, decide ((k + 1) * (k + 1) ≤ n) = true := by
          intro k hk
          have : k + 1 ≤ Nat.sqrt n := by have := List.mem_range.1 hk; omega
          exact decide_eq_true (Nat.le_sqrt.1 this)
        rw [List.countP_eq_length.2 hall, if_pos]
        · simp
        · exact decide_eq_true (Nat.le_sqrt.1 (by omega))
  unfold isqrt
  rw [key n n (Nat.sqrt_le_self n)]
  exact ⟨Nat.sqrt_le n, Nat.lt_succ_sqrt n⟩

theorem roundSqrt_eq (q : ℚ) (hq : 0 ≤ q) : roundSqrt q = lround (Real.sqrt q) := by
  obtain ⟨h1, h2⟩ := isqrt_spec ⌊4 * q⌋.toNat
  unfold roundSqrt
  generalize isqrt ⌊4 * q⌋.toNat = s at h1 h2
  have hn : ((⌊4 * q⌋.toNat : ℕ) : ℤ) = ⌊4 * q⌋ := Int.toNat_of_nonneg (Int.floor_nonneg.2 (by linarith))
  generalize ⌊4 * q⌋.toNat = n at h1 h2 hn
  have lo : ((n : ℤ) : ℚ) ≤ 4 * q := by rw [hn]; exact Int.floor_le _
  have hi : 4 * q < ((n : ℤ) : ℚ) + 1 := by rw [hn]; exact Int.lt_floor_add_one _
  have loR : (n : ℝ) ≤ 4 * (q : ℝ) := by exact_mod_cast lo
  have hiR : 4 * (q : ℝ) < (n : ℝ) + 1 := by exact_mod_cast hi
  have h1R : (s : ℝ) * s ≤ n := by exact_mod_cast h1
  have h2R : (n : ℝ) + 1 ≤ (s + 1) * (s + 1) := by exact_mod_cast h2
  have hr := Real.sqrt_nonneg (q : ℝ)
  have hsq := Real.mul_self_sqrt (show (0 : ℝ) ≤ q by exact_mod_cast hq)
  generalize Real.sqrt (q : ℝ) = r at hr hsq
  have a : (s : ℝ) ≤ 2 * r := by nlinarith
  have b : 2 * r < s + 1 := by
    have : (0 : ℝ) ≤ s := Nat.cast_nonneg s
    nlinarith
  have m1 : 2 * ((s + 1) / 2) ≤ s + 1 := by omega
  have m2 : s + 1 ≤ 2 * ((s + 1) / 2) + 1 := by omega
  generalize (s + 1) / 2 = m at m1 m2
  have m1R : 2 * (m : ℝ) ≤ s + 1 := by exact_mod_cast m1
  have m2R : (s : ℝ) + 1 ≤ 2 * m + 1 := by exact_mod_cast m2
  unfold lround
  rw [if_pos hr, eq_comm, Int.floor_eq_iff]
  push_cast
  constructor <;> linarith

theorem norm_pos (v : GV) : ‖pos v‖ = Real.sqrt (((xyz v).1 ^ 2 + (xyz v).2.1 ^ 2 + (xyz v).2.2 ^ 2 : ℚ)) := by
  rw [EuclideanSpace.norm_eq, Fin.sum_univ_three]
  congr 1
  simp only [Real.norm_eq_abs, sq_abs]
  simp [pos]

theorem label_eq (v : GV) : label v = timevalue 1 1 ‖pos v‖ := by
  rw [norm_pos]
  unfold label timevalue
  rw [roundSqrt_eq _ (by positivity)]
  congr 1
  ring

theorem center_eq {x y z : GV} (hxy : x ≠ y) (hxz : x ≠ z) (hyz : y ≠ z) :
    pos (center {x, y, z}) = centroid (pos x) (pos y) (pos z) := by
  have hp : ((canonicalPoints ({x, y, z} : Finset GV)).map xyz).Perm [xyz x, xyz y, xyz z] := by
    have : (canonicalPoints ({x, y, z} : Finset GV)).Perm [x, y, z] := by
      refine (List.perm_ext_iff_of_nodup (nodup_canonicalPoints _) ?_).2 ?_
      · simp [hxy, hxz, hyz]
      · intro a; simp [mem_canonicalPoints]
    exact this.map xyz
  unfold center
  rcases hl : (canonicalPoints ({x, y, z} : Finset GV)).map xyz with _ | ⟨a, _ | ⟨b, _ | ⟨c, _ | ⟨d, l⟩⟩⟩⟩ <;>
    rw [hl] at hp <;> try (have := hp.length_eq; simp at this; done)
  have s1 := (hp.map (·.1)).sum_eq
  have s2 := (hp.map (·.2.1)).sum_eq
  have s3 := (hp.map (·.2.2)).sum_eq
  simp only [List.map_cons, List.map_nil, List.sum_cons, List.sum_nil, add_zero, ← add_assoc] at s1 s2 s3
  dsimp only
  rw [s1, s2, s3]
  ext i
  fin_cases i <;> simp [pos, centroid, pt, xyz] <;> ring

end CDT.Geo

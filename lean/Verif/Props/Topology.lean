/-
C84, C85: moves do not change the topology of the universe or of its spatial slices.
-/
import Verif.Lemmas.Pachner
import Verif.Props.Preserve
import Verif.Fixture.Sphere

namespace CDT.Props
open CDT Spec Cavity Moves

variable {V G : Type} [LinearOrder V] {env : Env V G}

/-! ### The five moves as bistellar moves of the whole complex -/

omit [LinearOrder V] in
theorem inj5 {p q x y z : V} (h : [p, q, x, y, z].Nodup) : Function.Injective ![p, q, x, y, z] := by
  have := List.nodup_iff_injective_get.1 h
  intro i j e
  fin_cases i <;> fin_cases j <;> simp_all

omit [LinearOrder V] in
theorem inj6 {a b x y u d : V} (h : [a, b, x, y, u, d].Nodup) : Function.Injective ![a, b, x, y, u, d] := by
  intro i j e
  fin_cases i <;> fin_cases j <;> simp_all

theorem bistellar23 {inf : V} {time : V → ℤ} {K K' : Finset (Finset V)} {p q x y z : V}
    (h : Move23 inf time K K' p q x y z) : Bistellar 3 {x, y, z} {p, q} (faces K) (faces K') := by
  have hf := inj5 h.distinct
  have e1 : placed ![p, q, x, y, z] (joinBoundary {2, 3, 4} {0, 1}) = {{x, y, z}, {p, x, y, z}, {q, x, y, z}} := by
    rw [show joinBoundary ({2, 3, 4} : Finset (Fin 5)) {0, 1} = {{2, 3, 4}, {0, 2, 3, 4}, {1, 2, 3, 4}} by decide +kernel]
    simp [placed, Finset.image_insert]
  have e2 : placed ![p, q, x, y, z] (joinBoundary {0, 1} {2, 3, 4}) =
      {{p, q}, {p, q, x}, {p, q, y}, {p, q, z}, {p, q, x, y}, {p, q, x, z}, {p, q, y, z}} := by
    rw [show joinBoundary ({0, 1} : Finset (Fin 5)) {2, 3, 4} =
      {{0, 1}, {0, 1, 2}, {0, 1, 3}, {0, 1, 4}, {0, 1, 2, 3}, {0, 1, 2, 4}, {0, 1, 3, 4}} by decide +kernel]
    simp [placed, Finset.image_insert]
  have := flip_one (d := 3) hf (A := {2, 3, 4}) (B := {0, 1}) (by decide) (K := K) (K' := K')
    (by rw [e1, e2]; exact h.simplices)
  simpa [Finset.image_insert] using this

theorem bistellar32 {inf : V} {time : V → ℤ} {K K' : Finset (Finset V)} {p q x y z : V}
    (h : Move32 inf time K K' p q x y z) : Bistellar 3 {p, q} {x, y, z} (faces K) (faces K') := by
  have hf := inj5 h.distinct
  have e1 : placed ![p, q, x, y, z] (joinBoundary {2, 3, 4} {0, 1}) = {{x, y, z}, {p, x, y, z}, {q, x, y, z}} := by
    rw [show joinBoundary ({2, 3, 4} : Finset (Fin 5)) {0, 1} = {{2, 3, 4}, {0, 2, 3, 4}, {1, 2, 3, 4}} by decide +kernel]
    simp [placed, Finset.image_insert]
  have e2 : placed ![p, q, x, y, z] (joinBoundary {0, 1} {2, 3, 4}) =
      {{p, q}, {p, q, x}, {p, q, y}, {p, q, z}, {p, q, x, y}, {p, q, x, z}, {p, q, y, z}} := by
    rw [show joinBoundary ({0, 1} : Finset (Fin 5)) {2, 3, 4} =
      {{0, 1}, {0, 1, 2}, {0, 1, 3}, {0, 1, 4}, {0, 1, 2, 3}, {0, 1, 2, 4}, {0, 1, 3, 4}} by decide +kernel]
    simp [placed, Finset.image_insert]
  have := flip_one (d := 3) hf (A := {0, 1}) (B := {2, 3, 4}) (by decide) (K := K) (K' := K')
    (by rw [e1, e2]; exact h.simplices)
  simpa [Finset.image_insert] using this

/-- The labels of the simplices lost in a (2,6) move at `x y z u d m`, and of those gained. -/
def lost26 : Finset (Finset (Fin 6)) := {{0, 1, 2}, {0, 1, 2, 3}, {0, 1, 2, 4}}
def gained26 : Finset (Finset (Fin 6)) :=
  {{5}, {0, 5}, {1, 5}, {2, 5}, {5, 3}, {5, 4},
    {0, 1, 5}, {0, 2, 5}, {1, 2, 5}, {0, 5, 3}, {1, 5, 3}, {2, 5, 3}, {0, 5, 4}, {1, 5, 4}, {2, 5, 4}} ∪
  {{0, 1, 5, 3}, {0, 2, 5, 3}, {1, 2, 5, 3}, {0, 1, 5, 4}, {0, 2, 5, 4}, {1, 2, 5, 4}}

theorem placed_lost26 (x y z u d m : V) : placed ![x, y, z, u, d, m] lost26 =
    {{x, y, z}, {x, y, z, u}, {x, y, z, d}} := by
  simp [placed, lost26, Finset.image_insert]

theorem placed_gained26 (x y z u d m : V) : placed ![x, y, z, u, d, m] gained26 =
    starOf x y z u d m ∪ sixAround x y z u d m := by
  have gen : ∀ f : Fin 6 → V, placed f gained26 =
      starOf (f 0) (f 1) (f 2) (f 3) (f 4) (f 5) ∪ sixAround (f 0) (f 1) (f 2) (f 3) (f 4) (f 5) := by
    intro f
    simp only [placed, gained26, starOf, sixAround, Finset.image_union, Finset.image_insert, Finset.image_singleton]
  exact gen _

theorem bistellar26 {inf : V} {time : V → ℤ} {K K' : Finset (Finset V)} {x y z u d m : V}
    (h : Move26 inf time K K' x y z u d m) :
    ∃ S, Bistellar 3 {x, y, z, u} {m} (faces K) S ∧ Bistellar 3 {x, y, z} {d, m} S (faces K') := by
  have := flip_two (d := 3) (inj6 h.distinct) (L := lost26) (G := gained26) (A := {0, 1, 2, 3}) (B := {5})
    (C := {0, 1, 2}) (D := {4, 5}) (by decide +kernel) (K := K) (K' := K')
    (by rw [placed_lost26, placed_gained26]; exact h.simplices)
  simpa [Finset.image_insert] using this

theorem bistellar62 {inf : V} {time : V → ℤ} {K K' : Finset (Finset V)} {x y z u d m : V}
    (h : Move62 inf time K K' x y z u d m) :
    ∃ S, Bistellar 3 {d, m} {x, y, z} (faces K) S ∧ Bistellar 3 {m} {x, y, z, u} S (faces K') := by
  have := flip_two (d := 3) (inj6 h.distinct) (L := gained26) (G := lost26) (A := {4, 5}) (B := {0, 1, 2})
    (C := {5}) (D := {0, 1, 2, 3}) (by decide +kernel) (K := K) (K' := K')
    (by rw [placed_lost26, placed_gained26]; exact h.simplices)
  simpa [Finset.image_insert] using this

def lost44 : Finset (Finset (Fin 6)) :=
  {{0, 1}, {0, 1, 2}, {0, 1, 3}, {0, 1, 4}, {0, 1, 5}, {0, 1, 2, 4}, {0, 1, 3, 4}, {0, 1, 2, 5}, {0, 1, 3, 5}}
def gained44 : Finset (Finset (Fin 6)) :=
  {{2, 3}, {2, 3, 0}, {2, 3, 1}, {2, 3, 4}, {2, 3, 5}, {2, 3, 0, 4}, {2, 3, 1, 4}, {2, 3, 0, 5}, {2, 3, 1, 5}}

theorem bistellar44 {inf : V} {time : V → ℤ} {K K' : Finset (Finset V)} {a b x y u d : V}
    (h : Move44 inf time K K' a b x y u d) :
    ∃ S, Bistellar 3 {a, b, u} {x, y} (faces K) S ∧ Bistellar 3 {a, b} {x, y, d} S (faces K') := by
  have e1 : placed ![a, b, x, y, u, d] lost44 = {{a, b}, {a, b, x}, {a, b, y}, {a, b, u}, {a, b, d},
      {a, b, x, u}, {a, b, y, u}, {a, b, x, d}, {a, b, y, d}} := by
    simp [placed, lost44, Finset.image_insert]
  have e2 : placed ![a, b, x, y, u, d] gained44 = {{x, y}, {x, y, a}, {x, y, b}, {x, y, u}, {x, y, d},
      {x, y, a, u}, {x, y, b, u}, {x, y, a, d}, {x, y, b, d}} := by
    simp [placed, gained44, Finset.image_insert]
  have := flip_two (d := 3) (inj6 h.distinct) (L := lost44) (G := gained44) (A := {0, 1, 4}) (B := {2, 3})
    (C := {0, 1}) (D := {2, 3, 5}) (by decide +kernel) (K := K) (K' := K')
    (by rw [e1, e2]; exact h.simplices)
  simpa [Finset.image_insert] using this

/-- Every successful move is one or two bistellar moves away from the vertex at infinity. -/
theorem C84_move (hl : env.Lawful) {mv : MoveType} {K K' : Tri V} (hK : Sound env K)
    (hfr : mv = .twoSix → FreshCentroids env K) (h : MoveReturns env mv K K') :
    K'.inf = K.inf ∧ PachnerEquivalent 3 K.inf (faces K.cells) (faces K'.cells) := by
  cases mv with
  | twoThree =>
    obtain ⟨hi, ⟨p, q, x, y, z, hm⟩, -, -⟩ := C19_two_three_effect hl hK h
    refine ⟨hi, .single ⟨_, _, ?_, bistellar23 hm⟩⟩
    have := hm.finite
    simp only [List.mem_cons, List.not_mem_nil, or_false, not_or] at this
    simp; tauto
  | threeTwo =>
    obtain ⟨hi, ⟨p, q, x, y, z, hm⟩, -, -⟩ := C20_three_two_effect hl hK h
    refine ⟨hi, .single ⟨_, _, ?_, bistellar32 hm⟩⟩
    have := hm.finite
    simp only [List.mem_cons, List.not_mem_nil, or_false, not_or] at this
    simp; tauto
  | twoSix =>
    obtain ⟨hi, ⟨x, y, z, u, d, m, hm, -, -⟩, -, -⟩ := C21_two_six_subdivision hl hK (hfr rfl) h
    obtain ⟨S, h1, h2⟩ := bistellar26 hm
    have := hm.finite
    simp only [List.mem_cons, List.not_mem_nil, or_false, not_or] at this
    refine ⟨hi, .tail (.single ⟨_, _, ?_, h1⟩) ⟨_, _, ?_, h2⟩⟩ <;> simp <;> tauto
  | sixTwo =>
    obtain ⟨hi, ⟨x, y, z, u, d, m, hm⟩, -, -⟩ := C22_six_two_effect hl hK h
    obtain ⟨S, h1, h2⟩ := bistellar62 hm
    have := hm.finite
    simp only [List.mem_cons, List.not_mem_nil, or_false, not_or] at this
    refine ⟨hi, .tail (.single ⟨_, _, ?_, h1⟩) ⟨_, _, ?_, h2⟩⟩ <;> simp <;> tauto
  | fourFour =>
    obtain ⟨hi, ⟨a, b, x, y, u, d, hm⟩, -, -⟩ := C23_four_four_effect hl hK h
    obtain ⟨S, h1, h2⟩ := bistellar44 hm
    have := hm.finite
    simp only [List.mem_cons, List.not_mem_nil, or_false, not_or] at this
    refine ⟨hi, .tail (.single ⟨_, _, ?_, h1⟩) ⟨_, _, ?_, h2⟩⟩ <;> simp <;> tauto

theorem step_inf (hl : env.Lawful) {K K' : Tri V} (hK : Sound env K) (h : Step env K K') :
    K'.inf = K.inf ∧ PachnerEquivalent 3 K.inf (faces K.cells) (faces K'.cells) := by
  cases h with
  | other hmv h => exact C84_move hl hK (fun e => absurd e hmv) h
  | twoSix hfr h _ => exact C84_move hl hK (fun _ => hfr) h

/-- C84.  Every finite history of successful moves, in any order and with any random choices, leads
from a triangulation to one that finitely many bistellar moves of the interior connect with it. -/
theorem C84_history (hl : env.Lawful) {K K' : Tri V} (hK : Sound env K)
    (h : Relation.ReflTransGen (Step env) K K') :
    K'.inf = K.inf ∧ PachnerEquivalent 3 K.inf (faces K.cells) (faces K'.cells) := by
  induction h with
  | refl => exact ⟨rfl, .refl⟩
  | tail hr hs ih =>
    obtain ⟨hi, hp⟩ := step_inf hl (C24_history_preserves hl hK hr).1 hs
    refine ⟨hi.trans ih.1, ih.2.trans ?_⟩
    rw [ih.1] at hp
    exact hp

/-- The relation is an equivalence on complexes: the moves back are bistellar moves as well. -/
theorem C84_reversible {d : ℕ} {inf : V} {S S' : Finset (Finset V)} (hS : IsComplex S)
    (h : PachnerEquivalent d inf S S') : IsComplex S' ∧ PachnerEquivalent d inf S' S := by
  induction h with
  | refl => exact ⟨hS, .refl⟩
  | tail _ hs ih =>
    obtain ⟨A, B, hi, hb⟩ := hs
    exact ⟨hb.complex ih.1, .head ⟨B, A, by rwa [Finset.union_comm], hb.symm ih.1⟩ ih.2⟩

/-- What the relation keeps: the Euler characteristic, closedness, and everything at infinity. -/
theorem C84_invariants {d : ℕ} {inf : V} {S S' : Finset (Finset V)} (hS : IsComplex S)
    (h : PachnerEquivalent d inf S S') :
    eulerOf S' = eulerOf S ∧ (ClosedOfDim d S → ClosedOfDim d S') ∧
      S'.filter (inf ∈ ·) = S.filter (inf ∈ ·) := by
  have main : IsComplex S' ∧ eulerOf S' = eulerOf S ∧ (ClosedOfDim d S → ClosedOfDim d S') ∧
      S'.filter (inf ∈ ·) = S.filter (inf ∈ ·) := by
    induction h with
    | refl => exact ⟨hS, rfl, id, rfl⟩
    | tail _ hs ih =>
      obtain ⟨A, B, hi, hb⟩ := hs
      refine ⟨hb.complex ih.1, (hb.euler ih.1).trans ih.2.1, fun hc => hb.closed ih.1 (ih.2.2.1 hc), ?_⟩
      rw [← ih.2.2.2]
      have h1 : ∀ s ∈ joinBoundary A B, inf ∉ s := fun s hs k =>
        hi (((mem_joinBoundary' hb.disjoint).1 hs).2.1 k)
      have h2 : ∀ s ∈ joinBoundary B A, inf ∉ s := fun s hs k =>
        hi (by rw [Finset.union_comm]; exact ((mem_joinBoundary' hb.disjoint.symm).1 hs).2.1 k)
      ext s
      rw [hb.result]
      simp only [Finset.mem_filter, Finset.mem_union, Finset.mem_sdiff]
      constructor
      · rintro ⟨⟨k, -⟩ | k, k'⟩
        · exact ⟨k, k'⟩
        · exact absurd k' (h2 s k)
      · rintro ⟨k, k'⟩
        exact ⟨.inl ⟨k, fun j => h1 s j k'⟩, k'⟩
  exact main.2

/-! ### The spatial slices -/

/-- The slices of `K'` are those of `K`. -/
def SlicesSame (K K' : Tri V) : Prop :=
  ∀ t, sliceAt K'.inf K'.time K'.cells t = sliceAt K.inf K.time K.cells t

/-- The slice of `K` at time `t` undergoes the bistellar move at `A`, `B`; this slice is an
inner one, with vertices above and below; all other slices stay. -/
structure SliceFlip (K K' : Tri V) (t : ℤ) (A B : Finset V) : Prop where
  flip : Bistellar 2 A B (sliceAt K.inf K.time K.cells t) (sliceAt K'.inf K'.time K'.cells t)
  others : ∀ s ≠ t, sliceAt K'.inf K'.time K'.cells s = sliceAt K.inf K.time K.cells s
  above : ∃ v ∈ vertices K.cells, v ≠ K.inf ∧ K.time v = t + 1
  below : ∃ v ∈ vertices K.cells, v ≠ K.inf ∧ K.time v = t - 1

section Slices
variable {inf : V} {τ : V → ℤ} {L Gn K K' : Finset (Finset V)} {t : ℤ}

theorem isComplex_slice (inf : V) (τ : V → ℤ) (K : Finset (Finset V)) (t : ℤ) : IsComplex (sliceAt inf τ K t) := by
  intro s hs r hr
  unfold sliceAt at *
  rw [Finset.mem_filter] at *
  exact ⟨isComplex_faces K s hs.1 r hr, fun k => hs.2.1 (hr k), fun v hv => hs.2.2 v (hr hv)⟩

theorem slice_times {τ' : V → ℤ} (h : ∀ v ∈ vertices K, v ≠ inf → τ' v = τ v) :
    sliceAt inf τ' K t = sliceAt inf τ K t := by
  unfold sliceAt
  refine Finset.filter_congr fun s hs => and_congr_right fun hi => ?_
  refine forall_congr' fun v => forall_congr' fun hv => ?_
  obtain ⟨c, hc, hsc⟩ := mem_faces.1 hs
  rw [h v (mem_vertices.2 ⟨c, hc, hsc hv⟩) (fun e => hi (e ▸ hv))]

theorem slice_same (h : FaceChange L Gn K K') (hL : ∀ s ∈ L, ¬ ∀ v ∈ s, τ v = t) (hG : ∀ s ∈ Gn, ¬ ∀ v ∈ s, τ v = t) :
    sliceAt inf τ K' t = sliceAt inf τ K t := by
  unfold sliceAt
  rw [h.result]
  ext s
  simp only [Finset.mem_filter, Finset.mem_union, Finset.mem_sdiff]
  have h1 := hL s; have h2 := hG s
  tauto

theorem slice_flip {n : ℕ} {f : Fin n → V} (hf : Function.Injective f) {L Gn : Finset (Finset (Fin n))}
    (h : FaceChange (placed f L) (placed f Gn) K K') (hinf : ∀ i, f i ≠ inf) {T : Finset (Fin n)}
    (hT : ∀ i, τ (f i) = t ↔ i ∈ T) {A B : Finset (Fin n)} (hl : Labels 2 A B) (hA : A ∈ L)
    (hB : B ∈ Gn) (hL : L.filter (· ⊆ T) = joinBoundary A B) (hG : Gn.filter (· ⊆ T) = joinBoundary B A) :
    Bistellar 2 (A.image f) (B.image f) (sliceAt inf τ K t) (sliceAt inf τ K' t) := by
  obtain ⟨h1, h2, h3⟩ := labels_placed hf hl
  have pl : ∀ X : Finset (Finset (Fin n)), (placed f X).filter (fun s => inf ∉ s ∧ ∀ v ∈ s, τ v = t) =
      placed f (X.filter (· ⊆ T)) := by
    intro X
    ext s
    simp only [placed, Finset.mem_filter, Finset.mem_image]
    constructor
    · rintro ⟨⟨r, hr, rfl⟩, -, k⟩
      exact ⟨r, ⟨hr, fun i hi => (hT i).1 (k _ (Finset.mem_image_of_mem f hi))⟩, rfl⟩
    · rintro ⟨r, ⟨hr, k⟩, rfl⟩
      refine ⟨⟨r, hr, rfl⟩, ?_, ?_⟩
      · intro hi
        obtain ⟨i, -, e⟩ := Finset.mem_image.1 hi
        exact hinf i e
      · intro v hv
        obtain ⟨i, hi, rfl⟩ := Finset.mem_image.1 hv
        exact (hT i).2 (k hi)
  have pL := pl L
  have pG := pl Gn
  rw [hL, ← placed_joinBoundary hf] at pL
  rw [hG, ← placed_joinBoundary hf] at pG
  refine ⟨h1, h2, h3, ?_, ?_, ?_⟩
  · rw [← pL]
    ext s
    unfold sliceAt
    simp only [Finset.mem_filter]
    constructor
    · rintro ⟨⟨k1, k2⟩, k3⟩
      exact ⟨h.lost ((mem_placed hf).2 hA) k1 k3, k2⟩
    · rintro ⟨k1, k2⟩
      refine ⟨⟨h.present k1, k2⟩, ?_⟩
      have : s ∈ joinBoundary (A.image f) (B.image f) := by rw [← pL]; exact Finset.mem_filter.2 ⟨k1, k2⟩
      exact sub_of_joinBoundary this
  · intro k
    exact h.absent _ ((mem_placed hf).2 hB) (Finset.mem_filter.1 k).1
  · rw [← pL, ← pG]
    unfold sliceAt
    rw [h.result]
    ext s
    simp only [Finset.mem_filter, Finset.mem_union, Finset.mem_sdiff]
    tauto

theorem slice_other {n : ℕ} {f : Fin n → V} {L Gn : Finset (Finset (Fin n))}
    (h : FaceChange (placed f L) (placed f Gn) K K') {T : Finset (Fin n)} (hT : ∀ i ∈ T, τ (f i) = t)
    (hL : ∀ s ∈ L, (s ∩ T).Nonempty) (hG : ∀ s ∈ Gn, (s ∩ T).Nonempty) {t' : ℤ} (ht : t' ≠ t) :
    sliceAt inf τ K' t' = sliceAt inf τ K t' := by
  have key : ∀ X : Finset (Finset (Fin n)), (∀ s ∈ X, (s ∩ T).Nonempty) → ∀ s ∈ placed f X, ¬ ∀ v ∈ s, τ v = t' := by
    intro X hX s hs k
    obtain ⟨r, hr, rfl⟩ := Finset.mem_image.1 hs
    obtain ⟨i, hi⟩ := hX r hr
    obtain ⟨i1, i2⟩ := Finset.mem_inter.1 hi
    exact ht ((k _ (Finset.mem_image_of_mem f i1)).symm.trans (hT i i2))
  exact slice_same h (key L hL) (key Gn hG)

end Slices

theorem slices_of_times {K K' : Tri V} (hi : K'.inf = K.inf) (hs : SameTimes K K') (t : ℤ) :
    sliceAt K'.inf K'.time K'.cells t = sliceAt K.inf K.time K'.cells t := by
  rw [hi]
  exact slice_times hs

/-- C85, (2,3) moves: no slice changes. -/
theorem C85_two_three (hl : env.Lawful) {K K' : Tri V} (hK : Sound env K) (h : MoveReturns env .twoThree K K') :
    SlicesSame K K' := by
  obtain ⟨hi, ⟨p, q, x, y, z, hm⟩, -, hs⟩ := C19_two_three_effect hl hK h
  intro t
  rw [slices_of_times hi hs]
  refine slice_same hm.simplices ?_ ?_
  · intro s hs k
    refine hm.triangle fun u hu v hv => ?_
    have : {x, y, z} ⊆ s := by
      simp only [Finset.mem_insert, Finset.mem_singleton] at hs
      rcases hs with rfl | rfl | rfl <;> intro w <;> simp <;> tauto
    rw [k u (this hu), k v (this hv)]
  · intro s hs k
    refine hm.edge fun u hu v hv => ?_
    have : {p, q} ⊆ s := by
      simp only [Finset.mem_insert, Finset.mem_singleton] at hs
      rcases hs with rfl | rfl | rfl | rfl | rfl | rfl | rfl <;> intro w <;> simp <;> tauto
    rw [k u (this hu), k v (this hv)]

/-- C85, (3,2) moves: no slice changes. -/
theorem C85_three_two (hl : env.Lawful) {K K' : Tri V} (hK : Sound env K) (h : MoveReturns env .threeTwo K K') :
    SlicesSame K K' := by
  obtain ⟨hi, ⟨p, q, x, y, z, hm⟩, -, hs⟩ := C20_three_two_effect hl hK h
  intro t
  rw [slices_of_times hi hs]
  refine slice_same hm.simplices ?_ ?_
  · intro s hs k
    refine hm.edge fun u hu v hv => ?_
    have : {p, q} ⊆ s := by
      simp only [Finset.mem_insert, Finset.mem_singleton] at hs
      rcases hs with rfl | rfl | rfl | rfl | rfl | rfl | rfl <;> intro w <;> simp <;> tauto
    rw [k u (this hu), k v (this hv)]
  · intro s hs k
    refine hm.triangle fun u hu v hv => ?_
    have : {x, y, z} ⊆ s := by
      simp only [Finset.mem_insert, Finset.mem_singleton] at hs
      rcases hs with rfl | rfl | rfl <;> intro w <;> simp <;> tauto
    rw [k u (this hu), k v (this hv)]

theorem vert_of_cell {K : Finset (Finset V)} {c : Finset V} {v : V} (hc : c ∈ K) (hv : v ∈ c) : v ∈ vertices K :=
  mem_vertices.2 ⟨c, hc, hv⟩

/-- C85, (4,4) moves: one inner slice has a diagonal flipped, the others stay. -/
theorem C85_four_four (hl : env.Lawful) {K K' : Tri V} (hK : Sound env K) (h : MoveReturns env .fourFour K K') :
    ∃ t a b x y, [a, b, x, y].Nodup ∧ K.inf ∉ [a, b, x, y] ∧ SliceFlip K K' t {a, b} {x, y} := by
  obtain ⟨hi, ⟨a, b, x, y, u, d, hm⟩, -, hs⟩ := C23_four_four_effect hl hK h
  have hn := hm.distinct
  have hf := hm.finite
  have e1 : placed ![a, b, x, y, u, d] lost44 = {{a, b}, {a, b, x}, {a, b, y}, {a, b, u}, {a, b, d},
      {a, b, x, u}, {a, b, y, u}, {a, b, x, d}, {a, b, y, d}} := by
    simp [placed, lost44, Finset.image_insert]
  have e2 : placed ![a, b, x, y, u, d] gained44 = {{x, y}, {x, y, a}, {x, y, b}, {x, y, u}, {x, y, d},
      {x, y, a, u}, {x, y, b, u}, {x, y, a, d}, {x, y, b, d}} := by
    simp [placed, gained44, Finset.image_insert]
  have hch := hm.simplices
  rw [← e1, ← e2] at hch
  obtain ⟨t1, t2, t3⟩ := hm.slice
  have t4 := hm.above
  have t5 := hm.below
  have hinf : ∀ i, ![a, b, x, y, u, d] i ≠ K.inf := by
    simp only [List.mem_cons, List.not_mem_nil, or_false, not_or] at hf
    intro i e
    fin_cases i <;> simp_all
  refine ⟨K.time a, a, b, x, y, ?_, ?_, ⟨?_, ?_, ⟨u, ?_, ?_, t4⟩, ⟨d, ?_, ?_, t5⟩⟩⟩
  · simp only [List.nodup_cons, List.mem_cons, List.not_mem_nil, or_false, not_or] at hn ⊢
    simp; tauto
  · simp only [List.mem_cons, List.not_mem_nil, or_false, not_or] at hf ⊢
    tauto
  · rw [slices_of_times hi hs]
    have := slice_flip (τ := K.time) (t := K.time a) (inj6 hn) hch hinf (T := {0, 1, 2, 3})
      (by intro i; fin_cases i <;> simp [t1, t2, t3, t4, t5]) (A := {0, 1}) (B := {2, 3}) (by decide) (by decide) (by decide)
      (by decide +kernel) (by decide +kernel)
    simpa [Finset.image_insert] using this
  · intro s hne
    rw [slices_of_times hi hs]
    exact slice_other (t := K.time a) hch (T := {0, 1, 2, 3}) (by intro i; fin_cases i <;> simp [t1, t2, t3])
      (by decide) (by decide) hne
  · exact vert_of_cell (hm.cells.present (by simp : {a, b, x, u} ∈ _)) (by simp)
  · exact hinf 4
  · exact vert_of_cell (hm.cells.present (by simp : {a, b, x, d} ∈ _)) (by simp)
  · exact hinf 5

/-- C85, accepted (2,6) moves: one triangle of an inner slice is subdivided, the other slices stay. -/
theorem C85_two_six (hl : env.Lawful) {K K' : Tri V} (hK : Sound env K) (hfr : FreshCentroids env K)
    (h : MoveReturns env .twoSix K K') (ha : Accepted env .twoSix K K') :
    ∃ t x y z m, [x, y, z, m].Nodup ∧ K.inf ∉ [x, y, z, m] ∧ SliceFlip K K' t {x, y, z} {m} := by
  obtain ⟨cs, cs', hb, hb', hc⟩ := ha
  obtain ⟨x, y, z, u, d, m, hm, hmt⟩ := (C21_check_move_iff_slice hl hK hfr h hb hb' 0 0).1 (hc 0 0)
  obtain ⟨hi, -, -, old⟩ := C21_two_six_subdivision hl hK hfr h
  have hn := hm.distinct
  have hf := hm.finite
  have hch := hm.simplices
  rw [← placed_lost26, ← placed_gained26] at hch
  obtain ⟨t1, t2⟩ := hm.slice
  have t4 := hm.above
  have t5 := hm.below
  have hinf : ∀ i, ![x, y, z, u, d, m] i ≠ K.inf := by
    simp only [List.mem_cons, List.not_mem_nil, or_false, not_or] at hf
    intro i e
    fin_cases i <;> simp_all
  have c1 : {x, y, z, u} ∈ K.cells := hm.cells.present (by simp)
  have c2 : {x, y, z, d} ∈ K.cells := hm.cells.present (by simp)
  have ox := old x (vert_of_cell c1 (by simp)) (hinf 0)
  have oy := (old y (vert_of_cell c1 (by simp)) (hinf 1)).trans t1
  have oz := (old z (vert_of_cell c1 (by simp)) (hinf 2)).trans t2
  have ou := (old u (vert_of_cell c1 (by simp)) (hinf 3)).trans t4
  have od := (old d (vert_of_cell c2 (by simp)) (hinf 4)).trans t5
  have same : ∀ t, sliceAt K.inf K.time K.cells t = sliceAt K.inf K'.time K.cells t := fun t => (slice_times old).symm
  refine ⟨K.time x, x, y, z, m, ?_, ?_, ⟨?_, ?_, ⟨u, vert_of_cell c1 (by simp), hinf 3, t4⟩,
    ⟨d, vert_of_cell c2 (by simp), hinf 4, t5⟩⟩⟩
  · simp only [List.nodup_cons, List.mem_cons, List.not_mem_nil, or_false, not_or] at hn ⊢
    simp; tauto
  · simp only [List.mem_cons, List.not_mem_nil, or_false, not_or] at hf ⊢
    tauto
  · rw [same, hi]
    have := slice_flip (τ := K'.time) (t := K.time x) (inj6 hn) hch hinf (T := {0, 1, 2, 5})
      (by intro i; fin_cases i <;> simp [ox, oy, oz, ou, od, hmt]) (A := {0, 1, 2}) (B := {5}) (by decide) (by decide)
      (by decide) (by decide +kernel) (by decide +kernel)
    simpa [Finset.image_insert] using this
  · intro s hne
    rw [same, hi]
    exact slice_other (t := K.time x) hch (T := {0, 1, 2, 5}) (by intro i; fin_cases i <;> simp [ox, oy, oz, hmt])
      (by decide) (by decide) hne

/-- C85, (6,2) moves: one vertex of degree three of an inner slice is removed, the other slices stay. -/
theorem C85_six_two (hl : env.Lawful) {K K' : Tri V} (hK : Sound env K) (h : MoveReturns env .sixTwo K K') :
    ∃ t x y z m, [x, y, z, m].Nodup ∧ K.inf ∉ [x, y, z, m] ∧ SliceFlip K K' t {m} {x, y, z} := by
  obtain ⟨hi, ⟨x, y, z, u, d, m, hm⟩, -, hs⟩ := C22_six_two_effect hl hK h
  have hn := hm.distinct
  have hf := hm.finite
  have hch := hm.simplices
  rw [← placed_lost26, ← placed_gained26] at hch
  obtain ⟨t1, t2, t3⟩ := hm.slice
  have t4 := hm.above
  have t5 := hm.below
  have hinf : ∀ i, ![x, y, z, u, d, m] i ≠ K.inf := by
    simp only [List.mem_cons, List.not_mem_nil, or_false, not_or] at hf
    intro i e
    fin_cases i <;> simp_all
  have c1 : {x, y, m, u} ∈ K.cells := hm.cells.present (by simp [sixAround])
  have c2 : {x, y, m, d} ∈ K.cells := hm.cells.present (by simp [sixAround])
  refine ⟨K.time x, x, y, z, m, ?_, ?_, ⟨?_, ?_, ⟨u, vert_of_cell c1 (by simp), hinf 3, t4⟩,
    ⟨d, vert_of_cell c2 (by simp), hinf 4, t5⟩⟩⟩
  · simp only [List.nodup_cons, List.mem_cons, List.not_mem_nil, or_false, not_or] at hn ⊢
    simp; tauto
  · simp only [List.mem_cons, List.not_mem_nil, or_false, not_or] at hf ⊢
    tauto
  · rw [slices_of_times hi hs]
    have := slice_flip (τ := K.time) (t := K.time x) (inj6 hn) hch hinf (T := {0, 1, 2, 5})
      (by intro i; fin_cases i <;> simp [t1, t2, t3, t4, t5]) (A := {5}) (B := {0, 1, 2}) (by decide) (by decide)
      (by decide) (by decide +kernel) (by decide +kernel)
    simpa [Finset.image_insert] using this
  · intro s hne
    rw [slices_of_times hi hs]
    exact slice_other (t := K.time x) hch (T := {0, 1, 2, 5}) (by intro i; fin_cases i <;> simp [t1, t2, t3])
      (by decide) (by decide) hne

/-- One accepted move leaves the slices alone or flips one inner slice. -/
theorem slices_of_step (hl : env.Lawful) {K K' : Tri V} (hK : Sound env K) (h : Step env K K') :
    SlicesSame K K' ∨ ∃ t A B, K.inf ∉ A ∪ B ∧ SliceFlip K K' t A B := by
  cases h with
  | @other mv _ _ hmv h =>
    cases mv with
    | twoThree => exact .inl (C85_two_three hl hK h)
    | threeTwo => exact .inl (C85_three_two hl hK h)
    | twoSix => exact absurd rfl hmv
    | sixTwo =>
      obtain ⟨t, x, y, z, m, -, h1, h2⟩ := C85_six_two hl hK h
      refine .inr ⟨t, _, _, ?_, h2⟩
      simp only [List.mem_cons, List.not_mem_nil, or_false, not_or] at h1
      simp; tauto
    | fourFour =>
      obtain ⟨t, a, b, x, y, -, h1, h2⟩ := C85_four_four hl hK h
      refine .inr ⟨t, _, _, ?_, h2⟩
      simp only [List.mem_cons, List.not_mem_nil, or_false, not_or] at h1
      simp; tauto
  | twoSix hfr h ha =>
    obtain ⟨t, x, y, z, m, -, h1, h2⟩ := C85_two_six hl hK hfr h ha
    refine .inr ⟨t, _, _, ?_, h2⟩
    simp only [List.mem_cons, List.not_mem_nil, or_false, not_or] at h1
    simp; tauto

/-- C85.  Along every history of accepted moves each spatial slice is connected with itself by
two-dimensional bistellar moves; its Euler characteristic is unchanged, and a closed surface stays a
closed surface. -/
theorem C85_history (hl : env.Lawful) {K K' : Tri V} (hK : Sound env K)
    (h : Relation.ReflTransGen (Step env) K K') (t : ℤ) :
    PachnerEquivalent 2 K.inf (sliceAt K.inf K.time K.cells t) (sliceAt K'.inf K'.time K'.cells t) ∧
    eulerOf (sliceAt K'.inf K'.time K'.cells t) = eulerOf (sliceAt K.inf K.time K.cells t) ∧
    (ClosedOfDim 2 (sliceAt K.inf K.time K.cells t) → ClosedOfDim 2 (sliceAt K'.inf K'.time K'.cells t)) := by
  have main : PachnerEquivalent 2 K.inf (sliceAt K.inf K.time K.cells t) (sliceAt K'.inf K'.time K'.cells t) := by
    induction h with
    | refl => exact .refl
    | tail hr hs ih =>
      have hi := (C84_history hl hK hr).1
      rcases slices_of_step hl (C24_history_preserves hl hK hr).1 hs with h | ⟨t0, A, B, h1, h2⟩
      · rw [h t]; exact ih
      · by_cases e : t = t0
        · subst e
          exact ih.tail ⟨A, B, hi ▸ h1, h2.flip⟩
        · rw [h2.others t e]; exact ih
  obtain ⟨h1, h2, -⟩ := C84_invariants (isComplex_slice _ _ _ _) main
  exact ⟨main, h1, h2⟩

/-- C85, the ends of the universe: a slice with no vertex above it, or none below it, never changes,
nor does an absent slice come into being. -/
theorem C85_ends (hl : env.Lawful) {K K' : Tri V} (hK : Sound env K)
    (h : Relation.ReflTransGen (Step env) K K') (t : ℤ)
    (ht : (∀ v ∈ vertices K.cells, v ≠ K.inf → K.time v ≤ t) ∨ ∀ v ∈ vertices K.cells, v ≠ K.inf → t ≤ K.time v) :
    sliceAt K'.inf K'.time K'.cells t = sliceAt K.inf K.time K.cells t := by
  induction h with
  | refl => rfl
  | @tail M N hr hs ih =>
    rw [← ih]
    have hp := (C24_history_preserves hl hK hr).2.slices
    have hi := (C84_history hl hK hr).1
    rcases slices_of_step hl (C24_history_preserves hl hK hr).1 hs with h | ⟨t0, A, B, h1, h2⟩
    · exact h t
    · by_cases e : t = t0
      · exfalso
        subst e
        have back : ∀ v ∈ vertices M.cells, v ≠ M.inf → ∃ w ∈ vertices K.cells, w ≠ K.inf ∧ K.time w = M.time v := by
          intro v hv hne
          have : M.time v ∈ Spec.slices M.inf M.time M.cells :=
            Finset.mem_image.2 ⟨v, Finset.mem_erase.2 ⟨hne, hv⟩, rfl⟩
          rw [hp] at this
          obtain ⟨w, hw, e⟩ := Finset.mem_image.1 this
          exact ⟨w, (Finset.mem_erase.1 hw).2, (Finset.mem_erase.1 hw).1, e⟩
        obtain ⟨v, v1, v2, v3⟩ := h2.above
        obtain ⟨w, w1, w2, w3⟩ := h2.below
        obtain ⟨v', a1, a2, a3⟩ := back v v1 v2
        obtain ⟨w', b1, b2, b3⟩ := back w w1 w2
        rcases ht with ht | ht
        · have := ht v' a1 a2; omega
        · have := ht w' b1 b2; omega
      · exact h2.others t e

/-! ### The hypotheses are met -/

/-- The (2,6) candidates of the concrete environment are accepted: centroids are on their slice. -/
theorem fixture_accepts {K K' : Tri ℕ} (hK : Sound Fixture.env K) (hfr : FreshCentroids Fixture.env K)
    (h : MoveReturns Fixture.env .twoSix K K') : Accepted Fixture.env .twoSix K K' := by
  obtain ⟨hi, ⟨x, y, z, u, d, m, hm, hmc, hml⟩, -, -⟩ := C21_two_six_subdivision Fixture.lawful hK hfr h
  have hf := hm.finite
  simp only [List.mem_cons, List.not_mem_nil, or_false, not_or] at hf
  obtain ⟨ix, iy, iz, -, -, -⟩ := hf
  have c1 : {x, y, z, u} ∈ K.cells := hm.cells.present (by simp)
  have lx : K.time x = (x % 10 : ℕ) := hK.times x (vert_of_cell c1 (by simp)) (Ne.symm ix)
  have ly : K.time y = (y % 10 : ℕ) := hK.times y (vert_of_cell c1 (by simp)) (Ne.symm iy)
  have lz : K.time z = (z % 10 : ℕ) := hK.times z (vert_of_cell c1 (by simp)) (Ne.symm iz)
  have hn := hm.distinct
  simp only [List.nodup_cons, List.mem_cons, List.not_mem_nil, or_false, not_or] at hn
  have hlab : K'.time m = K.time x := by
    obtain ⟨t1, t2⟩ := hm.slice
    rw [hml, hmc]
    show (((10 * (({x, y, z} : Finset ℕ).sum id) + (({x, y, z} : Finset ℕ).sum (· % 10)) / 3) % 10 : ℕ) : ℤ) = K.time x
    rw [Finset.sum_insert (f := fun v => v % 10) (by simp; tauto), Finset.sum_insert (f := fun v => v % 10) (by simp; tauto),
      Finset.sum_singleton]
    omega
  have ne : ∀ (L : Tri ℕ) (c : Finset ℕ), c ∈ L.cells → x ∈ c → x ≠ L.inf → L.finiteVerts ≠ ∅ := by
    intro L c hc hx hne
    exact Finset.nonempty_iff_ne_empty.1 ⟨x, Finset.mem_erase.2 ⟨hne, vert_of_cell hc hx⟩⟩
  obtain ⟨cs, hb⟩ := buildCaches_total Fixture.lawful (ne K _ c1 (by simp) (Ne.symm ix))
  have c2 : {x, y, m, u} ∈ K'.cells := by rw [hm.cells.result]; simp [sixAround]
  obtain ⟨cs', hb'⟩ := buildCaches_total Fixture.lawful (ne K' _ c2 (by simp) (by rw [hi]; exact Ne.symm ix))
  refine ⟨cs, cs', hb, hb', fun r s => ?_⟩
  exact (C21_check_move_iff_slice Fixture.lawful hK hfr h hb hb' r s).2 ⟨x, y, z, u, d, m, hm, hlab⟩

/-- A universe with a closed middle slice, and an accepted move that changes this slice. -/
example : Sound Fixture.env Fixture.onion ∧
    ClosedOfDim 2 (sliceAt Fixture.onion.inf Fixture.onion.time Fixture.onion.cells 2) ∧
    eulerOf (sliceAt Fixture.onion.inf Fixture.onion.time Fixture.onion.cells 2) = 2 ∧
    ∃ K', Step Fixture.env Fixture.onion K' ∧ ∃ t, sliceAt K'.inf K'.time K'.cells t ≠
      sliceAt Fixture.onion.inf Fixture.onion.time Fixture.onion.cells t := by
  refine ⟨Fixture.soundOnion, Fixture.onion_slice.1, Fixture.onion_slice.2, ?_⟩
  obtain ⟨K', h⟩ := Fixture.returnsOnion
  have ha := fixture_accepts Fixture.soundOnion Fixture.freshOnion h
  refine ⟨K', .twoSix Fixture.freshOnion h ha, ?_⟩
  obtain ⟨t, x, y, z, m, -, -, hf⟩ := C85_two_six Fixture.lawful Fixture.soundOnion Fixture.freshOnion h ha
  refine ⟨t, fun e => hf.flip.absent ?_⟩
  rw [← e, hf.flip.mem]
  exact .inr ((mem_joinBoundary' hf.flip.disjoint.symm).2 ⟨subset_rfl, Finset.subset_union_left, fun k => by
    have hx : x ∈ ({x, y, z} : Finset ℕ) := by simp
    exact Finset.disjoint_left.1 hf.flip.disjoint hx (k hx)⟩)

/-- The other moves that change slices. -/
example : (∃ K', MoveReturns Fixture.env .fourFour Fixture.k44 K' ∧ Sound Fixture.env Fixture.k44) ∧
    (∃ K', MoveReturns Fixture.env .sixTwo Fixture.k62 K' ∧ Sound Fixture.env Fixture.k62) :=
  ⟨Fixture.returns44.imp fun _ h => ⟨h, Fixture.sound44⟩, Fixture.returns62.imp fun _ h => ⟨h, Fixture.sound62⟩⟩

end CDT.Props

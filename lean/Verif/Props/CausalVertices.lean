/-
C78: triangulations from explicit points and time values.
-/
import Verif.Model.CausalVertices
import Verif.Lemmas.MoveResult
import Verif.Props.Classify
import Verif.Fixture.Complexes

namespace CDT.Props
open CDT CDT.Spec CDT.Moves CDT.Cavity

variable {V G : Type} [LinearOrder V] {env : Env V G} {ie : InsertEnv V}

theorem mapM_check {P : Type} (l : List (P × ℕ)) :
    l.mapM (m := Except Exc) (fun p => if p.2 ≤ 2 ^ 31 - 1 then .ok (p.1, (p.2 : ℤ)) else .error .outOfRange) =
      if ∀ p ∈ l, p.2 ≤ 2 ^ 31 - 1 then .ok (l.map fun p => (p.1, (p.2 : ℤ))) else .error .outOfRange := by
  induction l with
  | nil => simp [pure, Except.pure]
  | cons a l ih =>
    rw [List.mapM_cons, ih]
    by_cases ha : a.2 ≤ 2 ^ 31 - 1
    · by_cases hl : ∀ p ∈ l, p.2 ≤ 2 ^ 31 - 1
      · rw [if_pos ha, if_pos hl, if_pos (by intro p hp; rcases List.mem_cons.1 hp with rfl | hp; exacts [ha, hl p hp])]
        rfl
      · rw [if_pos ha, if_neg hl, if_neg (fun h => hl fun p hp => h p (List.mem_cons_of_mem _ hp))]
        rfl
    · have hneg : ¬ ∀ p ∈ a :: l, p.2 ≤ 2 ^ 31 - 1 := fun h => ha (h a List.mem_cons_self)
      rw [if_neg ha, if_neg hneg]
      rfl

/-- C78: `make_causal_vertices` pairs points and time values in order, throws `length_error` exactly
when there are not equally many, and otherwise `out_of_range` exactly when some time value exceeds
`INT_MAX`. -/
theorem C78_make_causal_vertices {P : Type} (points : List P) (times : List ℕ) :
    (∀ l, makeCausalVertices points times = .ok l ↔
      points.length = times.length ∧ (∀ t ∈ times, t < 2 ^ 31) ∧
        l.map Prod.fst = points ∧ l.map Prod.snd = times.map Nat.cast) ∧
    (makeCausalVertices points times = .error .lengthError ↔ points.length ≠ times.length) ∧
    (makeCausalVertices points times = .error .outOfRange ↔
      points.length = times.length ∧ ∃ t ∈ times, 2 ^ 31 ≤ t) := by
  unfold makeCausalVertices
  by_cases hlen : points.length = times.length
  swap
  · rw [if_pos hlen]
    refine ⟨fun l => ⟨by simp, fun h => (hlen h.1).elim⟩, by simp [hlen], by simp [hlen]⟩
  rw [if_neg (not_not.2 hlen), mapM_check]
  have hall : (∀ p ∈ points.zip times, p.2 ≤ 2 ^ 31 - 1) ↔ ∀ t ∈ times, t < 2 ^ 31 := by
    have hsnd : (points.zip times).map Prod.snd = times := List.map_snd_zip (by omega)
    constructor
    · intro h t ht
      rw [← hsnd] at ht
      obtain ⟨p, hp, rfl⟩ := List.mem_map.1 ht
      have := h p hp; omega
    · intro h p hp
      have : p.2 ∈ times := by rw [← hsnd]; exact List.mem_map_of_mem hp
      have := h _ this; omega
  by_cases h : ∀ t ∈ times, t < 2 ^ 31
  · rw [if_pos (hall.2 h)]
    refine ⟨fun l => ?_, by simp [hlen], ⟨fun e => (by cases e), fun ⟨_, t, ht, hb⟩ => by have := h t ht; omega⟩⟩
    have e1 : ((points.zip times).map fun p => (p.1, (p.2 : ℤ))).map Prod.fst = points := by
      rw [List.map_map]; exact List.map_fst_zip (by omega)
    have e2 : ((points.zip times).map fun p => (p.1, (p.2 : ℤ))).map Prod.snd = times.map Nat.cast := by
      rw [List.map_map]
      have : (Prod.snd ∘ fun p : P × ℕ => (p.1, (p.2 : ℤ))) = Nat.cast ∘ Prod.snd := rfl
      rw [this, ← List.map_map, List.map_snd_zip (by omega)]
    constructor
    · intro e; injection e with e; subst e; exact ⟨hlen, h, e1, e2⟩
    · rintro ⟨-, -, h1, h2⟩
      congr 1
      rw [← List.zip_unzip l, List.unzip_eq_map, ← List.zip_unzip ((points.zip times).map fun p => (p.1, (p.2 : ℤ))),
        List.unzip_eq_map, e1, e2, h1, h2]
  · rw [if_neg (fun hh => h (hall.1 hh))]
    refine ⟨fun l => ⟨fun e => (by cases e), fun ⟨_, hh, _⟩ => (h hh).elim⟩, by simp [hlen], ?_⟩
    push Not at h
    exact ⟨fun _ => ⟨hlen, h⟩, fun _ => rfl⟩

example : makeCausalVertices ["a", "b", "c"] [1, 2, 2147483647] = .ok [("a", 1), ("b", 2), ("c", 2147483647)] ∧
    makeCausalVertices ["a", "b"] [1, 2147483648] = .error .outOfRange ∧
    makeCausalVertices ["a", "b"] [2147483648] = .error .lengthError := by decide +kernel

/-- The triangulation of the given points has dimension three: every point is a vertex of a cell. -/
def Spans (ie : InsertEnv V) (l : List (V × ℤ)) : Prop :=
  (ie.insert l).tri.finiteVerts = (ie.insert l).points

theorem state_ok (hi : ie.Lawful) {l : List (V × ℤ)} (hn : (l.map Prod.fst).Nodup) :
    delaunayState ie l = .ok (ie.insert l) := by
  unfold delaunayState
  dsimp only
  rw [hi.points, List.toFinset_card_of_nodup hn, List.length_map, if_neg (by simp)]

/-- C78: the constructor throws `invalid_argument` exactly when there is no point or a point occurs
twice, and returns a triangulation otherwise. -/
theorem C78_accepts_iff (hl : env.Lawful) (hi : ie.Lawful) {l : List (V × ℤ)} (hs : Spans ie l) :
    ((∃ m, foliatedFromVertices env ie l = .ok m) ↔ l ≠ [] ∧ (l.map Prod.fst).Nodup) ∧
    (foliatedFromVertices env ie l = .error .invalidArgument ↔ l = [] ∨ ¬ (l.map Prod.fst).Nodup) := by
  by_cases hn : (l.map Prod.fst).Nodup
  · unfold foliatedFromVertices
    rw [state_ok hi hn]
    dsimp only
    have hc : (ie.insert l).points.card = l.length := by
      rw [hi.points, List.toFinset_card_of_nodup hn, List.length_map]
    rw [hc]
    by_cases h0 : l = []
    · subst h0; simp
    · rw [if_neg (by simpa using h0)]
      have hv : (ie.insert l).tri.finiteVerts ≠ ∅ := by
        rw [hs]; intro e; rw [e] at hc; exact h0 (List.length_eq_zero_iff.1 (by simpa using hc.symm))
      have hv' : (makeManifold env (ie.insert l).tri).finiteVerts ≠ ∅ := hv
      obtain ⟨cs, hb⟩ := buildCaches_total hl hv'
      have hcon : construct env (ie.insert l).tri = .ok (makeManifold env (ie.insert l).tri, cs) := by
        unfold construct; rw [hb]
      rw [hcon]
      simp [h0, hn]
  · have : foliatedFromVertices env ie l = .error .invalidArgument := by
      unfold foliatedFromVertices delaunayState
      dsimp only
      rw [if_pos]
      rw [hi.points]
      intro e
      apply hn
      have e' : (l.map Prod.fst).toFinset.card = (l.map Prod.fst).length := by rw [e, List.length_map]
      rw [List.card_toFinset] at e'
      exact List.dedup_eq_self.1 ((List.dedup_sublist _).eq_of_length e')
    rw [this]
    simp [hn]

/-- C78: the vertices of the result are exactly the given points, with the time values of their
radii. -/
theorem C78_vertices (hl : env.Lawful) (hi : ie.Lawful) {l : List (V × ℤ)} (hs : Spans ie l) {K : Tri V} {cs : Caches V}
    (h : foliatedFromVertices env ie l = .ok (K, cs)) :
    (∀ v, v ∈ (vertices K.cells).erase K.inf ↔ v ∈ l.map Prod.fst) ∧
    (∀ v ∈ l.map Prod.fst, K.time v = env.label v) ∧ (geometryOf K cs).N0 = l.length := by
  obtain ⟨h0, hn⟩ := (C78_accepts_iff hl hi hs).1.1 ⟨_, h⟩
  unfold foliatedFromVertices at h
  rw [state_ok hi hn] at h
  dsimp only at h
  split at h
  · cases h
  obtain ⟨hK, hb⟩ := construct_ok h
  have hverts : K.finiteVerts = (ie.insert l).points := by rw [hK]; exact hs
  have hpts := hi.points l
  have hinf := (hi.wf l).inf
  refine ⟨fun v => ?_, fun v hv => ?_, ?_⟩
  · have : (vertices K.cells).erase K.inf = K.finiteVerts := rfl
    rw [this, hverts, hpts, List.mem_toFinset]
  · rw [hK]
    apply makeManifold_time
    rintro rfl
    exact hinf (by rw [hpts, List.mem_toFinset]; exact hv)
  · show ((K.finiteVerts.card : ℕ) : ℤ) = l.length
    rw [hverts, hpts, List.toFinset_card_of_nodup hn, List.length_map]

/-- C78: the time values supplied with the points have no influence on the result. -/
theorem C78_times_ignored (hi : ie.Lawful) {l l' : List (V × ℤ)} (he : l.map Prod.fst = l'.map Prod.fst) :
    foliatedFromVertices env ie l = foliatedFromVertices env ie l' := by
  obtain ⟨e1, e2, e3, e4⟩ := hi.shape l l' he
  have hlen : l.length = l'.length := by rw [← List.length_map (f := Prod.fst), he, List.length_map]
  have hp : (ie.insert l).points = (ie.insert l').points := by rw [hi.points, hi.points, he]
  have hm : makeManifold env (ie.insert l).tri = makeManifold env (ie.insert l').tri := by
    have ht : (fun v => if v = (ie.insert l).tri.inf then (ie.insert l).tri.time v else env.label v) =
        (fun v => if v = (ie.insert l').tri.inf then (ie.insert l').tri.time v else env.label v) := by
      funext v
      rw [← e1]
      split
      · rename_i hv; rw [hv]; rw [← e1] at e4; exact e4
      · rfl
    unfold makeManifold
    congr 1
    rw [ht]
    generalize (ie.insert l).tri = A at *
    generalize (ie.insert l').tri = B at *
    cases A; cases B
    simp_all
  unfold foliatedFromVertices delaunayState construct
  dsimp only
  rw [hp, hlen]
  split
  · rename_i h; split at h <;> simp_all
  · rename_i D h
    split at h
    · cases h
    · cases h
      rename_i hne
      rw [if_neg hne]
      dsimp only
      rw [hp, hm]

namespace CausalExample
open Fixture

theorem lookup_mem {l : List (ℕ × ℤ)} (h : (l.map Prod.fst).Nodup) {p : ℕ × ℤ} (hp : p ∈ l) :
    l.lookup p.1 = some p.2 := by
  induction l with
  | nil => simp at hp
  | cons a l ih =>
    rw [List.map_cons, List.nodup_cons] at h
    rcases List.mem_cons.1 hp with rfl | hp
    · simp [List.lookup]
    · have hne : p.1 ≠ a.1 := fun e => h.1 (e ▸ List.mem_map_of_mem hp)
      rw [List.lookup_cons, beq_eq_false_iff_ne.2 hne]
      exact ih h.2 hp

/-- A triangulator that knows the vertices of `B` and gives other point sets no cells. -/
def insertOf (B : Tri ℕ) : InsertEnv ℕ where
  insert l :=
    let pts := (l.map Prod.fst).toFinset
    if pts = B.finiteVerts then ⟨pts, { B with time := fun v => (l.lookup v).getD 0 }⟩
    else ⟨pts, ⟨pts.sup id + 1, ∅, fun v => if v = pts.sup id + 1 then 0 else (l.lookup v).getD 0, fun _ => 0⟩⟩

theorem insertOf_lawful {B : Tri ℕ} (hB : ∀ c ∈ B.cells, c.card = 4) : (insertOf B).Lawful where
  points l := by
    simp only [insertOf]
    split <;> rfl
  wf l := by
    simp only [insertOf]
    split
    · rename_i h
      refine ⟨?_, ?_, ?_⟩
      · rw [h]; exact subset_rfl
      · exact hB
      · rw [h]; exact Finset.notMem_erase _ _
    · refine ⟨by simp [Tri.finiteVerts, Tri.verts], by simp, ?_⟩
      intro hm
      have := Finset.le_sup (f := id) hm
      simp only [id] at this
      omega
  time l hn p hp := by
    simp only [insertOf]
    split
    · simp [lookup_mem hn hp]
    · have hm : p.1 ∈ (l.map Prod.fst).toFinset := List.mem_toFinset.2 (List.mem_map_of_mem hp)
      have := Finset.le_sup (f := id) hm
      simp only [id] at this
      dsimp only
      rw [if_neg (by omega), lookup_mem hn hp]
      rfl
  shape l l' he := by
    simp only [insertOf, he]
    split
    · rename_i h
      have hout : ∀ m : List (ℕ × ℤ), (m.map Prod.fst).toFinset = B.finiteVerts → m.lookup B.inf = none := by
        intro m hm
        rw [List.lookup_eq_none_iff]
        intro q hq
        have : q.1 ∈ B.finiteVerts := by rw [← hm]; exact List.mem_toFinset.2 (List.mem_map_of_mem hq)
        exact bne_iff_ne.2 (Finset.mem_erase.1 this).1.symm
      refine ⟨rfl, rfl, rfl, ?_⟩
      dsimp only
      rw [hout l (by rw [he]; exact h), hout l' h]
    · refine ⟨rfl, rfl, rfl, ?_⟩
      simp

/-- The triangulator for the five points of `k23`. -/
abbrev insertEnv : InsertEnv ℕ := insertOf k23

theorem insertEnv_lawful : insertEnv.Lawful := insertOf_lawful (by decide +kernel)

/-- Five points with wrong time values. -/
def five : List (ℕ × ℤ) := [(12, 7), (31, 7), (41, 7), (52, 7), (21, 7)]

end CausalExample

open CausalExample Fixture in
/-- The constructor accepts the five points, and the time values 7 are replaced by 1 and 2. -/
example : Spans insertEnv five ∧ ∃ K cs, foliatedFromVertices Fixture.env insertEnv five = .ok (K, cs) ∧
    K.time 12 = 2 ∧ K.time 31 = 1 ∧ (geometryOf K cs).N0 = 5 ∧
    foliatedFromVertices Fixture.env insertEnv five =
      foliatedFromVertices Fixture.env insertEnv [(12, 2), (31, 1), (41, 1), (52, 2), (21, 1)] := by
  have hs : Spans insertEnv five := by unfold Spans; decide +kernel
  obtain ⟨⟨K, cs⟩, h⟩ := (C78_accepts_iff Fixture.lawful insertEnv_lawful hs).1.2 (by decide +kernel)
  obtain ⟨-, ht, hn⟩ := C78_vertices Fixture.lawful insertEnv_lawful hs h
  refine ⟨hs, K, cs, h, ?_, ?_, hn, C78_times_ignored insertEnv_lawful rfl⟩
  · rw [ht 12 (by decide)]; rfl
  · rw [ht 31 (by decide)]; rfl

end CDT.Props

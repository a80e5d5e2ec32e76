/-
A family of triangulated balls on which time-value repair removes one vertex per pass.
-/
import Verif.Lemmas.Repair
import Verif.Fixture.Complexes

namespace CDT.Fixture
open CDT Spec Cavity Moves

/-- The fan around the edge `a b`: tetrahedra `a b x y` over consecutive remaining points, closed
by the tetrahedra at infinity. -/
def fanCells (inf : ℕ) : List ℕ → List (Finset ℕ)
  | a :: b :: r =>
    (r.zip r.tail).map (fun p => {a, b, p.1, p.2}) ++
    ((r.zip r.tail).map (fun p => {inf, a, p.1, p.2}) ++
     ((r.zip r.tail).map (fun p => {inf, b, p.1, p.2}) ++
      (if r.length < 2 then [] else
        (r.head?.toList.map (fun x => {inf, a, b, x}) ++
         r.getLast?.toList.map (fun x => {inf, a, b, x})))))
  | _ => []

/-- The fan over a set of points. -/
def fan (inf : ℕ) (time : ℕ → ℤ) (S : Finset ℕ) : Tri ℕ where
  inf := inf
  cells := (fanCells inf (canonicalPoints S)).toFinset
  time := time
  info := fun _ => 0

example : (fan 0 (fun _ => 1) {1, 2, 3, 4, 5, 6}).isValid = true := by decide +kernel

/-- Removal by building the fan of the remaining points; vertices are stored in descending
order. -/
def fanRepair : RepairEnv ℕ where
  hash := canonicalPoints
  stored := fun _ c => (canonicalPoints c).reverse
  remove := fun D R => ⟨D.points \ R, fan D.tri.inf D.tri.time (D.points \ R)⟩

theorem mem_zip_tail {r : List ℕ} (hr : r.Pairwise (· < ·)) {p : ℕ × ℕ} (hp : p ∈ r.zip r.tail) :
    p.1 ∈ r ∧ p.2 ∈ r ∧ p.1 < p.2 := by
  induction r with
  | nil => simp at hp
  | cons x r ih =>
    cases r with
    | nil => simp at hp
    | cons y r =>
      simp only [List.tail_cons, List.zip_cons_cons, List.mem_cons] at hp
      rcases hp with rfl | hp
      · exact ⟨by simp, by simp, (List.pairwise_cons.1 hr).1 y (by simp)⟩
      · obtain ⟨h1, h2, h3⟩ := ih (List.pairwise_cons.1 hr).2 (by simpa using hp)
        exact ⟨List.mem_cons_of_mem _ h1, List.mem_cons_of_mem _ h2, h3⟩

theorem strict_canonicalPoints (S : Finset ℕ) : (canonicalPoints S).Pairwise (· < ·) :=
  ((pairwise_canonicalPoints S).and (nodup_canonicalPoints S)).imp
    (fun h => lt_of_le_of_ne h.1 h.2)

theorem canonicalPoints_sorted {l : List ℕ} (h : l.Pairwise (· < ·)) : canonicalPoints l.toFinset = l := by
  have hn : l.Nodup := h.imp (fun h => ne_of_lt h)
  refine List.Perm.eq_of_pairwise (fun _ _ _ _ hab hba => le_antisymm hab hba)
    (pairwise_canonicalPoints _) (h.imp le_of_lt) ?_
  rw [List.perm_ext_iff_of_nodup (nodup_canonicalPoints _) hn]
  intro x; rw [mem_canonicalPoints, List.mem_toFinset]

theorem fanCells_spec {inf : ℕ} {l : List ℕ} (hl : l.Pairwise (· < ·)) (hi : inf ∉ l) :
    ∀ c ∈ fanCells inf l, c.card = 4 ∧ (∀ v ∈ c, v = inf ∨ v ∈ l) := by
  rcases l with _ | ⟨a, _ | ⟨b, r⟩⟩
  · simp [fanCells]
  · simp [fanCells]
  · obtain ⟨ha, hl1⟩ := List.pairwise_cons.1 hl
    obtain ⟨hb, hr⟩ := List.pairwise_cons.1 hl1
    have hab : a < b := ha b (by simp)
    have i1 : inf ≠ a := fun h => hi (by simp [h])
    have i2 : inf ≠ b := fun h => hi (by simp [h])
    have i3 : ∀ x ∈ r, inf ≠ x := fun x hx h => hi (by rw [h]; simp [hx])
    have key : ∀ w x y z : ℕ, w ≠ x → w ≠ y → w ≠ z → x ≠ y → x ≠ z → y ≠ z →
        ({w, x, y, z} : Finset ℕ).card = 4 := by
      intro w x y z h1 h2 h3 h4 h5 h6
      rw [Finset.card_insert_of_notMem (by simp [h1, h2, h3]),
        Finset.card_insert_of_notMem (by simp [h4, h5]), Finset.card_insert_of_notMem (by simp [h6]),
        Finset.card_singleton]
    have ra : ∀ x ∈ r, a ≠ x := fun x hx => ne_of_lt (ha x (List.mem_cons_of_mem _ hx))
    have rb : ∀ x ∈ r, b ≠ x := fun x hx => ne_of_lt (hb x hx)
    have last : ∀ x ∈ r, ({inf, a, b, x} : Finset ℕ).card = 4 ∧
        ∀ v ∈ ({inf, a, b, x} : Finset ℕ), v = inf ∨ v ∈ a :: b :: r := by
      intro x hx
      refine ⟨key _ _ _ _ i1 i2 (i3 x hx) (ne_of_lt hab) (ra x hx) (rb x hx), ?_⟩
      intro v hv
      simp only [Finset.mem_insert, Finset.mem_singleton] at hv
      rcases hv with rfl | rfl | rfl | rfl <;> simp [hx]
    intro c hc
    simp only [fanCells, List.mem_append, List.mem_map] at hc
    rcases hc with ⟨p, hp, rfl⟩ | ⟨p, hp, rfl⟩ | ⟨p, hp, rfl⟩ | hc
    · obtain ⟨h1, h2, h3⟩ := mem_zip_tail hr hp
      refine ⟨key _ _ _ _ (ne_of_lt hab) (ra _ h1) (ra _ h2) (rb _ h1) (rb _ h2) (ne_of_lt h3), ?_⟩
      intro v hv
      simp only [Finset.mem_insert, Finset.mem_singleton] at hv
      rcases hv with rfl | rfl | rfl | rfl <;> simp [h1, h2]
    · obtain ⟨h1, h2, h3⟩ := mem_zip_tail hr hp
      refine ⟨key _ _ _ _ i1 (i3 _ h1) (i3 _ h2) (ra _ h1) (ra _ h2) (ne_of_lt h3), ?_⟩
      intro v hv
      simp only [Finset.mem_insert, Finset.mem_singleton] at hv
      rcases hv with rfl | rfl | rfl | rfl <;> simp [h1, h2]
    · obtain ⟨h1, h2, h3⟩ := mem_zip_tail hr hp
      refine ⟨key _ _ _ _ i2 (i3 _ h1) (i3 _ h2) (rb _ h1) (rb _ h2) (ne_of_lt h3), ?_⟩
      intro v hv
      simp only [Finset.mem_insert, Finset.mem_singleton] at hv
      rcases hv with rfl | rfl | rfl | rfl <;> simp [h1, h2]
    · split_ifs at hc with hlen
      · simp at hc
      · simp only [List.mem_append, List.mem_map, Option.mem_toList] at hc
        rcases hc with ⟨x, hx, rfl⟩ | ⟨x, hx, rfl⟩
        · exact last x (List.mem_of_head? hx)
        · exact last x (List.mem_of_getLast? hx)

theorem fan_wf {inf : ℕ} {time : ℕ → ℤ} {S : Finset ℕ} (hi : inf ∉ S) : Del.Wf ⟨S, fan inf time S⟩ := by
  have hs := fanCells_spec (strict_canonicalPoints S) (fun h => hi (mem_canonicalPoints.1 h))
  refine ⟨?_, ?_, hi⟩
  · intro v hv
    obtain ⟨h1, c, hc, hvc⟩ := mem_finiteVerts.1 hv
    rcases (hs c (List.mem_toFinset.1 hc)).2 v hvc with h | h
    · exact absurd h h1
    · exact mem_canonicalPoints.1 h
  · intro c hc
    exact (hs c (List.mem_toFinset.1 hc)).1

theorem fanLawful : fanRepair.Lawful where
  hash_nodup := nodup_canonicalPoints
  mem_hash := fun _ _ => mem_canonicalPoints
  stored_nodup := fun _ c => List.nodup_reverse.2 (nodup_canonicalPoints c)
  mem_stored := fun _ c v => by simp [fanRepair, mem_canonicalPoints]
  remove_points := fun _ _ _ => rfl
  remove_inf := fun _ _ => rfl
  remove_time := fun _ _ _ _ _ => rfl
  remove_wf := fun D R _ hw => fan_wf (fun h => hw.inf (Finset.mem_sdiff.1 h).1)

/-- The finite tetrahedra of a fan of at least four points: they exist, and all contain the
smallest point, which is also the first of their points. -/
theorem fan_finite {inf : ℕ} {time : ℕ → ℤ} {S : Finset ℕ} (hi : inf ∉ S) (h4 : 4 ≤ S.card) :
    ∃ a ∈ S, (fan inf time S).finiteCells.Nonempty ∧
      ∀ c ∈ (fan inf time S).finiteCells, ∃ l, canonicalPoints c = a :: l := by
  have hlen := length_canonicalPoints S
  have hst := strict_canonicalPoints S
  have hmem := fun v => mem_canonicalPoints (s := S) (v := v)
  rcases hc : canonicalPoints S with _ | ⟨a, _ | ⟨b, _ | ⟨x, _ | ⟨y, r⟩⟩⟩⟩
  · rw [hc] at hlen; simp at hlen; omega
  · rw [hc] at hlen; simp at hlen; omega
  · rw [hc] at hlen; simp at hlen; omega
  · rw [hc] at hlen; simp at hlen; omega
  · rw [hc] at hst
    have hiS : ∀ v ∈ a :: b :: x :: y :: r, v ≠ inf := by
      intro v hv h
      rw [← hc, hmem, h] at hv; exact hi hv
    refine ⟨a, (hmem a).1 (by rw [hc]; simp), ?_, ?_⟩
    · refine ⟨{a, b, x, y}, mem_finiteCells.2 ⟨?_, ?_⟩⟩
      · show _ ∈ (fanCells inf (canonicalPoints S)).toFinset
        rw [hc, List.mem_toFinset]
        simp [fanCells]
      · show inf ∉ _
        have h1 := hiS a (by simp); have h2 := hiS b (by simp)
        have h3 := hiS x (by simp); have h4 := hiS y (by simp)
        simp only [Finset.mem_insert, Finset.mem_singleton, not_or]
        exact ⟨h1.symm, h2.symm, h3.symm, h4.symm⟩
    · intro c hcm
      obtain ⟨h1, h2⟩ := mem_finiteCells.1 hcm
      have h2 : inf ∉ c := h2
      have h1 : c ∈ (fanCells inf (canonicalPoints S)).toFinset := h1
      rw [hc, List.mem_toFinset] at h1
      simp only [fanCells, List.mem_append, List.mem_map] at h1
      obtain ⟨ha, hst1⟩ := List.pairwise_cons.1 hst
      obtain ⟨hb, hr⟩ := List.pairwise_cons.1 hst1
      rcases h1 with ⟨p, hp, rfl⟩ | ⟨p, hp, rfl⟩ | ⟨p, hp, rfl⟩ | h
      · obtain ⟨g1, g2, g3⟩ := mem_zip_tail hr hp
        have : ({a, b, p.1, p.2} : Finset ℕ) = [a, b, p.1, p.2].toFinset := by ext; simp
        rw [this, canonicalPoints_sorted]
        · exact ⟨_, rfl⟩
        · have k1 := ha b (by simp); have k2 := ha _ (List.mem_cons_of_mem _ g1)
          have k3 := ha _ (List.mem_cons_of_mem _ g2); have k4 := hb _ g1; have k5 := hb _ g2
          simp [k1, k2, k3, k4, k5, g3]
      · exact absurd (by simp) h2
      · exact absurd (by simp) h2
      · rw [if_neg (by simp)] at h
        simp only [List.mem_append, List.mem_map] at h
        rcases h with ⟨z, _, rfl⟩ | ⟨z, _, rfl⟩ <;> exact absurd (by simp) h2

theorem acausal_const {time : ℕ → ℤ} {c : Finset ℕ} (hc : ∀ v ∈ c, time v = 1) {i j : ℕ} (hj : 1 ≤ j) :
    ¬ HasType time i j c := by
  rintro ⟨_, v, hv, _, h2⟩
  have : (c.filter (fun u => time u = time v + 1)) = ∅ := by
    rw [Finset.filter_eq_empty_iff]
    intro u hu
    rw [hc u hu, hc v hv]; omega
  rw [this] at h2; simp at h2; omega

/-- One pass removes exactly one point of a one-slice fan, and leaves a one-slice fan. -/
theorem fan_pass {inf : ℕ} {time : ℕ → ℤ} {S : Finset ℕ} (hi : inf ∉ S) (h4 : 4 ≤ S.card)
    (ht : ∀ v ∈ S, time v = 1) :
    ∃ a ∈ S, fixTimevalues env fanRepair ⟨S, fan inf time S⟩ = (true, ⟨S.erase a, fan inf time (S.erase a)⟩) := by
  obtain ⟨a, ha, hne, hall⟩ := fan_finite (time := time) hi h4
  have hw := fan_wf (time := time) hi
  have hsub : ∀ c ∈ (fan inf time S).finiteCells, ∀ v ∈ c, v ∈ S := by
    intro c hc v hv
    obtain ⟨h1, h2⟩ := mem_finiteCells.1 hc
    exact hw.verts (mem_finiteVerts.2 ⟨fun e => h2 (e ▸ hv), c, h1, hv⟩)
  have hinv : ∀ c, c ∈ findInvalidTimevalueCells env (fan inf time S) ↔ c ∈ (fan inf time S).finiteCells := by
    intro c
    rw [mem_invalid lawful hw.card]
    constructor
    · exact fun h => h.1
    · intro hc
      have hx := fun i j (hj : 1 ≤ j) => acausal_const (time := time) (c := c) (fun v hv => ht v (hsub c hc v hv))
        (i := i) hj
      refine ⟨hc, ?_⟩
      rintro (h | h | h)
      · exact hx _ _ (by omega) h
      · exact hx _ _ (by omega) h
      · exact hx _ _ (by omega) h
  have hbad : ∀ c ∈ (fan inf time S).finiteCells, findBadVertex fanRepair (fan inf time S) c = some a := by
    intro c hc
    obtain ⟨l, hl⟩ := hall c hc
    have htc : ∀ v ∈ (canonicalPoints c).reverse, (fan inf time S).time v = 1 := by
      intro v hv
      exact ht v (hsub c hc v (mem_canonicalPoints.1 (by simpa using hv)))
    have hsort : ((canonicalPoints c).reverse).insertionSort
        (fun a b => (fan inf time S).time a ≤ (fan inf time S).time b) = (canonicalPoints c).reverse := by
      apply List.Pairwise.insertionSort_eq
      rw [List.pairwise_iff_forall_sublist]
      intro x y hxy
      rw [htc x (hxy.subset (by simp)), htc y (hxy.subset (by simp))]
    unfold findBadVertex
    have hst : fanRepair.stored (fan inf time S) c = (canonicalPoints c).reverse := rfl
    rw [hst, hsort]
    dsimp only
    have hlast : ((canonicalPoints c).reverse).getLast? = some a := by rw [hl]; simp
    rw [hlast]
    rcases hh : ((canonicalPoints c).reverse).head? with _ | lo
    · rw [hl] at hh; simp at hh
    · have hlo : lo ∈ (canonicalPoints c).reverse := List.mem_of_head? hh
      have haa : a ∈ (canonicalPoints c).reverse := List.mem_of_getLast? hlast
      dsimp only
      rw [htc lo hlo, htc a haa]
      simp
  have hrem : verticesToRemove env fanRepair (fan inf time S) = {a} := by
    ext v
    rw [mem_toRemove, Finset.mem_singleton]
    constructor
    · rintro ⟨c, hc, hb⟩
      rw [hbad c ((hinv c).1 hc)] at hb
      simpa using hb.symm
    · rintro rfl
      obtain ⟨c, hc⟩ := hne
      exact ⟨c, (hinv c).2 hc, hbad c hc⟩
  refine ⟨a, ha, ?_⟩
  unfold fixTimevalues
  rw [if_neg, hrem]
  · show (true, Del.mk (S \ {a}) (fan inf time (S \ {a}))) = _
    rw [Finset.sdiff_singleton_eq_erase]
  · obtain ⟨c, hc⟩ := hne
    rw [List.isEmpty_iff]
    intro h
    have := (hinv c).2 hc
    rw [h] at this; simp at this

theorem fan_passes {inf : ℕ} {time : ℕ → ℤ} (n : ℕ) {S : Finset ℕ} (hi : inf ∉ S) (h4 : n + 4 ≤ S.card)
    (ht : ∀ v ∈ S, time v = 1) :
    ∃ T ⊆ S, T.card + n = S.card ∧
      passes (fixTimevalues env fanRepair) n ⟨S, fan inf time S⟩ = ⟨T, fan inf time T⟩ := by
  induction n generalizing S with
  | zero => exact ⟨S, subset_rfl, rfl, rfl⟩
  | succ n ih =>
    obtain ⟨a, ha, he⟩ := fan_pass hi (by omega) ht
    have hc := Finset.card_erase_of_mem ha
    obtain ⟨T, h1, h2, h3⟩ := ih (S := S.erase a) (fun h => hi (Finset.mem_of_mem_erase h)) (by omega)
      (fun v hv => ht v (Finset.mem_of_mem_erase hv))
    refine ⟨T, h1.trans (Finset.erase_subset _ _), by omega, ?_⟩
    rw [passes, he]
    simpa using h3

theorem fan_not_causal {inf : ℕ} {time : ℕ → ℤ} {S : Finset ℕ} (hi : inf ∉ S) (h4 : 4 ≤ S.card)
    (ht : ∀ v ∈ S, time v = 1) : ¬ Causal inf time (fan inf time S).cells := by
  intro hc
  obtain ⟨a, _, ⟨c, hcm⟩, _⟩ := fan_finite (time := time) hi h4
  have hw := fan_wf (time := time) hi
  obtain ⟨h1, h2⟩ := mem_finiteCells.1 hcm
  have hx := fun i j (hj : 1 ≤ j) => acausal_const (time := time) (c := c)
    (fun v hv => ht v (hw.verts (mem_finiteVerts.2 ⟨fun e => h2 (e ▸ hv), c, h1, hv⟩))) (i := i) hj
  rcases hc c h1 h2 with h | h | h
  · exact hx _ _ (by omega) h
  · exact hx _ _ (by omega) h
  · exact hx _ _ (by omega) h

end CDT.Fixture

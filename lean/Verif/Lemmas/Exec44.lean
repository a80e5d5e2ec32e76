/-
(4,4): the execution exchanges the diagonal of the quadrilateral.
-/
import Verif.Lemmas.Site44

namespace CDT
open Spec Cavity Moves
variable {V G : Type} [LinearOrder V]

/-- The two flips of a (4,4) execution, from the side of vertex `s`. -/
theorem two_flips {K K1 K2 : Tri V} {a b s o p q : V} (hK : Closed K.cells)
    (hnd : [a, b, s, o, p, q].Nodup)
    (e : ∀ d, d ∈ K.edgeCells a b ↔ d = {a, b, s, p} ∨ d = {a, b, o, p} ∨ d = {a, b, s, q} ∨ d = {a, b, o, q})
    (h1 : K.flipFacet (insert s {a, b, q}) s = some K1) (h2 : K1.flipEdge a b = some K2) :
    (∀ d ∈ K.cells, s ∈ d → o ∉ d) ∧
    K2.cells = (K.cells \ K.edgeCells a b) ∪ {{s, o, a, p}, {s, o, b, p}, {s, o, a, q}, {s, o, b, q}} ∧
    K2.inf = K.inf ∧ K2.time = K.time ∧ K2.info = K.info := by
  simp only [List.nodup_cons, List.mem_cons, List.not_mem_nil, or_false, not_or, not_false_eq_true,
    List.nodup_nil, and_true] at hnd
  obtain ⟨⟨ab, as, ao, ap, aq⟩, ⟨bs, bo, bp, bq⟩, ⟨so, sp, sq⟩, ⟨op, oq⟩, pq⟩ := hnd
  have hsF : s ∉ ({a, b, q} : Finset V) := by simp [Ne.symm as, Ne.symm bs, sq]
  have hoF : o ∉ ({a, b, q} : Finset V) := by simp [Ne.symm ao, Ne.symm bo, oq]
  have r : ∀ u : V, (insert u {a, b, q} : Finset V) = {a, b, u, q} := by
    intro u; rw [Finset.insert_comm u a, Finset.insert_comm u b]
  have mS : (insert s {a, b, q} : Finset V) ∈ K.cells := by
    rw [r]; exact (mem_edgeCells.1 ((e _).2 (Or.inr (Or.inr (Or.inl rfl))))).1
  have mO : (insert o {a, b, q} : Finset V) ∈ K.cells := by
    rw [r]; exact (mem_edgeCells.1 ((e _).2 (Or.inr (Or.inr (Or.inr rfl))))).1
  have hm : K.mirror (insert s {a, b, q}) s = some o := by
    apply mirror_eq hK mS (by simp)
    · simp [Ne.symm so, Ne.symm ao, Ne.symm bo, oq]
    · rw [Finset.erase_insert hsF]; exact mO
  obtain ⟨hnew, rfl⟩ := flipFacet_some hm h1
  refine ⟨hnew, ?_⟩
  rw [Finset.erase_insert hsF] at h2
  have i1 : (insert o (insert s ({a, b, q} : Finset V))).erase a = {b, q, s, o} := by
    ext u; simp only [Finset.mem_insert, Finset.mem_erase, Finset.mem_singleton]; grind
  have i2 : (insert o (insert s ({a, b, q} : Finset V))).erase b = {a, q, s, o} := by
    ext u; simp only [Finset.mem_insert, Finset.mem_erase, Finset.mem_singleton]; grind
  have i3 : (insert o (insert s ({a, b, q} : Finset V))).erase q = {a, b, s, o} := by
    ext u; simp only [Finset.mem_insert, Finset.mem_erase, Finset.mem_singleton]; grind
  simp only [Finset.image_insert, Finset.image_singleton, i1, i2, i3] at h2
  have hK1e : ∀ K1 : Tri V, K1.cells = (K.cells \ {insert s {a, b, q}, insert o {a, b, q}}) ∪
      {{b, q, s, o}, {a, q, s, o}, {a, b, s, o}} →
      K1.edgeCells a b = {{a, b, s, o}, {a, b, s, p}, {a, b, o, p}} := by
    intro K1 hK1
    ext d
    rw [mem_edgeCells, hK1]
    simp only [Finset.mem_union, Finset.mem_sdiff, Finset.mem_insert, Finset.mem_singleton, not_or]
    constructor
    · rintro ⟨⟨hd, n1, n2⟩ | rfl | rfl | rfl, ha, hb⟩
      · rcases (e d).1 (mem_edgeCells.2 ⟨hd, ha, hb⟩) with h | h | h | h
        · exact Or.inr (Or.inl h)
        · exact Or.inr (Or.inr h)
        · exact absurd (h.trans (r s).symm) n1
        · exact absurd (h.trans (r o).symm) n2
      · simp [ab, aq, as, ao] at ha
      · simp [Ne.symm ab, bq, bs, bo] at hb
      · exact Or.inl rfl
    · have np : ∀ u v : V, p ≠ u → (({a, b, v, p} : Finset V) ≠ insert u {a, b, q}) := by
        intro u v hu h
        have : p ∈ (insert u {a, b, q} : Finset V) := h ▸ by simp
        simp [hu, Ne.symm ap, Ne.symm bp, pq] at this
      rintro (rfl | rfl | rfl)
      · exact ⟨Or.inr (Or.inr (Or.inr rfl)), by simp, by simp⟩
      · exact ⟨Or.inl ⟨(mem_edgeCells.1 ((e _).2 (Or.inl rfl))).1, np s s (Ne.symm sp), np o s (Ne.symm op)⟩,
          by simp, by simp⟩
      · exact ⟨Or.inl ⟨(mem_edgeCells.1 ((e _).2 (Or.inr (Or.inl rfl)))).1, np s o (Ne.symm sp),
          np o o (Ne.symm op)⟩, by simp, by simp⟩
  obtain ⟨_, _, rfl⟩ := flipEdge_some h2
  have he1 := hK1e { K with cells := (K.cells \ {(insert s {a, b, q}), (insert o {a, b, q})}) ∪
      {{b, q, s, o}, {a, q, s, o}, {a, b, s, o}} } rfl
  have el := link_of_three ab as ao ap bs bo bp he1
  refine ⟨?_, rfl, rfl, rfl⟩
  dsimp only
  rw [el, he1]
  ext d
  simp only [Finset.mem_union, Finset.mem_sdiff, Finset.mem_insert, Finset.mem_singleton, not_or]
  have j1 : ({s, o, a, p} : Finset V) = {a, s, o, p} := by rw [Finset.insert_comm o a, Finset.insert_comm s a]
  have j2 : ({s, o, b, p} : Finset V) = {b, s, o, p} := by rw [Finset.insert_comm o b, Finset.insert_comm s b]
  have j3 : ({s, o, a, q} : Finset V) = {a, q, s, o} := by
    ext u; simp only [Finset.mem_insert, Finset.mem_singleton]
    constructor <;> (rintro (h | h | h | h) <;> simp only [h, true_or, or_true])
  have j4 : ({s, o, b, q} : Finset V) = {b, q, s, o} := by
    ext u; simp only [Finset.mem_insert, Finset.mem_singleton]
    constructor <;> (rintro (h | h | h | h) <;> simp only [h, true_or, or_true])
  rw [j1, j2, j3, j4]
  have nq : ∀ u : V, ({u, q, s, o} : Finset V) ≠ {a, b, s, o} ∧ ({u, q, s, o} : Finset V) ≠ {a, b, s, p} ∧
      ({u, q, s, o} : Finset V) ≠ {a, b, o, p} := by
    intro u
    refine ⟨?_, ?_, ?_⟩ <;>
    · intro h
      have : q ∈ ({u, q, s, o} : Finset V) := by simp
      rw [h] at this
      simp [Ne.symm aq, Ne.symm bq, Ne.symm sq, Ne.symm oq, Ne.symm pq] at this
  constructor
  · rintro (⟨⟨hd, n1, n2⟩ | rfl | rfl | rfl, k1, k2, k3⟩ | rfl | rfl)
    · left
      refine ⟨hd, fun h => ?_⟩
      rcases (e d).1 h with h | h | h | h
      · exact k2 h
      · exact k3 h
      · exact n1 (h.trans (r s).symm)
      · exact n2 (h.trans (r o).symm)
    · simp
    · simp
    · exact absurd rfl k1
    · simp
    · simp
  · rintro (⟨hd, hn⟩ | rfl | rfl | rfl | rfl)
    · left
      refine ⟨Or.inl ⟨hd, fun h => hn ?_, fun h => hn ?_⟩, fun h => ?_, fun h => hn ?_, fun h => hn ?_⟩
      · exact (e d).2 (Or.inr (Or.inr (Or.inl (h.trans (r s)))))
      · exact (e d).2 (Or.inr (Or.inr (Or.inr (h.trans (r o)))))
      · exact hnew d hd (by rw [h]; simp) (by rw [h]; simp)
      · exact (e d).2 (Or.inl h)
      · exact (e d).2 (Or.inr (Or.inl h))
    · right; left; rfl
    · right; right; rfl
    · left; exact ⟨Or.inr (Or.inr (Or.inl rfl)), nq a⟩
    · left; exact ⟨Or.inr (Or.inl rfl), nq b⟩

theorem executeFourFour_ok {validator : Tri V → Bool} {K K' : Tri V} {m : FourFour V}
    (h : executeFourFour validator K m = .ok K') :
    ∃ x K1 K2, x ∉ ({m.a, m.b, m.bottom} : Finset V) ∧ insert x {m.a, m.b, m.bottom} ∈ K.cells ∧
      K.flipFacet (insert x {m.a, m.b, m.bottom}) x = some K1 ∧ K1.flipEdge m.a m.b = some K2 ∧
      K' = relabel K2 ∧ Closed K2.cells := by
  unfold executeFourFour at h
  split at h
  · simp at h
  · simp only at h
    split at h
    · simp at h
    · rename_i x hx
      have hx' := Finset.mem_of_min hx
      obtain ⟨_, hxF, hxK⟩ := Finset.mem_filter.1 hx'
      split at h
      · simp at h
      · rename_i K1 h1
        rcases ite_eq_iff.1 h with ⟨_, h⟩ | ⟨_, h⟩
        · simp at h
        · split at h
          · simp at h
          · rename_i K2 h2
            rcases ite_eq_iff.1 h with ⟨_, h⟩ | ⟨hv, h⟩
            · simp at h
            · simp only [Except.ok.injEq] at h
              simp only [Bool.or_eq_true, Bool.not_eq_true', not_or, Bool.not_eq_false] at hv
              exact ⟨x, K1, K2, hxF, hxK, h1, h2, h.symm, isValid_iff.1 hv.2⟩

theorem place44 {f : Fin 6 ↪ V} :
    place f p44.O = {{f 0, f 1, f 2, f 4}, {f 0, f 1, f 3, f 4}, {f 0, f 1, f 2, f 5}, {f 0, f 1, f 3, f 5}} ∧
    place f p44.N = {{f 2, f 3, f 0, f 4}, {f 2, f 3, f 1, f 4}, {f 2, f 3, f 0, f 5}, {f 2, f 3, f 1, f 5}} ∧
    p44.coreO.map f = {f 0, f 1} ∧ p44.coreN.map f = {f 2, f 3} := by
  simp [place, p44]

/-- Placement of the diagonal-exchange pattern. -/
theorem placed44 {K : Tri V} {a b x z p q : V} (inj : Function.Injective ![a, b, x, z, p, q])
    (e : K.edgeCells a b = {{a, b, x, p}, {a, b, z, p}, {a, b, x, q}, {a, b, z, q}})
    (hfree : ∀ d ∈ K.cells, x ∈ d → z ∉ d) (hfin : ∀ c ∈ K.edgeCells a b, K.inf ∉ c)
    (ht : K.time b = K.time a ∧ K.time x = K.time a ∧ K.time z = K.time a ∧ K.time p = K.time a + 1 ∧
      K.time q = K.time a + -1) :
    Placed p44 K.inf K.time K.cells (emb6 a b x z p q inj) (K.time a) ∧
    replace p44 K.cells (emb6 a b x z p q inj)
      = (K.cells \ K.edgeCells a b) ∪ {{x, z, a, p}, {x, z, b, p}, {x, z, a, q}, {x, z, b, q}} := by
  obtain ⟨eO, eN, cO, cN⟩ := place44 (f := emb6 a b x z p q inj)
  have eO' : place (emb6 a b x z p q inj) p44.O = K.edgeCells a b := by rw [eO, e]; rfl
  refine ⟨⟨?_, ?_, ?_, ?_, ?_⟩, ?_⟩
  · intro c hc
    have : c.map (emb6 a b x z p q inj) ∈ place (emb6 a b x z p q inj) p44.O := map_mem_place.2 hc
    rw [eO'] at this
    exact (mem_edgeCells.1 this).1
  · intro c hc hs
    rw [cO] at hs
    rw [eO']
    exact mem_edgeCells.2 ⟨hc, hs (by show a ∈ ({a, b} : Finset V); simp),
      hs (by show b ∈ ({a, b} : Finset V); simp)⟩
  · rw [cN]
    intro hf
    obtain ⟨c, hc, hs⟩ := mem_faces.1 hf
    exact hfree c hc (hs (by show x ∈ ({x, z} : Finset V); simp)) (hs (by show z ∈ ({x, z} : Finset V); simp))
  · have h1 := hfin {a, b, x, p} (by rw [e]; simp)
    have h2 := hfin {a, b, z, q} (by rw [e]; simp)
    simp only [Finset.mem_insert, Finset.mem_singleton, not_or] at h1 h2
    have : ∀ j, ![a, b, x, z, p, q] j ≠ K.inf := by
      intro j; fin_cases j <;> simp <;> grind
    exact this
  · have : ∀ j, K.time (![a, b, x, z, p, q] j) = K.time a + p44.τ j := by
      intro j; fin_cases j <;> simp [p44, ht]
    exact this
  · unfold replace
    rw [eO', eN]
    rfl

/-- A successful (4,4) mutation exchanges the diagonal. -/
theorem site44 {validator : Tri V → Bool} {K K' : Tri V} (hK : Closed K.cells) {a b : V} {m : FourFour V}
    (hp : prepareFourFour K a b = .ok m) (he : executeFourFour validator K m = .ok K') :
    ∃ f t, Placed p44 K.inf K.time K.cells f t ∧ K'.cells = replace p44 K.cells f ∧
      K'.inf = K.inf ∧ K'.time = K.time ∧ (∀ c, K.inf ∈ c → K'.info c = K.info c) ∧
      f 0 = a ∧ f 1 = b ∧ f 4 = m.top ∧ f 5 = m.bottom := by
  obtain ⟨rfl, rfl, hfin, x, z, hnd, tb, tx, tz, tp, tq, e⟩ := prepareFourFour_ok hK hp
  obtain ⟨s, K1, K2, hsF, hsK, h1, h2, rfl, _⟩ := executeFourFour_ok he
  have hnd' := hnd
  simp only [List.nodup_cons, List.mem_cons, List.not_mem_nil, or_false, not_or, not_false_eq_true,
    List.nodup_nil, and_true] at hnd'
  obtain ⟨⟨ab, ax, az, ap, aq⟩, ⟨bx, bz, bp, bq⟩, ⟨xz, xp, xq⟩, ⟨zp, zq⟩, pq⟩ := hnd'
  have inj : Function.Injective ![m.a, m.b, x, z, m.top, m.bottom] := by
    apply inj6 <;> assumption
  have hs : s = x ∨ s = z := by
    have hm : insert s {m.a, m.b, m.bottom} ∈ K.edgeCells m.a m.b := mem_edgeCells.2 ⟨hsK, by simp, by simp⟩
    have h1 : s ∈ (insert s {m.a, m.b, m.bottom} : Finset V) := by simp
    have h2 : m.bottom ∈ (insert s {m.a, m.b, m.bottom} : Finset V) := by simp
    simp only [Finset.mem_insert, Finset.mem_singleton, not_or] at hsF
    rw [e] at hm
    simp only [Finset.mem_insert, Finset.mem_singleton] at hm
    rcases hm with h | h | h | h
    · rw [h] at h2
      simp [Ne.symm aq, Ne.symm bq, Ne.symm xq, Ne.symm pq] at h2
    · rw [h] at h2
      simp [Ne.symm aq, Ne.symm bq, Ne.symm zq, Ne.symm pq] at h2
    · rw [h] at h1
      simp [hsF] at h1
      exact Or.inl h1
    · rw [h] at h1
      simp [hsF] at h1
      exact Or.inr h1
  have hres : (∀ d ∈ K.cells, x ∈ d → z ∉ d) ∧
      K2.cells = (K.cells \ K.edgeCells m.a m.b) ∪
        {{x, z, m.a, m.top}, {x, z, m.b, m.top}, {x, z, m.a, m.bottom}, {x, z, m.b, m.bottom}} ∧
      K2.inf = K.inf ∧ K2.time = K.time ∧ K2.info = K.info := by
    rcases hs with rfl | rfl
    · exact two_flips hK hnd (by intro d; rw [e]; simp) h1 h2
    · have := two_flips (K := K) (a := m.a) (b := m.b) (s := s) (o := x) (p := m.top) (q := m.bottom) hK
        (by
          simp only [List.nodup_cons, List.mem_cons, List.not_mem_nil, or_false, not_or, not_false_eq_true,
            List.nodup_nil, and_true]
          exact ⟨⟨ab, az, ax, ap, aq⟩, ⟨bz, bx, bp, bq⟩, ⟨Ne.symm xz, zp, zq⟩, ⟨xp, xq⟩, pq⟩)
        (by
          intro d; rw [e]
          simp only [Finset.mem_insert, Finset.mem_singleton]
          constructor <;> (rintro (h | h | h | h) <;> simp only [h, true_or, or_true])) h1 h2
      obtain ⟨k1, k2, k3⟩ := this
      refine ⟨fun d hd hx hs => k1 d hd hs hx, ?_, k3⟩
      rw [k2]
      have c : ∀ r : Finset V, (insert s (insert x r) : Finset V) = insert x (insert s r) :=
        fun r => Finset.insert_comm _ _ _
      rw [c {m.a, m.top}, c {m.b, m.top}, c {m.a, m.bottom}, c {m.b, m.bottom}]
  obtain ⟨hfree, r1, r2, r3, r4⟩ := hres
  obtain ⟨hpl, hrep⟩ := placed44 inj e hfree hfin ⟨tb, tx, tz, tp, tq⟩
  refine ⟨_, _, hpl, ?_, r2, r3, ?_, rfl, rfl, rfl, rfl⟩
  · rw [hrep]; exact r1
  · intro c hc
    unfold relabel
    simp only [r2, r4]
    rw [if_pos hc]

end CDT

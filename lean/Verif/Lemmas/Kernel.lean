/-
Every result of a move determines the raw site it came from, and the result at a raw site does
not depend on the state of the random source.
-/
import Verif.Spec.Kernel
import Verif.Props.Hastings
import Verif.Props.Search

namespace CDT
open Spec Cavity Moves Props

variable {V G : Type} [LinearOrder V] {env : Env V G}

/-- How the set of removed cells determines the site. -/
def SiteOld (mv : MoveType) (time : V → ℤ) (old : Finset (Finset V)) (s : Finset V) : Prop :=
  match mv with
  | .twoThree => s ∈ old ∧ HasType time 2 2 s ∧ ∀ c ∈ old, HasType time 2 2 c → c = s
  | .twoSix => s ∈ old ∧ HasType time 1 3 s ∧ ∀ c ∈ old, HasType time 1 3 c → c = s
  | _ => ∀ v, v ∈ s ↔ ∀ c ∈ old, v ∈ c

theorem siteOld_unique {mv : MoveType} {time : V → ℤ} {old : Finset (Finset V)} {s s' : Finset V}
    (h : SiteOld mv time old s) (h' : SiteOld mv time old s') : s = s' := by
  cases mv with
  | twoThree => exact h'.2.2 s h.1 h.2.1
  | twoSix => exact h'.2.2 s h.1 h.2.1
  | threeTwo => ext v; rw [h v, h' v]
  | sixTwo => ext v; rw [h v, h' v]
  | fourFour => ext v; rw [h v, h' v]

theorem sdiff_exchange {K old new : Finset (Finset V)} (h1 : old ⊆ K) (h2 : ∀ c ∈ new, c ∉ K) :
    K \ ((K \ old) ∪ new) = old := by
  ext c
  have a := @h1 c
  have b := h2 c
  simp only [Finset.mem_sdiff, Finset.mem_union]
  tauto

theorem absent_of_face {K : Finset (Finset V)} {F c : Finset V} (h : F ∉ faces K) (hs : F ⊆ c) : c ∉ K :=
  fun hc => h (mem_faces.2 ⟨c, hc, hs⟩)

/-- What an execution that succeeded at `s` tells. -/
structure AtSite (env : Env V G) (mv : MoveType) (K K1 : Tri V) (s : Finset V) (p : Prepared V) : Prop where
  inf : K1.inf = K.inf
  site : SiteOld mv K.time (K.cells \ K1.cells) s
  again : ∀ g, ∃ K2 g2, execute env K p g = (.ok K2, g2) ∧ K2.inf = K1.inf ∧ K2.cells = K1.cells

theorem atSite23 (hl : env.Lawful) {K K1 : Tri V} (hK : Sound env K) {s : Finset V} {p : Prepared V} {g1 g2 : G}
    (hs : s ∈ rawSites env K .twoThree) (hp : prepare K .twoThree s = .ok p)
    (he : execute env K p g1 = (.ok K1, g2)) : AtSite env .twoThree K K1 s p := by
  have hsf := rawCell_finite hl hs
  simp only [prepare, Except.map] at hp
  cases hq : prepareTwoThree K s with
  | error e => rw [hq] at hp; simp at hp
  | ok mm =>
    rw [hq] at hp
    obtain ⟨c, i⟩ := mm
    injection hp with hp
    subst hp
    obtain ⟨rfl, ⟨q, x, y, z, hs0, e0⟩, hleast⟩ := (prepareTwoThree_iff hK hsf).1 hq
    simp only [execute, Prod.mk.injEq] at he
    have heq := he.1
    rw [e0, executeTwoThree_iff hK.closed hs0] at he
    rcases ite_eq_iff.1 he.1 with ⟨⟨hf, hgeo⟩, h1⟩ | ⟨-, h1⟩
    · injection h1 with h1
      subst h1
      refine ⟨rfl, ?_, fun g => ⟨_, _, by simp only [execute]; rw [heq], rfl, rfl⟩⟩
      dsimp only
      rw [sdiff_exchange]
      · rw [e0]
        refine ⟨by simp, hs0.mixed, ?_⟩
        intro c hc hty
        simp only [Finset.mem_insert, Finset.mem_singleton] at hc
        rcases hc with rfl | rfl
        · rfl
        · rcases hs0.pure with h | h
          · exact absurd (hasType_unique (K := K) (by decide) (by decide) (by decide) (by decide) hty h).1 (by decide)
          · exact absurd (hasType_unique (K := K) (by decide) (by decide) (by decide) (by decide) hty h).1 (by decide)
      · intro c hc
        simp only [Finset.mem_insert, Finset.mem_singleton] at hc
        rcases hc with rfl | rfl
        · exact hs0.left
        · exact hs0.right
      · intro c hc
        refine absent_of_face hf ?_
        simp only [Finset.mem_insert, Finset.mem_singleton] at hc
        intro v hv
        simp only [Finset.mem_insert, Finset.mem_singleton] at hv
        rcases hc with rfl | rfl | rfl <;> simp only [Finset.mem_insert, Finset.mem_singleton] <;> tauto
    · simp at h1

theorem edge_inter {a b x y z : V} (hn : [a, b, x, y, z].Nodup) (v : V) :
    v ∈ ({a, b} : Finset V) ↔ ∀ c ∈ ({{a, b, x, y}, {a, b, x, z}, {a, b, y, z}} : Finset (Finset V)), v ∈ c := by
  simp only [List.nodup_cons, List.mem_cons, List.not_mem_nil, or_false, not_or, not_false_eq_true,
    List.nodup_nil, and_true] at hn
  obtain ⟨⟨ab, ax, ay, az⟩, ⟨bx, by', bz⟩, ⟨xy, xz⟩, yz⟩ := hn
  constructor
  · intro hv c hc
    simp only [Finset.mem_insert, Finset.mem_singleton] at hc hv
    rcases hc with rfl | rfl | rfl <;> rcases hv with rfl | rfl <;> simp
  · intro h
    have h1 := h {a, b, x, y} (by simp)
    have h2 := h {a, b, x, z} (by simp)
    have h3 := h {a, b, y, z} (by simp)
    simp only [Finset.mem_insert, Finset.mem_singleton] at h1 h2 h3 ⊢
    clear h
    grind

theorem atSite32 (hl : env.Lawful) {K K1 : Tri V} (hK : Sound env K) {s : Finset V} {p : Prepared V} {g1 g2 : G}
    (hp : prepare K .threeTwo s = .ok p)
    (he : execute env K p g1 = (.ok K1, g2)) : AtSite env .threeTwo K K1 s p := by
  simp only [prepare] at hp
  rcases hcp : canonicalPoints s with _ | ⟨a, _ | ⟨b, _ | ⟨c, l⟩⟩⟩ <;> rw [hcp] at hp <;>
    try (simp at hp; done)
  simp only [Except.map] at hp
  cases hq : prepareThreeTwo K a b with
  | error e => rw [hq] at hp; simp at hp
  | ok mm =>
    rw [hq] at hp
    injection hp with hp
    subst hp
    obtain ⟨rfl, x, y, z, hs0⟩ := (prepareThreeTwo_iff hK).1 hq
    simp only [execute, Prod.mk.injEq] at he
    have heq := he.1
    rw [executeThreeTwo_iff hs0] at he
    rcases ite_eq_iff.1 he.1 with ⟨⟨hf, hgeo⟩, h1⟩ | ⟨-, h1⟩
    · injection h1 with h1
      subst h1
      refine ⟨rfl, ?_, fun g => ⟨_, _, by simp only [execute]; rw [heq], rfl, rfl⟩⟩
      dsimp only
      rw [sdiff_exchange]
      · intro v
        rw [(canonicalPoints_two hcp).2]
        exact edge_inter hs0.distinct v
      · rw [← hs0.degree]; exact Finset.filter_subset _ _
      · intro c hc
        refine absent_of_face hf ?_
        simp only [Finset.mem_insert, Finset.mem_singleton] at hc
        intro v hv
        simp only [Finset.mem_insert, Finset.mem_singleton] at hv
        rcases hc with rfl | rfl <;> simp only [Finset.mem_insert, Finset.mem_singleton] <;> tauto
    · simp at h1

theorem atSite26 (hl : env.Lawful) {K K1 : Tri V} (hK : Sound env K) (hfr : FreshCentroids env K)
    {s : Finset V} {p : Prepared V} {g1 g2 : G}
    (hs : s ∈ rawSites env K .twoSix) (hp : prepare K .twoSix s = .ok p)
    (he : execute env K p g1 = (.ok K1, g2)) : AtSite env .twoSix K K1 s p := by
  have hsf := rawCell_finite hl hs
  simp only [prepare, Except.map] at hp
  cases hq : prepareTwoSix K s with
  | error e => rw [hq] at hp; simp at hp
  | ok mm =>
    rw [hq] at hp
    obtain ⟨c, i⟩ := mm
    injection hp with hp
    subst hp
    obtain ⟨rfl, x, y, z, u, h0, e0⟩ := (prepareTwoSix_iff hK hsf).1 hq
    have hn0 := h0.distinct
    simp only [List.nodup_cons, List.mem_cons, List.not_mem_nil, or_false, not_or, not_false_eq_true,
      List.nodup_nil, and_true] at hn0
    have hf0 := h0.finite
    simp only [List.mem_cons, List.not_mem_nil, or_false, not_or] at hf0
    have hfresh := (hfr {x, y, z} (mem_faces.2 ⟨_, h0.upper, by
      intro v; simp only [Finset.mem_insert, Finset.mem_singleton]; tauto⟩)
      (Finset.card_eq_three.2 ⟨x, y, z, hn0.1.1, hn0.1.2.1, hn0.2.1.1, rfl⟩)
      (by simp [hf0.1, hf0.2.1, hf0.2.2.1])).1
    obtain ⟨K2, hK2, hi, -, hc⟩ := executeTwoSix_succeeds (env := env) hK.closed h0 hfresh
    simp only [execute, Prod.mk.injEq] at he
    have heq := he.1
    rw [e0, hK2] at he
    have h1 := he.1
    injection h1 with h1
    subst h1
    refine ⟨hi, ?_, fun g => ⟨_, _, by simp only [execute]; rw [heq], rfl, rfl⟩⟩
    rw [hc, sdiff_exchange]
    · rw [e0]
      refine ⟨by simp, (site26_types h0).2, ?_⟩
      intro c hc hty
      simp only [Finset.mem_insert, Finset.mem_singleton] at hc
      rcases hc with rfl | rfl
      · exact absurd (hasType_unique (K := K) (by decide) (by decide) (by decide) (by decide) hty (site26_types h0).1).1
          (by decide)
      · rfl
    · intro c hc
      simp only [Finset.mem_insert, Finset.mem_singleton] at hc
      rcases hc with rfl | rfl
      · exact h0.upper
      · exact h0.lower
    · intro c hc hcK
      refine hfresh (mem_vertices.2 ⟨c, hcK, ?_⟩)
      simp only [sixAround, Finset.mem_insert, Finset.mem_singleton] at hc
      rcases hc with rfl | rfl | rfl | rfl | rfl | rfl <;> simp

theorem vertex_inter {x y z u d m : V} (hn : [x, y, z, u, d, m].Nodup) (v : V) :
    v ∈ ({m} : Finset V) ↔ ∀ c ∈ sixAround x y z u d m, v ∈ c := by
  simp only [List.nodup_cons, List.mem_cons, List.not_mem_nil, or_false, not_or, not_false_eq_true,
    List.nodup_nil, and_true] at hn
  obtain ⟨⟨xy, xz, xu, xd, xm⟩, ⟨yz, yu, yd, ym⟩, ⟨zu, zd, zm⟩, ⟨ud, um⟩, dm⟩ := hn
  constructor
  · intro hv c hc
    simp only [sixAround, Finset.mem_insert, Finset.mem_singleton] at hc hv
    subst hv
    rcases hc with rfl | rfl | rfl | rfl | rfl | rfl <;> simp
  · intro h
    have h1 := h {x, y, m, u} (by simp [sixAround])
    have h2 := h {x, z, m, d} (by simp [sixAround])
    have h3 := h {y, z, m, d} (by simp [sixAround])
    simp only [Finset.mem_insert, Finset.mem_singleton] at h1 h2 h3 ⊢
    clear h
    grind

theorem atSite62 (hl : env.Lawful) {K K1 : Tri V} (hK : Sound env K) {s : Finset V} {p : Prepared V} {g1 g2 : G}
    (hp : prepare K .sixTwo s = .ok p)
    (he : execute env K p g1 = (.ok K1, g2)) : AtSite env .sixTwo K K1 s p := by
  simp only [prepare] at hp
  rcases hcp : canonicalPoints s with _ | ⟨a, _ | ⟨b, l⟩⟩ <;> rw [hcp] at hp <;>
    try (simp at hp; done)
  simp only [Except.map] at hp
  cases hq : prepareSixTwo K a with
  | error e => rw [hq] at hp; simp at hp
  | ok mm =>
    rw [hq] at hp
    injection hp with hp
    subst hp
    obtain ⟨rfl, x, y, z, u, d, hs0⟩ := (prepareSixTwo_iff hK).1 hq
    simp only [execute] at he
    obtain ⟨hc, hi⟩ := execute62_cells hl hK hs0 he
    have hf := (executeSixTwo_iff hl hK hs0 g1).1 ⟨K1, by rw [he]⟩
    refine ⟨hi, ?_, fun g => ?_⟩
    · rw [hc, sdiff_exchange]
      · intro v
        have : s = {mm} := by ext v; rw [← mem_canonicalPoints (s := s), hcp]; simp
        rw [this]
        exact vertex_inter hs0.distinct v
      · rw [← hs0.degree]; exact Finset.filter_subset _ _
      · intro c hc
        refine absent_of_face hf ?_
        simp only [Finset.mem_insert, Finset.mem_singleton] at hc
        intro v hv
        simp only [Finset.mem_insert, Finset.mem_singleton] at hv
        rcases hc with rfl | rfl <;> simp only [Finset.mem_insert, Finset.mem_singleton] <;> tauto
    · obtain ⟨K2, h2⟩ := (executeSixTwo_iff hl hK hs0 g).2 hf
      rcases h3 : executeSixTwo env (fun _ => true) K mm g with ⟨r, g3⟩
      rw [h3] at h2
      dsimp only at h2
      subst h2
      obtain ⟨hc2, hi2⟩ := execute62_cells hl hK hs0 h3
      exact ⟨K2, g3, by simp only [execute]; exact h3, by rw [hi2, hi], by rw [hc2, hc]⟩

theorem edge_inter44 {a b x y u d : V} (hn : [a, b, x, y, u, d].Nodup) (v : V) :
    v ∈ ({a, b} : Finset V) ↔
      ∀ c ∈ ({{a, b, x, u}, {a, b, y, u}, {a, b, x, d}, {a, b, y, d}} : Finset (Finset V)), v ∈ c := by
  simp only [List.nodup_cons, List.mem_cons, List.not_mem_nil, or_false, not_or, not_false_eq_true,
    List.nodup_nil, and_true] at hn
  obtain ⟨⟨ab, ax, ay, au, ad⟩, ⟨bx, bz, bu, bd⟩, ⟨xy, xu, xd⟩, ⟨yu, yd⟩, ud⟩ := hn
  constructor
  · intro hv c hc
    simp only [Finset.mem_insert, Finset.mem_singleton] at hc hv
    rcases hc with rfl | rfl | rfl | rfl <;> rcases hv with rfl | rfl <;> simp
  · intro h
    have h1 := h {a, b, x, u} (by simp)
    have h2 := h {a, b, y, u} (by simp)
    have h3 := h {a, b, x, d} (by simp)
    have h4 := h {a, b, y, d} (by simp)
    simp only [Finset.mem_insert, Finset.mem_singleton] at h1 h2 h3 h4 ⊢
    clear h
    grind

theorem atSite44 (hl : env.Lawful) {K K1 : Tri V} (hK : Sound env K) {s : Finset V} {p : Prepared V} {g1 g2 : G}
    (hp : prepare K .fourFour s = .ok p)
    (he : execute env K p g1 = (.ok K1, g2)) : AtSite env .fourFour K K1 s p := by
  simp only [prepare] at hp
  rcases hcp : canonicalPoints s with _ | ⟨a, _ | ⟨b, _ | ⟨c, l⟩⟩⟩ <;> rw [hcp] at hp <;>
    try (simp at hp; done)
  simp only [Except.map] at hp
  cases hq : prepareFourFour K a b with
  | error e => rw [hq] at hp; simp at hp
  | ok mm =>
    rw [hq] at hp
    injection hp with hp
    subst hp
    obtain ⟨x, y, u, d, rfl, hs0⟩ := (prepareFourFour_iff hK).1 hq
    simp only [execute, Prod.mk.injEq] at he
    have heq := he.1
    obtain ⟨hc, hi⟩ := execute44_cells hK hs0 heq
    have hf := (executeFourFour_iff hK.closed hs0).1 ⟨K1, heq⟩
    refine ⟨hi, ?_, fun g => ⟨_, _, by simp only [execute]; rw [heq], rfl, rfl⟩⟩
    rw [hc, sdiff_exchange]
    · intro v
      rw [(canonicalPoints_two hcp).2]
      exact edge_inter44 hs0.distinct v
    · rw [← hs0.degree]; exact Finset.filter_subset _ _
    · intro c hc
      refine absent_of_face hf ?_
      simp only [Finset.mem_insert, Finset.mem_singleton] at hc
      intro v hv
      simp only [Finset.mem_insert, Finset.mem_singleton] at hv
      rcases hc with rfl | rfl | rfl | rfl <;> simp only [Finset.mem_insert, Finset.mem_singleton] <;> tauto

theorem atSite (hl : env.Lawful) {K K1 : Tri V} (hK : Sound env K) {mv : MoveType}
    (hfr : mv = .twoSix → FreshCentroids env K) {s : Finset V} {p : Prepared V} {g1 g2 : G}
    (hs : s ∈ rawSites env K mv) (hp : prepare K mv s = .ok p)
    (he : execute env K p g1 = (.ok K1, g2)) : AtSite env mv K K1 s p := by
  cases mv with
  | twoThree => exact atSite23 hl hK hs hp he
  | threeTwo => exact atSite32 hl hK hp he
  | twoSix => exact atSite26 hl hK (hfr rfl) hs hp he
  | sixTwo => exact atSite62 hl hK hp he
  | fourFour => exact atSite44 hl hK hp he

theorem makeManifold_sameManifold {K L : Tri V} (hi : L.inf = K.inf) (hc : L.cells = K.cells) :
    SameManifold (makeManifold env K) (makeManifold env L) := by
  have ht : ∀ v, v ≠ K.inf → (makeManifold env L).time v = (makeManifold env K).time v := by
    intro v hv
    rw [makeManifold_time (by rw [hi]; exact hv), makeManifold_time hv]
  refine ⟨hi, hc, fun v _ hv => ht v hv, ?_⟩
  intro c _ hinf
  have hinf' : K.inf ∉ c := hinf
  simp only [makeManifold, relabel, hi, hinf', if_false]
  congr 1
  unfold Tri.expectedType
  congr 1
  refine List.map_congr_left ?_
  intro v hv
  have : v ≠ K.inf := by rintro rfl; exact hinf' (mem_canonicalPoints.1 hv)
  simp [this]

end CDT

import Verif.Spec.Viewer
import Verif.Lemmas.RenderManifest
import Verif.Lemmas.RenderScene
import Verif.Lemmas.RenderImage
import Mathlib.Order.Bounds.Basic

namespace CDT
open Spec

theorem foregroundPixels_eq (i : Image) (r : RenderConfig) :
    foregroundPixels i r = {p | Foreground r i p}.ncard := by
  classical
  have e : foregroundPixels i r = (((List.range i.height).map fun y => ((List.range i.width).filter fun x =>
      if r.transparentBackground then decide ((i.pixel x y).a ≠ 0) else decide (i.pixel x y ≠ r.background)).length)).sum := by
    unfold foregroundPixels
    rw [count_rows fun x y => if r.transparentBackground then decide ((i.pixel x y).a ≠ 0)
      else decide (i.pixel x y ≠ r.background)]
    omega
  rw [e]
  have hset : {p | Foreground r i p} = ↑(((Finset.range i.height).sigma fun y => (Finset.range i.width).filter fun x =>
      (if r.transparentBackground then decide ((i.pixel x y).a ≠ 0) else decide (i.pixel x y ≠ r.background)) = true).image
        fun q => ((q.2, q.1) : ℕ × ℕ)) := by
    ext ⟨x, y⟩
    simp only [Set.mem_setOf_eq, Foreground, Finset.coe_image, Set.mem_image, Finset.mem_coe, Finset.mem_sigma,
      Finset.mem_range, Finset.mem_filter, Sigma.exists, Prod.mk.injEq]
    constructor
    · rintro ⟨h1, h2, h3⟩
      refine ⟨y, x, ⟨h2, h1, ?_⟩, rfl, rfl⟩
      split_ifs with hb
      · simpa [hb] using h3
      · simpa [hb] using h3
    · rintro ⟨b, a, ⟨h2, h1, h3⟩, rfl, rfl⟩
      refine ⟨h1, h2, ?_⟩
      split_ifs with hb
      · simpa [hb] using h3
      · simpa [hb] using h3
  rw [hset, Set.ncard_coe_finset, Finset.card_image_of_injective, Finset.card_sigma]
  · have : ∀ n, ((List.range n).map fun y => ((List.range i.width).filter fun x =>
        if r.transparentBackground then decide ((i.pixel x y).a ≠ 0) else decide (i.pixel x y ≠ r.background)).length).sum =
      ∑ a ∈ Finset.range n, ((Finset.range i.width).filter fun x =>
        (if r.transparentBackground then decide ((i.pixel x a).a ≠ 0) else decide (i.pixel x a ≠ r.background)) = true).card := by
      intro n
      induction n with
      | zero => rfl
      | succ n ih =>
        rw [List.range_succ, List.map_append, List.sum_append, ih, Finset.sum_range_succ]
        simp only [List.map_cons, List.map_nil, List.sum_cons, List.sum_nil, add_zero]
        congr 1
        rw [← List.toFinset_range, ← List.toFinset_filter, List.toFinset_card_of_nodup (List.nodup_range.filter _)]
    exact this _
  · rintro ⟨a, b⟩ ⟨c, d⟩ h
    simp only [Prod.mk.injEq] at h
    obtain ⟨rfl, rfl⟩ := h
    rfl

theorem foldl_min_least (l : List ℤ) : ∀ d : ℤ, (∀ x ∈ l, x ≤ d) → l ≠ [] → IsLeast {x | x ∈ l} (l.foldl min d) := by
  have gen : ∀ (l : List ℤ) (d : ℤ), (l.foldl min d = d ∨ l.foldl min d ∈ l) ∧ l.foldl min d ≤ d ∧
      ∀ x ∈ l, l.foldl min d ≤ x := by
    intro l
    induction l with
    | nil => intro d; simp
    | cons a l ih =>
      intro d
      obtain ⟨h1, h2, h3⟩ := ih (min d a)
      rw [List.foldl_cons]
      refine ⟨?_, h2.trans (min_le_left _ _), ?_⟩
      · rcases h1 with h1 | h1
        · rcases min_choice d a with h | h
          · exact .inl (h1.trans h)
          · exact .inr (by rw [h1, h]; exact .head _)
        · exact .inr (.tail _ h1)
      · intro x hx
        rcases List.mem_cons.1 hx with rfl | hx
        · exact h2.trans (min_le_right _ _)
        · exact h3 x hx
  intro d hd hl
  obtain ⟨h1, h2, h3⟩ := gen l d
  refine ⟨?_, fun x hx => h3 x hx⟩
  rcases h1 with h1 | h1
  · obtain ⟨a, ha⟩ := List.exists_mem_of_ne_nil l hl
    have := hd a ha
    have h4 := h3 a ha
    rw [h1] at h4 ⊢
    exact (le_antisymm this h4) ▸ ha
  · exact h1

theorem foldl_max_greatest (l : List ℤ) (d : ℤ) (hd : ∀ x ∈ l, d ≤ x) (hl : l ≠ []) :
    IsGreatest {x | x ∈ l} (l.foldl max d) := by
  have e : ∀ (l : List ℤ) (d : ℤ), l.foldl max d = -((l.map Neg.neg).foldl min (-d)) := by
    intro l
    induction l with
    | nil => intro d; simp
    | cons a l ih =>
      intro d
      rw [List.foldl_cons, ih, List.map_cons, List.foldl_cons]
      congr 2
      omega
  have h := foldl_min_least (l.map Neg.neg) (-d) (by
    intro x hx
    obtain ⟨y, hy, rfl⟩ := List.mem_map.1 hx
    have := hd y hy
    omega) (by simpa using hl)
  rw [e]
  constructor
  · obtain ⟨y, hy, h1⟩ := List.mem_map.1 h.1
    show -_ ∈ l
    rw [← h1, neg_neg]
    exact hy
  · intro x hx
    have := h.2 (show -x ∈ l.map Neg.neg from List.mem_map.2 ⟨x, hx, rfl⟩)
    omega

variable {T : Type} {host : ViewerHost T}

/-- The labels of a triangulation are values of `Int_precision`. -/
def LabelsAreInts (host : ViewerHost T) (t : T) : Prop :=
  ∀ v, -2 ^ 31 ≤ (host.codec.view t).vinfo v ∧ (host.codec.view t).vinfo v < 2 ^ 31

theorem validateFixture_ok {t : T} (hl : LabelsAreInts host t) {m : ViewerManifest} {u : PUnit}
    (h : validateFixture host t m = .ok u) :
    host.isValid t = true ∧ host.codec.dimension t = 3 ∧ 0 < (host.codec.view t).nv ∧
    ((host.codec.view t).nv : ℤ) = m.expected.vertices ∧ (host.codec.edges t : ℤ) = m.expected.edges ∧
    (host.codec.facets t : ℤ) = m.expected.faces ∧ ((host.codec.view t).nc : ℤ) = m.expected.simplices ∧
    IsLeast (Set.range (host.codec.view t).vinfo) m.expected.minimumTimeslice ∧
    IsGreatest (Set.range (host.codec.view t).vinfo) m.expected.maximumTimeslice := by
  unfold validateFixture at h
  simp only [bind_ok, refuseIf_ok, decide_eq_false_iff_not, not_or, ne_eq, not_not] at h
  obtain ⟨a, h1, h2, h3, h4, h5, h6, h7⟩ := h
  unfold topologyCounts at h1
  split at h1
  · cases h1
  rename_i c1
  split at h1
  · cases h1
  rename_i c2
  have h1 := Except.ok.inj h1
  subst h1
  dsimp only at h2 h3 h4 h5 h6 h7
  simp only [Bool.or_eq_true, Bool.not_eq_true', decide_eq_true_eq, not_or, Bool.not_eq_false, ne_eq, not_not] at c1
  have hne : List.ofFn (host.codec.view t).vinfo ≠ [] := by
    intro hc
    exact c2 (by simpa using congrArg List.length hc)
  have hr : Set.range (host.codec.view t).vinfo = {x | x ∈ List.ofFn (host.codec.view t).vinfo} := by
    ext x; simp [List.mem_ofFn]
  refine ⟨c1.1, c1.2, Nat.pos_of_ne_zero c2, h2, h3, h4, h5, ?_, ?_⟩
  · rw [hr, ← h6]
    refine foldl_min_least _ _ (fun x hx => ?_) hne
    obtain ⟨v, rfl⟩ := List.mem_ofFn.1 hx
    have := hl v
    omega
  · rw [hr, ← h7]
    refine foldl_max_greatest _ _ (fun x hx => ?_) hne
    obtain ⟨v, rfl⟩ := List.mem_ofFn.1 hx
    exact (hl v).1

theorem prepareScene_ok {o : ViewerOptions} {fs : Files} {scene : Scene} {r : RenderConfig}
    (hl : ReadsInts host o fs)
    (h : prepareScene host o fs = .ok (scene, r)) :
    ∃ m t, Validated host o fs m t ∧ makeScene (host.mesh t) r = .ok scene ∧ r = m.render := by
  unfold prepareScene at h
  simp only [bind_ok] at h
  obtain ⟨path, h1, m, h2, fixture, h3, contents, h4, u, h5, v, h6, t, h7, w, h8, sc, h9, h10⟩ := h
  cases h10
  have h6 : m.cgalVersion = host.cgalVersion ∧ m.qtVersion = host.qtVersion := by
    unfold checkVersions at h6
    split at h6
    · cases h6
    · rename_i hc
      simpa only [not_or, ne_eq, not_not] using hc
  rw [refuseIf_ok, decide_eq_false_iff_not, not_not] at h5
  have hp : o.manifest = some path := by
    unfold requiredManifest at h1
    cases hm : o.manifest with
    | none => rw [hm] at h1; cases h1
    | some p => rw [hm] at h1; cases h1; rfl
  unfold loadManifest at h2
  simp only [bind_ok] at h2
  obtain ⟨mc, h11, h12⟩ := h2
  have h11 : fs path = some mc := by
    revert h11
    cases fs path with
    | none => intro h; cases h
    | some c => intro h; cases h; rfl
  split at h12
  · cases h12
  rename_i doc hdoc
  have h4 : fs fixture = some contents := by
    revert h4
    cases fs fixture with
    | none => intro h; cases h
    | some c => intro h; cases h; rfl
  have hn : NamesManifest host o fs m := ⟨path, mc, doc, hp, h11, hdoc, (parseManifest_iff.1 h12).1⟩
  have hfp : fixturePath host o m = .ok fixture := by
    unfold fixturePath
    unfold chosenFixture at h3
    simpa only [List.isEmpty_iff] using h3
  obtain ⟨g1, g2, g3, g4, g5, g6, g7, g8, g9⟩ := validateFixture_ok (hl _ _ _ hn hfp h7) h8
  exact ⟨m, t, ⟨hn, ⟨fixture, contents, hfp, h4, h5, h7⟩, h6, g1, g2, g3, g4, g5, g6, g7, g8, g9⟩, h9, rfl⟩

theorem validateImage_ok {r : RenderConfig} {path : Path} {fs : Files} {u : Unit}
    (h : validateImage host r path fs = .ok u) :
    ∃ c i, fs path = some c ∧ host.decode c = some i ∧ ImageOk r i := by
  unfold validateImage at h
  split at h
  · cases h
  rename_i i hi
  obtain ⟨c, hc, hd⟩ := Option.bind_eq_some_iff.1 hi
  split at h
  · cases h
  rename_i c1
  split at h
  · cases h
  rename_i c2
  simp only [ne_eq, not_or, not_not, not_lt] at c1 c2
  exact ⟨c, i, hc, hd, c1.1, c1.2, foregroundPixels_eq i r ▸ c2⟩

end CDT

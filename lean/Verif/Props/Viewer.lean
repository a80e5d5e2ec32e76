/-
C69-C72: the viewer.
-/
import Verif.Lemmas.Viewer
import Verif.Fixture.Floats
import Verif.Fixture.Storage
import Verif.Props.Storage
import Mathlib.Analysis.Real.Pi.Bounds

namespace CDT.Props
open CDT Spec Fixture

section
variable {T : Type} {host : ViewerHost T} {o : ViewerOptions} {fs fs' : Files} {events : List UiEvent}

/-! ### C69 -/

/-- How the viewer can end. -/
theorem viewer_cases (hr : ReadsInts host o fs) {status : ℤ} (h : viewerMain host (some o) events fs = some (status, fs'))
    (hh : o.help = false) (hv : o.version = false) :
    (status = 1 ∧ fs' = fs) ∨ ∃ m t scene, Validated host o fs m t ∧ makeScene (host.mesh t) m.render = .ok scene ∧
      ∃ failed s, eventLoop host scene m.render o.output events fs = some (s, failed, fs') ∧
        status = if failed then 1 else s := by
  unfold viewerMain at h
  simp only [hh, hv, Bool.false_eq_true, if_false] at h
  cases hp : prepareScene host o fs with
  | error e => rw [hp] at h; cases h; exact .inl ⟨rfl, rfl⟩
  | ok x =>
    obtain ⟨scene, r⟩ := x
    obtain ⟨m, t, h1, h2, rfl⟩ := prepareScene_ok hr hp
    rw [hp] at h
    dsimp only at h
    refine .inr ⟨m, t, scene, h1, h2, ?_⟩
    rcases he : eventLoop host scene m.render o.output events fs with _ | ⟨s, failed, fs₁⟩
    · rw [he] at h; cases h
    · rw [he] at h
      cases failed with
      | true => cases h; exact ⟨true, _, rfl, rfl⟩
      | false => cases h; exact ⟨false, _, rfl, rfl⟩

theorem eventLoop_silent (scene : Scene) (r : RenderConfig) (events : List UiEvent) (fs : Files) {x : ℤ × Bool × Files}
    (h : eventLoop host scene r [] events fs = some x) : x.2.2 = fs := by
  induction events with
  | nil => cases h
  | cons e events ih =>
    cases e with
    | quit s => cases h; rfl
    | timeout => exact ih h
    | initialized => exact ih h

/-- C69: the viewer changes a file only when asked for an image, and only after the fixture and the
manifest have been checked completely.  A replacement fixture is checked like the manifest's own. -/
theorem C69_nothing_written_unless_validated (hr : ReadsInts host o fs) {status : ℤ}
    (h : viewerMain host (some o) events fs = some (status, fs')) (hne : fs' ≠ fs) :
    o.output ≠ [] ∧ ∃ m t, Validated host o fs m t := by
  by_cases hh : o.help = true
  · unfold viewerMain at h
    dsimp only at h
    rw [if_pos hh] at h
    cases h; exact absurd rfl hne
  by_cases hv : o.version = true
  · unfold viewerMain at h
    dsimp only at h
    rw [if_neg hh, if_pos hv] at h
    cases h; exact absurd rfl hne
  rw [Bool.not_eq_true] at hh hv
  rcases viewer_cases hr h hh hv with ⟨-, h1⟩ | ⟨m, t, scene, h1, -, failed, s, h2, -⟩
  · exact absurd h1 hne
  · refine ⟨fun ho => ?_, m, t, h1⟩
    rw [ho] at h2
    exact hne (eventLoop_silent _ _ _ _ h2)

/-- C69: with `--output`, exit status 0 means: the fixture is the one the manifest describes, the
snapshot of its scene was taken, boundaries were outlined if asked for, and the file holds a readable
image of the declared size with at least the declared number of foreground pixels.  (Unless the
application was told to quit from outside.) -/
theorem C69_success_means (hr : ReadsInts host o fs) (h : viewerMain host (some o) events fs = some (0, fs'))
    (hh : o.help = false) (hv : o.version = false) (ho : o.output ≠ []) (hq : Unattended events) :
    ∃ m t scene taken, Validated host o fs m t ∧ makeScene (host.mesh t) m.render = .ok scene ∧
      host.snapshot scene m.render o.output fs = (true, taken) ∧
      (if m.render.drawEdges = true ∧ m.render.edgeScope = ascii "screen_space_face_boundaries" then
        ∃ shot source contents, taken o.output = some shot ∧ host.decode shot = some source ∧
          host.encode (outline m.render source) = some contents ∧ fs' = taken.put o.output (some contents)
       else fs' = taken) ∧
      ∃ final image, fs' o.output = some final ∧ host.decode final = some image ∧ ImageOk m.render image := by
  rcases viewer_cases hr h hh hv with ⟨h1, -⟩ | ⟨m, t, scene, h1, h2, failed, s, h3, h4⟩
  · cases h1
  cases failed with
  | true => rw [if_pos rfl] at h4; cases h4
  | false =>
    rw [if_neg (by decide)] at h4
    subst h4
    have hcb : renderCallback host scene m.render o.output fs = (0, false, fs') := by
      cases events with
      | nil => cases h3
      | cons e events =>
        have hoe : (List.isEmpty o.output) = false := by simpa using ho
        cases e with
        | quit s => exact absurd (.head _) (hq s)
        | timeout =>
          unfold eventLoop at h3
          rw [hoe] at h3
          cases h3
        | initialized =>
          unfold eventLoop at h3
          rw [hoe] at h3
          exact Option.some.inj h3
    unfold renderCallback at hcb
    split at hcb
    · cases hcb
    rename_i taken ht
    split at hcb
    · cases hcb
    rename_i fs₂ ho2
    split at hcb
    · cases hcb
    rename_i u hi
    have e : fs₂ = fs' := congrArg (fun p => p.2.2) hcb
    subst e
    refine ⟨m, t, scene, taken, h1, h2, ht, ?_, ?_⟩
    · unfold outlineFile at ho2
      by_cases hs : m.render.drawsScreenSpaceEdges = true
      · rw [if_pos (by simpa [RenderConfig.drawsScreenSpaceEdges] using hs)]
        rw [hs] at ho2
        simp only [Bool.not_true, Bool.false_eq_true, if_false] at ho2
        split at ho2
        · cases ho2
        rename_i source hsrc
        obtain ⟨shot, hs1, hs2⟩ := Option.bind_eq_some_iff.1 hsrc
        split at ho2
        · cases ho2
        rename_i contents hc
        exact ⟨shot, source, contents, hs1, hs2, hc, (Except.ok.inj ho2).symm⟩
      · rw [if_neg (by simpa [RenderConfig.drawsScreenSpaceEdges] using hs)]
        rw [Bool.not_eq_true] at hs
        rw [hs] at ho2
        simp only [Bool.not_false, if_true] at ho2
        exact (Except.ok.inj ho2).symm
    · exact validateImage_ok hi

/-- C69: a headless run in which the watchdog fires before the viewer is initialized fails and leaves
every file alone. -/
theorem C69_timeout (hh : o.help = false) (hv : o.version = false) (ho : o.output ≠ []) :
    viewerMain host (some o) (.timeout :: events) fs = some (1, fs) := by
  unfold viewerMain
  simp only [hh, hv, Bool.false_eq_true, if_false]
  cases prepareScene host o fs with
  | error e => rfl
  | ok x =>
    have hoe : (List.isEmpty o.output) = false := by simpa using ho
    simp only [eventLoop, hoe, Bool.false_eq_true, if_false]

/-- C69: the exit status is 0 or 1 unless the application is told to quit with another. -/
theorem C69_exit_status (hr : ReadsInts host o fs) {status : ℤ} (hq : Unattended events)
    (h : viewerMain host (some o) events fs = some (status, fs')) : status = 0 ∨ status = 1 := by
  by_cases hh : o.help = true
  · unfold viewerMain at h
    dsimp only at h
    rw [if_pos hh] at h
    cases h; exact .inl rfl
  by_cases hv : o.version = true
  · unfold viewerMain at h
    dsimp only at h
    rw [if_neg hh, if_pos hv] at h
    cases h; exact .inl rfl
  rw [Bool.not_eq_true] at hh hv
  rcases viewer_cases hr h hh hv with ⟨h1, -⟩ | ⟨m, t, scene, -, -, failed, s, h3, rfl⟩
  · exact .inr h1
  · cases failed with
    | true => exact .inr rfl
    | false =>
      rw [if_neg (by decide)]
      clear h
      induction events with
      | nil => cases h3
      | cons e events ih =>
        have hq' : Unattended events := fun s hs => hq s (.tail _ hs)
        cases e with
        | quit s => exact absurd (.head _) (hq s)
        | timeout =>
          unfold eventLoop at h3
          split at h3
          · exact ih hq' h3
          · cases h3
        | initialized =>
          unfold eventLoop at h3
          split at h3
          · exact ih hq' h3
          · have h3 := congrArg Prod.fst (Option.some.inj h3)
            unfold renderCallback at h3
            split at h3
            · exact .inr h3.symm
            · split at h3
              · exact .inr h3.symm
              · split at h3
                · exact .inr h3.symm
                · exact .inl h3.symm

/-- A limit of C69: `saveSnapshot` does not report failure.  If it does nothing, boundaries are not to
be outlined, and the file already holds a suitable image from an earlier run, the viewer reports
success for a picture it did not make. -/
theorem C69_stale_image_accepted (hh : o.help = false) (hv : o.version = false) (ho : o.output ≠ [])
    {scene : Scene} {r : RenderConfig} (hp : prepareScene host o fs = .ok (scene, r))
    (hsilent : host.snapshot scene r o.output fs = (true, fs)) (he : r.drawEdges = false) {contents : Bytes} {image : Image}
    (h1 : fs o.output = some contents) (h2 : host.decode contents = some image) (h3 : ImageOk r image) :
    viewerMain host (some o) (.initialized :: events) fs = some (0, fs) := by
  have hoe : (List.isEmpty o.output) = false := by simpa using ho
  have hc : renderCallback host scene r o.output fs = (0, false, fs) := by
    unfold renderCallback
    simp only [hsilent, outlineFile, RenderConfig.drawsScreenSpaceEdges, he, Bool.false_and, Bool.not_false, if_true,
      validateImage, h1, Option.bind_some, h2]
    rw [if_neg (by rw [h3.width, h3.height]; simp), if_neg (by rw [foregroundPixels_eq]; exact not_lt.2 h3.foreground)]
  unfold viewerMain
  simp only [hh, hv, Bool.false_eq_true, if_false, hp, eventLoop, hoe, hc]

end

/-! ### C70 -/

/-- C70: an accepted manifest means what it says, field by field and within every range, and its
frame buffer is practical. -/
theorem C70_manifest_sound {ext flt : FloatFormat} (hF : ext.Lawful) {resolve : Bytes → Except Exc Bytes}
    {root : String → Json} {m : ViewerManifest} (h : parseManifest ext flt resolve root = .ok m) :
    Means flt resolve (.obj root) m ∧
      Practical ⌊(m.render.width : ℚ) * m.render.oversampling⌋ ⌊(m.render.height : ℚ) * m.render.oversampling⌋ := by
  obtain ⟨hm, hf⟩ := parseManifest_iff.1 h
  have hw := hm.width.2; have hh := hm.height.2; have ho := hm.oversampling.2
  have hw' := hm.width.1.2.2.1; have hh' := hm.height.1.2.2.1
  obtain ⟨a, b, h1, -, h2, -, h3⟩ := frame_iff hF hw hh (by linarith : (0 : ℚ) < m.render.oversampling) ho.2
    (by omega) (by omega)
  have wq : (0 : ℚ) < m.render.width := by exact_mod_cast hw
  have hq : (0 : ℚ) < m.render.height := by exact_mod_cast hh
  exact ⟨hm, CDT.Practical.mono (h3.1 hf) h1 h2 (Int.floor_nonneg.2 (mul_nonneg wq.le (by linarith)))
    (Int.floor_nonneg.2 (mul_nonneg hq.le (by linarith)))⟩

/-- C70: and every document that means a manifest whose frame buffer, rounded up, is practical is
accepted as that manifest. -/
theorem C70_manifest_complete {ext flt : FloatFormat} (hF : ext.Lawful) {resolve : Bytes → Except Exc Bytes}
    {root : String → Json} {m : ViewerManifest} (hm : Means flt resolve (.obj root) m)
    (hp : Practical ⌈(m.render.width : ℚ) * m.render.oversampling⌉ ⌈(m.render.height : ℚ) * m.render.oversampling⌉) :
    parseManifest ext flt resolve root = .ok m := by
  have hw := hm.width.2; have hh := hm.height.2; have ho := hm.oversampling.2
  have hw' := hm.width.1.2.2.1; have hh' := hm.height.1.2.2.1
  obtain ⟨a, b, h1, h1', h2, h2', h3⟩ := frame_iff hF hw hh (by linarith : (0 : ℚ) < m.render.oversampling) ho.2
    (by omega) (by omega)
  have wq : (0 : ℚ) < m.render.width := by exact_mod_cast hw
  have hq : (0 : ℚ) < m.render.height := by exact_mod_cast hh
  refine parseManifest_iff.2 ⟨hm, h3.2 (CDT.Practical.mono hp h1' h2' (le_trans (Int.floor_nonneg.2 ?_) h1) (le_trans (Int.floor_nonneg.2 ?_) h2))⟩
  · exact mul_nonneg wq.le (by linarith)
  · exact mul_nonneg hq.le (by linarith)

/-- The exceptions of a computation satisfy `P`. -/
def Throws {α : Type _} (P : Exc → Prop) (x : Except Exc α) : Prop := ∀ e, x = .error e → P e

theorem Throws.bind {α β : Type _} {P : Exc → Prop} {x : Except Exc α} {f : α → Except Exc β} (hx : Throws P x)
    (hf : ∀ a, Throws P (f a)) : Throws P (x >>= f) := by
  intro e h
  cases x with
  | error e' => cases h; exact hx _ rfl
  | ok a => exact hf a e h

theorem Throws.ok {α : Type _} {P : Exc → Prop} (a : α) : Throws P (Except.ok a : Except Exc α) := fun _ h => by cases h

/-- C70: what is refused is refused with `std::invalid_argument`, unless the path of the fixture cannot
be resolved. -/
theorem C70_refused_with {ext flt : FloatFormat} {resolve : Bytes → Except Exc Bytes} {root : String → Json} {e : Exc}
    (h : parseManifest ext flt resolve root = .error e) : e = .invalidArgument ∨ ∃ s, resolve s = .error e := by
  let P : Exc → Prop := fun e => e = .invalidArgument ∨ ∃ s, resolve s = .error e
  have bad : ∀ {α : Type}, Throws P (Except.error .invalidArgument : Except Exc α) := fun _ h => by cases h; exact .inl rfl
  have rif : ∀ b, Throws P (refuseIf b : Except Exc PUnit.{1}) := by
    intro b; unfold refuseIf; split; exacts [bad, .ok _]
  have ro : ∀ f k, Throws P (Json.requireObject f k) := by
    intro f k; unfold Json.requireObject; split; exacts [.ok _, bad]
  have ra : ∀ f k, Throws P (Json.requireArray f k) := by
    intro f k; unfold Json.requireArray; split; exacts [.ok _, bad]
  have rs : ∀ f k, Throws P (Json.requireString f k) := by
    intro f k; unfold Json.requireString; split
    · split; exacts [bad, .ok _]
    · exact bad
  have rb : ∀ f k, Throws P (Json.requireBool f k) := by
    intro f k; unfold Json.requireBool; split; exacts [.ok _, bad]
  have fn : ∀ j, Throws P (Json.finiteNumber j) := by
    intro j; unfold Json.finiteNumber; split; exacts [.ok _, bad]
  have rn : ∀ f k, Throws P (Json.requireNumber f k) := fun f k => fn _
  have ri : ∀ lo hi f k, Throws P (Json.requireInteger lo hi f k) := fun lo hi f k =>
    (rn f k).bind fun _ => (rif _).bind fun _ => .ok _
  have rt : ∀ f k, Throws P (Json.requireInt f k) := ri _ _
  have rz : ∀ f k, Throws P (Json.requireSize f k) := ri _ _
  have rv : ∀ f k, Throws P (Json.requireVector f k) := by
    intro f k
    refine (ra f k).bind fun l => ?_
    split
    · exact (fn _).bind fun _ => (fn _).bind fun _ => (fn _).bind fun _ => .ok _
    · exact bad
  have ch : ∀ j, Throws P (Json.channel j) := by
    intro j; unfold Json.channel; split
    · split; exacts [bad, .ok _]
    · exact bad
  have rc : ∀ f k, Throws P (Json.requireColor f k) := by
    intro f k
    refine (ra f k).bind fun l => ?_
    split
    · exact (ch _).bind fun _ => (ch _).bind fun _ => (ch _).bind fun _ => (ch _).bind fun _ => .ok _
    · exact bad
  have pe : ∀ j, Throws P (Json.paletteEntry j) := by
    intro j; unfold Json.paletteEntry; split
    · exact (ch _).bind fun _ => (ch _).bind fun _ => (ch _).bind fun _ => .ok _
    · exact bad
  have pm : ∀ l : List Json, Throws P (l.mapM Json.paletteEntry) := by
    intro l
    induction l with
    | nil => exact .ok _
    | cons a l ih =>
      rw [List.mapM_cons]
      exact (pe a).bind fun _ => ih.bind fun _ => .ok _
  have re : ∀ s, Throws P (resolve s) := fun s e h => .inr ⟨s, h⟩
  have key : Throws P (parseManifest ext flt resolve root) := by
    unfold parseManifest
    repeat' first
      | exact .ok _
      | exact rif _
      | exact ro _ _
      | exact ra _ _
      | exact rs _ _
      | exact rb _ _
      | exact rn _ _
      | exact rt _ _
      | exact rz _ _
      | exact rv _ _
      | exact rc _ _
      | exact pm _
      | exact re _
      | refine Throws.bind ?_ fun _ => ?_
  exact key e h

/-- C70: the camera's field of view is below π, and the number of foreground pixels asked for can be
reached. -/
theorem C70_consequences {ext flt : FloatFormat} {resolve : Bytes → Except Exc Bytes}
    {root : String → Json} {m : ViewerManifest} (h : parseManifest ext flt resolve root = .ok m) :
    (m.render.camera.fieldOfView : ℝ) < Real.pi ∧ ∃ i : Image, ImageOk m.render i := by
  obtain ⟨hm, -⟩ := parseManifest_iff.1 h
  refine ⟨?_, ?_⟩
  · have h1 : (m.render.camera.fieldOfView : ℝ) < ((piDouble : ℚ) : ℝ) := by exact_mod_cast hm.fieldOfView.2.2
    refine h1.trans (lt_trans ?_ Real.pi_gt_d20)
    norm_num [piDouble]
  · have hw := hm.width.2; have hh := hm.height.2; have hfg := hm.foreground.2
    obtain ⟨w, hwe⟩ := Int.eq_ofNat_of_zero_le hw.le
    obtain ⟨g, hge⟩ := Int.eq_ofNat_of_zero_le hh.le
    obtain ⟨c, hc⟩ : ∃ c : Rgba, if m.render.transparentBackground then c.a ≠ 0 else c ≠ m.render.background := by
      by_cases hb : m.render.transparentBackground = true
      · exact ⟨⟨0, 0, 0, 255⟩, by rw [if_pos hb]; decide⟩
      · refine ⟨⟨m.render.background.r + 1, 0, 0, 255⟩, ?_⟩
        rw [if_neg hb]
        intro he
        have := congrArg Rgba.r he
        dsimp only at this
        revert this
        generalize m.render.background.r = r
        intro hr
        have := congrArg Fin.val hr
        rw [Fin.val_add] at this
        have := r.isLt
        simp at *
    refine ⟨⟨w, g, fun _ _ => c⟩, hwe.symm, hge.symm, ?_⟩
    have hs : {p | Foreground m.render ⟨w, g, fun _ _ => c⟩ p} = ↑(Finset.range w ×ˢ Finset.range g) := by
      ext ⟨x, y⟩
      simp [Foreground, hc]
    rw [hs, Set.ncard_coe_finset, Finset.card_product, Finset.card_range, Finset.card_range]
    rw [hwe, hge] at hfg
    push_cast
    exact hfg

/-! ### C71 -/

/-- C71: with a palette that is not empty, as every accepted manifest has, a scene is always made. -/
theorem C71_scene_exists (t : Mesh) {r : RenderConfig} (hp : r.facePalette ≠ []) : ∃ scene, makeScene t r = .ok scene :=
  ⟨_, makeScene_ok t r (List.length_pos_iff.2 hp)⟩

/-- C71: the colour of a face is an entry of the palette that depends on nothing but the palette and
the bit patterns and labels of the three corners in no order: not on the triangulation around it, the
cell it is seen from, the order of storage, other settings, or earlier scenes. -/
theorem C71_face_color (palette : List (Fin 256 × Fin 256 × Fin 256)) :
    ∃ color : Multiset (List ℕ) → Fin 256 × Fin 256 × Fin 256, (palette ≠ [] → ∀ m, color m ∈ palette) ∧
      ∀ (t : Mesh) (r : RenderConfig) (scene : Scene), r.facePalette = palette → palette ≠ [] → r.drawFaces = true →
        makeScene t r = .ok scene →
        scene.faces.map Prod.fst = t.facets.map fun f => color ((t.facetCorners f).map t.vertexKey) := by
  refine ⟨fun m =>
    (palette[(Mesh.keysHash (m.toList.insertionSort (· ≤ ·))).toNat % palette.length]?).getD default, ?_, ?_⟩
  · intro hp m
    dsimp only
    rw [List.getElem?_eq_getElem (Nat.mod_lt _ (List.length_pos_iff.2 hp)), Option.getD_some]
    exact List.getElem_mem _
  · rintro t r scene rfl hp hd h
    rw [makeScene_ok t r (List.length_pos_iff.2 hp)] at h
    cases h
    simp only [hd, if_true, List.map_map]
    apply List.map_congr_left
    intro f _
    simp only [Function.comp]
    unfold facetColor
    rw [List.getElem?_eq_getElem (Nat.mod_lt _ (List.length_pos_iff.2 hp)), Option.getD_some]
    have : ((((t.facetCorners f).map t.vertexKey : List (List ℕ)) : Multiset (List ℕ)).toList).insertionSort (· ≤ ·) =
        ((t.facetCorners f).map t.vertexKey).insertionSort (· ≤ ·) :=
      Mesh.insertionSort_congr (Multiset.coe_eq_coe.1 (Multiset.coe_toList _))
    simp only [this, ← Mesh.facetHash_corners]

/-- C71: each facet is drawn as a triangle of its own three corners, counterclockwise seen from
outside. -/
theorem C71_orientation {t : Mesh} {r : RenderConfig} {scene : Scene} (hf : FiniteFacets t) (hp : r.facePalette ≠ [])
    (hd : r.drawFaces = true) (h : makeScene t r = .ok scene) :
    List.Forall₂ (fun f face => ∃ u v w, (∀ x, x ∈ [u, v, w] ↔ CornerOf t x f) ∧
      face.2 = [t.coord u, t.coord v, t.coord w] ∧ 0 ≤ det3 (t.coord u) (t.coord v) (t.coord w))
      t.facets scene.faces := by
  rw [makeScene_ok t r (List.length_pos_iff.2 hp)] at h
  cases h
  simp only [hd, if_true]
  rw [List.forall₂_map_right_iff, List.forall₂_same]
  intro f hfm
  have h3 := t.facetCorners_length (hf f hfm)
  have hperm := t.facetVertices_perm f
  have hlen : (t.facetVertices f).length = 3 := by rw [hperm.length_eq, h3]
  obtain ⟨a, b, c, habc⟩ := List.length_eq_three.1 hlen
  have hmem : ∀ x, x ∈ [a, b, c] ↔ CornerOf t x f := by
    intro x
    rw [← habc, hperm.mem_iff, Mesh.mem_facetCorners]
  rw [habc]
  unfold Mesh.orientOutward
  dsimp only
  by_cases hneg : radialAlignment (t.coord a) (t.coord b) (t.coord c) < 0
  · rw [if_pos hneg]
    refine ⟨a, c, b, fun x => ?_, rfl, ?_⟩
    · rw [← hmem]; simp only [List.mem_cons, List.not_mem_nil, or_false]; tauto
    · have := radialAlignment_swap (t.coord a) (t.coord b) (t.coord c)
      rw [radialAlignment_eq] at this hneg
      rw [radialAlignment_eq] at this
      linarith
  · rw [if_neg hneg]
    refine ⟨a, b, c, hmem, rfl, ?_⟩
    rw [radialAlignment_eq] at hneg
    linarith

/-- C71: the vertices drawn, once each: all of them, or those on the convex hull (and any that have the
same coordinates and label as one of these). -/
theorem C71_vertices {t : Mesh} {r : RenderConfig} {scene : Scene} (hp : r.facePalette ≠ []) (hd : r.drawVertices = true)
    (h : makeScene t r = .ok scene) :
    ∃ shown : List (Fin t.nv), shown.Nodup ∧ scene.vertices = shown.map (fun v => (t.coord v, r.pointColor)) ∧
      (r.vertexScope = ascii "all" → ∀ v, v ∈ shown) ∧
      (r.vertexScope = ascii "convex_hull" → ∀ v, v ∈ shown ↔ ∃ w, OnHull t w ∧ t.vertexKey w = t.vertexKey v) := by
  rw [makeScene_ok t r (List.length_pos_iff.2 hp)] at h
  cases h
  simp only [hd, if_true]
  refine ⟨shownVertices t r, (List.nodup_finRange _).filter _, rfl, fun ha v => ?_, fun hc v => ?_⟩
  · simp [shownVertices, ha]
  · have hne : ascii "convex_hull" ≠ ascii "all" := by decide
    simp only [shownVertices, hc, hne, decide_false, Bool.false_or, if_true, List.mem_filter, List.mem_finRange, true_and,
      decide_eq_true_eq, Mesh.mem_hull]

/-- C71: for distinct vertices it is exactly the hull. -/
theorem C71_hull {t : Mesh} {r : RenderConfig} {scene : Scene} (hp : r.facePalette ≠ []) (hd : r.drawVertices = true)
    (hi : Function.Injective t.vertexKey) (hs : r.vertexScope = ascii "convex_hull") (h : makeScene t r = .ok scene) :
    ∃ shown : List (Fin t.nv), shown.Nodup ∧ (∀ v, v ∈ shown ↔ OnHull t v) ∧
      scene.vertices = shown.map fun v => (t.coord v, r.pointColor) := by
  obtain ⟨shown, h1, h2, -, h3⟩ := C71_vertices hp hd h
  refine ⟨shown, h1, fun v => (h3 hs v).trans ⟨?_, fun hv => ⟨v, hv, rfl⟩⟩, h2⟩
  rintro ⟨w, hw, hk⟩
  rwa [← hi hk]

/-- C71: two stored forms of the same complex give the same scene up to the order in which things are
drawn: the same vertices, the same edges, and the same faces with the same colours and the same corners
in the same order. -/
theorem C71_storage_order {t t' : Mesh} (hs : SameComplex t t') {value : BitVec 64 → ℚ} (he : Encodes value t)
    (he' : Encodes value t') {r : RenderConfig} (hp : r.facePalette ≠ []) {scene scene' : Scene}
    (h : makeScene t r = .ok scene) (h' : makeScene t' r = .ok scene') :
    scene.vertices.Perm scene'.vertices ∧ (scene.edges.map bareEdge).Perm (scene'.edges.map bareEdge) ∧
      scene.faces.Perm scene'.faces := by
  rw [makeScene_ok _ r (List.length_pos_iff.2 hp)] at h h'
  cases h; cases h'
  have keyOf : ∀ (f : Fin t.nc × Fin 4) (f' : Fin t'.nc × Fin 4), facetData t f = facetData t' f' →
      ((t.facetCorners f).map t.vertexKey).Perm ((t'.facetCorners f').map t'.vertexKey) := by
    intro f f' hff
    have h1 := congrArg (fun p => Multiset.map Prod.fst p.1) hff
    simp only [facetData, Multiset.map_coe, Multiset.coe_eq_coe, List.map_map] at h1
    exact h1
  have hullSub : ∀ {t t' : Mesh}, SameComplex t t' → ∀ k, k ∈ t.convexHullVertices → k ∈ t'.convexHullVertices := by
    intro t t' hs k hk
    rw [Mesh.mem_hull] at hk ⊢
    obtain ⟨v, ⟨f, hf, ho, hc⟩, rfl⟩ := hk
    have hm := hs.facets.mem_iff.1 (List.mem_map_of_mem (f := facetData t) hf)
    obtain ⟨f', hf', hff⟩ := List.mem_map.1 hm
    have ho' : Outer t' f' := by
      rw [← Mesh.onHull_iff] at ho ⊢
      rw [← ho]; exact congrArg Prod.snd hff
    have hv : vertexData t v ∈ ((t.facetCorners f : List (Fin t.nv)) : Multiset (Fin t.nv)).map (vertexData t) :=
      Multiset.mem_map_of_mem _ (by simpa [Mesh.mem_facetCorners] using hc)
    have hff1 : ((t'.facetCorners f' : List (Fin t'.nv)) : Multiset (Fin t'.nv)).map (vertexData t') =
        ((t.facetCorners f : List (Fin t.nv)) : Multiset (Fin t.nv)).map (vertexData t) := congrArg Prod.fst hff
    rw [← hff1] at hv
    obtain ⟨w, hw, hwv⟩ := Multiset.mem_map.1 hv
    exact ⟨w, ⟨f', hf', ho', by simpa [Mesh.mem_facetCorners] using hw⟩, congrArg Prod.fst hwv⟩
  have hsymm : SameComplex t' t := ⟨hs.vertices.symm, hs.edges.symm, hs.facets.symm⟩
  refine ⟨?_, ?_, ?_⟩
  · dsimp only
    split
    · have e : ∀ t : Mesh, (shownVertices t r).map (fun v => (t.coord v, r.pointColor)) =
          ((((List.finRange t.nv).map (vertexData t)).filter fun d => decide (r.vertexScope = ascii "all") ||
            decide (d.1 ∈ if r.vertexScope = ascii "convex_hull" then t.convexHullVertices else [])).map
              fun d => (d.2, r.pointColor)) := by
        intro t
        rw [List.filter_map, List.map_map]
        rfl
      rw [e, e]
      refine List.Perm.map _ ((hs.vertices.filter _).trans (.of_eq ?_))
      congr 1
      funext d
      congr 2
      split
      · exact propext ⟨hullSub hs _, hullSub hsymm _⟩
      · rfl
    · exact .refl _
  · dsimp only
    split
    · rw [List.map_map, List.map_map]
      refine perm_map_mono hs.edges fun e _ e' _ hee => ?_
      have := congrArg (Sym2.map Prod.snd) hee
      simp only [Sym2.map_mk, vertexData] at this
      simp only [Function.comp, bareEdge, Prod.mk.injEq, and_true]
      exact this
    · exact .refl _
  · dsimp only
    split
    · refine perm_map_mono hs.facets fun f _ f' _ hff => ?_
      have hk := Mesh.insertionSort_congr (keyOf f f' hff)
      rw [drawn_eq he, drawn_eq he', hk]
      have hh : t.facetHash (t.facetVertices f) = t'.facetHash (t'.facetVertices f') := by
        rw [Mesh.facetHash_corners, Mesh.facetHash_corners, hk]
      simp only [facetColor, hh]
    · exact .refl _

/-! ### C72 -/

/-- C72: outlining keeps the size of the image and paints, in the edge colour, exactly the positions
the description names; every other pixel is that of the snapshot.  Painted pixels do not affect what
else is painted. -/
theorem C72_outline (r : RenderConfig) (source : Image) :
    (outline r source).width = source.width ∧ (outline r source).height = source.height ∧
    ∀ x y, (Painted r source x y → (outline r source).pixel x y = r.edgeColor) ∧
      (¬ Painted r source x y → (outline r source).pixel x y = source.pixel x y) := by
  unfold outline
  obtain ⟨g1, g2, g3⟩ := (outlineStep_paints (r := r) (source := source)).all source source
  obtain ⟨h1, h2, h3⟩ := (pointStep_paints (r := r) (source := source)).all source
    (forPixels source (outlineStep r source) source)
  refine ⟨h1.trans g1, h2.trans g2, fun x y => ?_⟩
  obtain ⟨g4, g5⟩ := g3 x y
  obtain ⟨h4, h5⟩ := h3 x y
  rw [edgeHits_iff] at g4 g5
  rw [rimHits_iff] at h4 h5
  unfold Painted
  constructor
  · intro hp
    by_cases hr : Mark r source x y ∧ ¬ MarkInterior r source x y
    · exact h4 hr
    · rw [h5 hr]
      refine g4 ?_
      rcases hp with hp | hp | hp | hp
      · exact .inl hp
      · exact .inr (.inl hp)
      · exact .inr (.inr hp)
      · exact absurd hp hr
  · intro hp
    rw [h5 fun hr => hp (.inr (.inr (.inr hr)))]
    refine g5 fun hc => hp ?_
    rcases hc with hc | hc | hc
    · exact .inl hc
    · exact .inr (.inl hc)
    · exact .inr (.inr (.inl hc))

/-- C72: only positions inside the image that are not transparent are painted. -/
theorem C72_transparent_untouched (r : RenderConfig) (source : Image) {x y : ℕ} (h : ¬ Opaque source x y) :
    (outline r source).pixel x y = source.pixel x y := by
  refine ((C72_outline r source).2.2 x y).2 fun hp => h ?_
  rcases hp with hp | hp | ⟨-, ⟨-, hp⟩ | ⟨-, hp⟩⟩ | ⟨hp, -⟩
  · exact hp.1
  · exact hp.1
  · exact hp.2.1
  · exact hp.2.1
  · exact hp.1

/-- C72: with a transparent background and an edge colour that is not transparent, outlining does not
change which positions are foreground. -/
theorem C72_foreground_preserved (r : RenderConfig) (source : Image) (hb : r.transparentBackground = true)
    (he : r.edgeColor.a ≠ 0) (p : ℕ × ℕ) : Foreground r (outline r source) p ↔ Foreground r source p := by
  obtain ⟨h1, h2, h3⟩ := C72_outline r source
  unfold Foreground
  rw [h1, h2, hb]
  simp only [if_true]
  by_cases ho : Opaque source p.1 p.2
  · by_cases hp : Painted r source p.1 p.2
    · rw [(h3 _ _).1 hp]
      simp [he, ho.1, ho.2.1, ho.2.2]
    · rw [(h3 _ _).2 hp]
  · rw [C72_transparent_untouched r source ho]

/-- C72: the number compared with the minimum is the number of foreground positions. -/
theorem C72_foreground_count (r : RenderConfig) (i : Image) : foregroundPixels i r = {p | Foreground r i p}.ncard :=
  foregroundPixels_eq i r

/-- C72: distances between colours lie between 0 and 765, the range the manifest allows for the
threshold and the tolerance, and both ends occur: threshold 765 outlines no boundary, tolerance 765
takes every visible pixel for a mark. -/
theorem C72_range (p q : Rgba) : 0 ≤ colorDistance p q ∧ colorDistance p q ≤ 765 := by
  have h : ∀ a b : Fin 256, 0 ≤ |(a.val : ℤ) - b.val| ∧ |(a.val : ℤ) - b.val| ≤ 255 := by
    intro a b
    refine ⟨abs_nonneg _, abs_le.2 ⟨?_, ?_⟩⟩ <;> omega
  unfold colorDistance
  obtain ⟨a, b⟩ := h p.r q.r
  obtain ⟨c, d⟩ := h p.g q.g
  obtain ⟨e, f⟩ := h p.b q.b
  omega

/-- C72: at the ends of these ranges. -/
theorem C72_extremes (r : RenderConfig) (source : Image) :
    (r.edgeThreshold = 765 → ∀ x y x' y', ¬ Separated r source x y x' y') ∧
    (r.pointTolerance = 765 → ∀ x y, Mark r source x y ↔ Opaque source x y) := by
  refine ⟨fun h x y x' y' hs => ?_, fun h x y => ⟨fun hm => hm.1, fun ho => ⟨ho, ?_⟩⟩⟩
  · have := hs.2.2; have := (C72_range (source.pixel x y) (source.pixel x' y')).2; omega
  · rw [h]; exact (C72_range _ _).2

/-! ### Examples -/

namespace ViewerSample

/-- An object with the listed members. -/
def object (members : List (String × Json)) : Json := .obj fun k => (members.lookup k).getD .undefined

/-- An integer. -/
def int (n : ℤ) : Json := .num (.fin n)

/-- The members of a manifest for a picture of 2 by 1 pixels of a fixture with three vertices. -/
def members (pointSize : ℚ) : List (String × Json) := [
  ("schema_version", int 1),
  ("fixture", object [("path", .str samplePath), ("sha256", .str (ascii "digest")),
    ("expected_topology", object [("vertices", int 3), ("edges", int 0), ("faces", int 0), ("simplices", int 0),
      ("minimum_timeslice", int 1), ("maximum_timeslice", int 3)])]),
  ("renderer", object [("cgal_version", .str (ascii "6.1")), ("qt_version", .str (ascii "6.9"))]),
  ("render", object [("width", int 2), ("height", int 1), ("output_format", .str (ascii "png")),
    ("transparent_background", .bool true), ("oversampling", .num (.fin (3 / 2))), ("expand_frustum", .bool false),
    ("geometry", object [("vertices", .bool true), ("edges", .bool true), ("faces", .bool true),
      ("vertex_scope", .str (ascii "convex_hull")), ("edge_scope", .str (ascii "screen_space_face_boundaries"))]),
    ("style", object [("background_rgba", .arr [int 255, int 255, int 255, int 0]), ("point_size", .num (.fin pointSize)),
      ("line_width", int 2), ("edge_color_difference_threshold", int 24), ("point_color_match_tolerance", int 8),
      ("flat_shading", .bool true), ("point_rgba", .arr [int 200, int 0, int 0, int 255]),
      ("edge_rgba", .arr [int 16, int 16, int 16, int 255]),
      ("face_palette", .arr [.arr [int 120, int 180, int 240], .arr [int 240, int 200, int 120]])]),
    ("camera", object [("projection", .str (ascii "perspective")), ("position", .arr [int 4, int 3, int 2]),
      ("target", .arr [int 0, int 0, int 0]), ("up", .arr [int 0, int 0, int 1]),
      ("vertical_field_of_view_radians", .num (.fin (1 / 2)))])]),
  ("comparison", object [("minimum_foreground_pixels", int 2)])]

/-- The root object. -/
def root (pointSize : ℚ := 3) : String → Json := fun k => ((members pointSize).lookup k).getD .undefined

/-- What it means. -/
def manifest : ViewerManifest where
  fixture := samplePath
  sha256 := ascii "digest"
  expected := ⟨3, 0, 0, 0, 1, 3⟩
  cgalVersion := ascii "6.1"
  qtVersion := ascii "6.9"
  render := {
    width := 2, height := 1, transparentBackground := true, oversampling := 3 / 2, expandFrustum := false
    background := ⟨255, 255, 255, 0⟩, drawVertices := true, drawEdges := true, drawFaces := true
    vertexScope := ascii "convex_hull", edgeScope := ascii "screen_space_face_boundaries"
    pointSize := .fin 3, lineWidth := .fin 2, edgeThreshold := 24, pointTolerance := 8, flatShading := true
    pointColor := ⟨200, 0, 0, 255⟩, edgeColor := ⟨16, 16, 16, 255⟩
    facePalette := [(120, 180, 240), (240, 200, 120)], minimumForeground := 2
    camera := ⟨ascii "perspective", (4, 3, 2), (0, 0, 0), (0, 0, 1), 1 / 2⟩ }

theorem parsed : parseManifest exactFmt exactFmt .ok (root 3) = .ok manifest := by decide +kernel

-- Hypotheses of C70_manifest_sound, C70_consequences.
example : Means exactFmt .ok (.obj (root 3)) manifest := (C70_manifest_sound exactFmt_lawful parsed).1
-- Hypotheses of C70_manifest_complete.
example : Practical ⌈((manifest.render.width : ℤ) : ℚ) * manifest.render.oversampling⌉
    ⌈((manifest.render.height : ℤ) : ℚ) * manifest.render.oversampling⌉ := by unfold Practical; decide +kernel
example : (manifest.render.camera.fieldOfView : ℝ) < Real.pi := (C70_consequences parsed).1
-- Refused documents.
example : parseManifest exactFmt exactFmt .ok (root 0) = .error .invalidArgument := by decide +kernel
example : parseManifest exactFmt exactFmt (fun _ => .error .filesystemError) (root 3) = .error .filesystemError := by
  decide +kernel

/-- A tetrahedron around the origin: one finite cell, four infinite ones. -/
def tetrahedron : Mesh where
  nv := 4
  nc := 5
  coord := ![(1, 1, 1), (1, -1, -1), (-1, 1, -1), (-1, -1, 1)]
  bits := ![(1, 1, 1), (1, -1, -1), (-1, 1, -1), (-1, -1, 1)]
  label := ![1, 1, 2, 2]
  corner := ![![some 0, some 1, some 2, some 3], ![none, some 1, some 2, some 3], ![some 0, none, some 2, some 3],
    ![some 0, some 1, none, some 3], ![some 0, some 1, some 2, none]]
  neighbor := ![![1, 2, 3, 4], ![0, 2, 3, 4], ![1, 0, 3, 4], ![1, 2, 0, 4], ![1, 2, 3, 0]]
  edges := [(0, 1), (0, 2), (0, 3), (1, 2), (1, 3), (2, 3)]
  facets := [(0, 0), (0, 1), (0, 2), (0, 3)]

/-- The same tetrahedron with its vertices stored in another order and its facets seen from outside. -/
def tetrahedron' : Mesh where
  nv := 4
  nc := 5
  coord := ![(-1, -1, 1), (-1, 1, -1), (1, -1, -1), (1, 1, 1)]
  bits := ![(-1, -1, 1), (-1, 1, -1), (1, -1, -1), (1, 1, 1)]
  label := ![2, 2, 1, 1]
  corner := ![![some 0, some 1, some 2, some 3], ![none, some 1, some 2, some 3], ![some 0, none, some 2, some 3],
    ![some 0, some 1, none, some 3], ![some 0, some 1, some 2, none]]
  neighbor := ![![1, 2, 3, 4], ![0, 2, 3, 4], ![1, 0, 3, 4], ![1, 2, 0, 4], ![1, 2, 3, 0]]
  edges := [(0, 1), (2, 0), (0, 3), (1, 2), (1, 3), (3, 2)]
  facets := [(4, 3), (1, 0), (3, 2), (2, 1)]

theorem finite : FiniteFacets tetrahedron := by
  unfold FiniteFacets; decide +kernel

-- Hypotheses of C71: the scene of the tetrahedron, with two colours of faces.
example : (makeScene tetrahedron manifest.render).map (fun s => (s.vertices.length, s.edges.length, s.faces.length)) =
    .ok (4, 0, 4) := by decide +kernel
example : ∃ scene, makeScene tetrahedron manifest.render = .ok scene ∧
    List.Forall₂ (fun f face => ∃ u v w, (∀ x, x ∈ [u, v, w] ↔ CornerOf tetrahedron x f) ∧
      face.2 = [tetrahedron.coord u, tetrahedron.coord v, tetrahedron.coord w] ∧
      0 ≤ det3 (tetrahedron.coord u) (tetrahedron.coord v) (tetrahedron.coord w)) tetrahedron.facets scene.faces :=
  let ⟨scene, h⟩ := C71_scene_exists tetrahedron (r := manifest.render) (by decide)
  ⟨scene, h, C71_orientation finite (by decide) rfl h⟩
example : Function.Injective tetrahedron.vertexKey := by unfold Function.Injective; decide +kernel
example : SameComplex tetrahedron tetrahedron' := ⟨by decide +kernel, by decide +kernel, by decide +kernel⟩
example : Encodes (fun b => b.toInt) tetrahedron := by unfold Encodes; decide +kernel
example : Encodes (fun b => b.toInt) tetrahedron' := by unfold Encodes; decide +kernel

/-- Two faces of different colour side by side, and a transparent row below. -/
def picture : Image := ⟨2, 2, fun x y => if y = 0 then (if x = 0 then ⟨120, 180, 240, 255⟩ else ⟨240, 200, 120, 255⟩)
  else ⟨255, 255, 255, 0⟩⟩

-- C72: a wide line is painted on both sides of the boundary; the transparent row stays.
example : ∀ x < 2, ∀ y < 2, (outline manifest.render picture).pixel x y =
    if y = 0 then manifest.render.edgeColor else picture.pixel x y := by decide +kernel
example : Painted manifest.render picture 0 0 := by
  left; unfold Separated Opaque; decide +kernel
example : foregroundPixels picture manifest.render = 2 := by decide +kernel

/-- Labels clipped to the range of `Int_precision`. -/
def codec : Codec (List ℤ) := { pointSet with
  view := fun l => { pointSet.view l with
    vinfo := fun v => if -2 ^ 31 ≤ l.get v ∧ l.get v < 2 ^ 31 then l.get v else 0 } }

/-- An uncompressed image format: two bytes of size, then four per pixel. -/
def encode (i : Image) : Option Bytes :=
  some (BitVec.ofNat 8 i.width :: BitVec.ofNat 8 i.height :: (List.range i.height).flatMap fun y =>
    (List.range i.width).flatMap fun x => [BitVec.ofNat 8 (i.pixel x y).r, BitVec.ofNat 8 (i.pixel x y).g,
      BitVec.ofNat 8 (i.pixel x y).b, BitVec.ofNat 8 (i.pixel x y).a])

/-- Reading it. -/
def decode : Bytes → Option Image
  | w :: h :: rest => some ⟨w.toNat, h.toNat, fun x y =>
      let at' := fun i => Fin.ofNat 256 (((rest[(y * w.toNat + x) * 4 + i]?).getD 0).toNat)
      ⟨at' 0, at' 1, at' 2, at' 3⟩⟩
  | _ => none

/-- A host on which everything works; its camera always sees the same two pixels. -/
def host : ViewerHost (List ℤ) where
  ext := exactFmt
  flt := exactFmt
  codec := codec
  text := integerText
  json b := if b = ascii "{}" then some (root 3) else none
  resolve _ s := .ok s
  canonical s := .ok s
  sha256 b := if b = payloadText pointSet newPoints then ascii "digest" else ascii "other"
  cgalVersion := ascii "6.1"
  qtVersion := ascii "6.9"
  isValid _ := true
  mesh _ := tetrahedron
  snapshot _ r path fs := (true, fs.put path (encode { picture with width := r.width.toNat, height := r.height.toNat }))
  decode := decode
  encode := encode

/-- The disk: the stored fixture and the manifest. -/
def disk : Files := publishedSample.put (ascii "viewer.json") (some (ascii "{}"))

/-- The command line. -/
def options : ViewerOptions := { manifest := some (ascii "viewer.json"), output := ascii "out.png" }

theorem readsInts (o : ViewerOptions) (fs : Files) : ReadsInts host o fs := by
  intro m path t _ _ _ v
  dsimp only [host, codec]
  split
  · assumption
  · decide

-- Hypotheses of C69: the run succeeds and leaves an outlined picture of two pixels.
theorem run : (viewerMain host (some options) [.initialized] disk).map (fun x => (x.1, x.2 options.output)) =
    some (0, some [2, 1, 16, 16, 16, 255, 16, 16, 16, 255]) := by decide +kernel

example : ∃ fs', viewerMain host (some options) [.initialized] disk = some (0, fs') ∧ fs' ≠ disk ∧
    ∃ m t, Validated host options disk m t := by
  obtain ⟨⟨s, fs'⟩, h1, h2⟩ := Option.map_eq_some_iff.1 run
  have hs : s = 0 := congrArg Prod.fst h2
  have hne : fs' ≠ disk := by
    intro he
    have h3 : fs' options.output = _ := congrArg Prod.snd h2
    rw [he] at h3
    revert h3
    decide +kernel
  subst hs
  exact ⟨fs', h1, hne, (C69_nothing_written_unless_validated (readsInts _ _) h1 hne).2⟩
example : Unattended [.initialized] := by intro s h; cases h with | tail _ h => cases h

/-- The same host with a snapshot that silently does nothing. -/
def silent : ViewerHost (List ℤ) := { host with
  json := fun _ => some fun k => if k = "render" then object [("width", int 2), ("height", int 1), ("output_format", .str (ascii "png")),
    ("transparent_background", .bool true), ("oversampling", int 1), ("expand_frustum", .bool false),
    ("geometry", object [("vertices", .bool true), ("edges", .bool false), ("faces", .bool true),
      ("vertex_scope", .str (ascii "all")), ("edge_scope", .str (ascii "all"))]),
    ("style", look (.obj (root 3)) ["render", "style"]), ("camera", look (.obj (root 3)) ["render", "camera"])]
    else root 3 k
  snapshot := fun _ _ _ fs => (true, fs) }

-- Hypotheses of C69_stale_image_accepted.
example : (viewerMain silent (some options) [.initialized]
    (disk.put options.output (some [2, 1, 1, 1, 1, 255, 1, 1, 1, 255]))).map Prod.fst = some 0 := by decide +kernel
example : (viewerMain silent (some options) [.initialized] disk).map Prod.fst = some 1 := by decide +kernel

end ViewerSample

open ViewerSample in
/-- A limit of C70: a positive size below the range of `float` is accepted and becomes zero. -/
theorem C70_size_may_underflow {flt : FloatFormat} {tiny : ℚ} (h0 : 0 < tiny) (h1 : tiny ≤ floatMax)
    (hz : flt.rnd tiny = .fin 0) : ∃ m, parseManifest exactFmt flt .ok (root tiny) = .ok m ∧ m.render.pointSize = .fin 0 := by
  have hm : Means flt .ok (.obj (root tiny)) { manifest with
      render := { manifest.render with pointSize := .fin 0, lineWidth := flt.rnd 2 } } := by
    obtain ⟨hm, -⟩ := parseManifest_iff.1 parsed
    exact { hm with
      pointSize := ⟨tiny, rfl, h0, h1, hz.symm⟩
      lineWidth := ⟨2, rfl, by norm_num, by norm_num [floatMax], rfl⟩ }
  exact ⟨_, C70_manifest_complete exactFmt_lawful hm (by
    show Practical ⌈((manifest.render.width : ℤ) : ℚ) * manifest.render.oversampling⌉
      ⌈((manifest.render.height : ℤ) : ℚ) * manifest.render.oversampling⌉
    unfold Practical; decide +kernel), rfl⟩
-- A format that flushes small values to zero.
example : (⟨fun q => if |q| < 1 / 2 ^ 149 then .fin 0 else .fin q⟩ : FloatFormat).rnd (1 / 2 ^ 200) = .fin 0 := by decide +kernel

end CDT.Props

import Verif.Lemmas.Metadata

namespace CDT
open Spec

/-- The field names in the order written. -/
def metaKeys : List Bytes :=
  (metadataFields ⟨fun _ => [], fun _ => [], fun _ => none, fun _ => none⟩
    ⟨[], [], [], [], [], [], [], []⟩
    { artifact := .checkpoint, seed := 0, initializationStream := 0, transitionStream := 0,
      topology := .spherical, dimension := 0, desiredSimplices := 0, desiredTimeslices := 0,
      actualVertices := 0, actualEdges := 0, actualFaces := 0, actualSimplices := 0,
      minimumTimeslice := 0, maximumTimeslice := 0, initialRadius := .nan,
      foliationSpacing := .nan } ⟨0, 0⟩).map Prod.fst

theorem metaKeys_nodup : metaKeys.Nodup := by decide +kernel

theorem metaKeys_legible : ∀ k ∈ metaKeys, k ≠ [] ∧ equalsSign ∉ k ∧ newline ∉ k := by
  decide +kernel

variable (ft : FloatText) (b : BuildInfo) (m : Metadata) (p : PayloadIntegrity)

theorem metadataFields_keys : (metadataFields ft b m p).map Prod.fst = metaKeys := rfl

theorem mem_presentFields {l : List (Bytes × Option Bytes)} {k v : Bytes} :
    (k, v) ∈ presentFields l ↔ (k, some v) ∈ l := by
  unfold presentFields
  rw [List.mem_filterMap]
  constructor
  · rintro ⟨⟨a, o⟩, h, e⟩
    cases o with
    | none => simp at e
    | some w => simp at e; obtain ⟨rfl, rfl⟩ := e; exact h
  · intro h; exact ⟨_, h, by simp⟩

theorem presentFields_keys_sublist (l : List (Bytes × Option Bytes)) :
    ((presentFields l).map Prod.fst).Sublist (l.map Prod.fst) := by
  induction l with
  | nil => exact .slnil
  | cons a l ih =>
    obtain ⟨k, o⟩ := a
    cases o with
    | none => exact .cons _ ih
    | some v => exact .cons_cons _ ih

theorem present_nodup : ((presentFields (metadataFields ft b m p)).map Prod.fst).Nodup :=
  (metadataFields_keys ft b m p ▸ presentFields_keys_sublist _).nodup metaKeys_nodup

theorem lookup_present (l : List (Bytes × Option Bytes)) (hn : (l.map Prod.fst).Nodup) (k : Bytes) :
    (presentFields l).lookup k = ((l.map Prod.snd)[(l.map Prod.fst).idxOf k]?).join := by
  induction l with
  | nil => rfl
  | cons a l ih =>
    obtain ⟨x, o⟩ := a
    simp only [List.map_cons, List.nodup_cons] at hn
    by_cases h : k = x
    · subst h
      cases o with
      | some v => simp [presentFields]
      | none =>
        have hnone : (presentFields l).lookup k = none := by
          cases hl : (presentFields l).lookup k with
          | none => rfl
          | some v =>
            have : k ∈ (presentFields l).map Prod.fst := lookup_isSome_iff.1 (by rw [hl]; rfl)
            exact absurd ((presentFields_keys_sublist l).subset this) hn.1
        have e : presentFields ((k, none) :: l) = presentFields l := rfl
        rw [e, hnone]; simp
    · have ih' := ih hn.2
      have hx : (x == k) = false := by simpa using fun e => h e.symm
      have hk : (k == x) = false := by simpa using h
      have e : (presentFields ((x, o) :: l)).lookup k = (presentFields l).lookup k := by
        cases o with
        | none => rfl
        | some v =>
          have : presentFields ((x, some v) :: l) = (x, v) :: presentFields l := rfl
          rw [this, List.lookup_cons, hk]
      rw [e, ih']
      simp [List.idxOf_cons, hx]

theorem field_at (n : String) {i : ℕ} (h : metaKeys.idxOf (ascii n) = i) :
    fieldOf (presentFields (metadataFields ft b m p)) n =
      (((metadataFields ft b m p).map Prod.snd)[i]?).join := by
  unfold fieldOf
  rw [lookup_present _ (metadataFields_keys ft b m p ▸ metaKeys_nodup), metadataFields_keys, h]

theorem beginsWith_fieldLines (fields : List (Bytes × Bytes))
    (h : ∀ f ∈ fields, newline ∉ f.1 ∧ newline ∉ f.2) :
    BeginsWithLines (fieldLines fields) (fields.map fieldLine) [] := by
  induction fields with
  | nil => rfl
  | cons f fs ih =>
    refine ⟨fieldLines fs, ⟨?_, .inl ?_⟩, ih fun g hg => h g (by simp [hg])⟩
    · have := h f (by simp)
      unfold fieldLine
      simp only [List.mem_append, List.mem_cons, not_or]
      exact ⟨this.1, by decide, this.2⟩
    · simp [fieldLines, fieldLine]

theorem lineText_decimal (n : ℕ) : LineText (decimal n) :=
  ⟨decimal_ne_nil n, newline_notMem_decimal n⟩
theorem lineText_decimalInt (i : ℤ) : LineText (decimalInt i) :=
  ⟨decimalInt_ne_nil i, newline_notMem_decimalInt i⟩
theorem lineText_hex16 (n : ℕ) : LineText (hex16 n) := ⟨hex16_ne_nil n, newline_notMem_hex16 n⟩

theorem fields_lineText {isDouble isLong : LD → Prop} (hft : FloatTextLawful ft isDouble isLong)
    (hb : BuildLegible b) (hm : MetadataFloats isDouble isLong m) :
    ∀ o ∈ (metadataFields ft b m p).map Prod.snd, ∀ v ∈ o, LineText v := by
  have hb' := hb
  simp only [BuildLegible, List.forall_mem_cons] at hb'
  obtain ⟨b1, b2, b3, b4, b5, b6, b7, b8, -⟩ := hb'
  have dbl := hft.lineDouble
  have lng : ∀ o : Option LD, (∀ x ∈ o, isLong x) → ∀ v ∈ o.map ft.showLong, LineText v := by
    intro o ho v hv
    obtain ⟨x, hx, rfl⟩ := Option.mem_map.1 hv
    exact hft.lineLong x (ho x hx)
  have oint : ∀ o : Option ℤ, ∀ v ∈ o.map decimalInt, LineText v := by
    intro o v hv
    obtain ⟨x, hx, rfl⟩ := Option.mem_map.1 hv
    exact lineText_decimalInt x
  have onat : ∀ o : Option ℕ, ∀ v ∈ o.map decimal, LineText v := by
    intro o v hv
    obtain ⟨x, hx, rfl⟩ := Option.mem_map.1 hv
    exact lineText_decimal x
  have ohex : ∀ o : Option ℕ, ∀ v ∈ o.map hex16, LineText v := by
    intro o v hv
    obtain ⟨x, hx, rfl⟩ := Option.mem_map.1 hv
    exact lineText_hex16 x
  have one : ∀ t : Bytes, LineText t → ∀ v ∈ some t, LineText v := by
    intro t ht v hv; simp at hv; exact hv ▸ ht
  have art : LineText (artifactName m.artifact) := by
    cases m.artifact <;> (unfold LineText artifactName; decide +kernel)
  have top : LineText (topologyName m.topology) := by
    cases m.topology <;> (unfold LineText topologyName; decide +kernel)
  have lit : ∀ s ∈ ["false", "true", "23", "pcg64"], LineText (ascii s) := by
    unfold LineText; decide +kernel
  have litF := lit "false" (by simp)
  have litT := lit "true" (by simp)
  have lit23 := lit "23" (by simp)
  have litP := lit "pcg64" (by simp)
  simp only [metadataFields, List.map_cons, List.map_nil, List.forall_mem_cons]
  exact ⟨one _ (lineText_decimal _), one _ (lineText_hex16 _), one _ art, one _ litF, one _ litF,
    one _ litT, one _ b1, one _ b2, one _ b3, one _ b4, one _ b5, one _ b6, one _ lit23, one _ b7,
    one _ b8, one _ litP, one _ (lineText_decimal _), one _ (lineText_decimal _),
    one _ (lineText_decimal _), one _ top, one _ (lineText_decimalInt _),
    one _ (lineText_decimalInt _), one _ (lineText_decimalInt _), one _ (lineText_decimalInt _),
    one _ (lineText_decimalInt _), one _ (lineText_decimalInt _), one _ (lineText_decimalInt _),
    one _ (lineText_decimalInt _), one _ (lineText_decimalInt _), one _ (dbl _ hm.1),
    one _ (dbl _ hm.2.1), lng _ hm.2.2.1, lng _ hm.2.2.2.1, lng _ hm.2.2.2.2, oint _, oint _,
    oint _, oint _, onat _, ohex _, onat _, ohex _, ohex _, by simp⟩

theorem manifestText_write {isDouble isLong : LD → Prop}
    (hft : FloatTextLawful ft isDouble isLong) (hb : BuildLegible b)
    (hm : MetadataFloats isDouble isLong m) :
    ManifestText (metadataText ft b m p) (presentFields (metadataFields ft b m p)) := by
  have hl := fields_lineText ft b m p hft hb hm
  have hval : ∀ f ∈ presentFields (metadataFields ft b m p), LineText f.2 := by
    intro f hf
    have := mem_presentFields.1 (show (f.1, f.2) ∈ _ from hf)
    exact hl _ (List.mem_map_of_mem this) f.2 rfl
  have hkey : ∀ f ∈ presentFields (metadataFields ft b m p),
      f.1 ≠ [] ∧ equalsSign ∉ f.1 ∧ newline ∉ f.1 := by
    intro f hf
    have := mem_presentFields.1 (show (f.1, f.2) ∈ _ from hf)
    exact metaKeys_legible _ (metadataFields_keys ft b m p ▸ List.mem_map_of_mem this)
  refine ⟨⟨_, ⟨by decide +kernel, .inl rfl⟩, ?_⟩, present_nodup ft b m p, ?_⟩
  · exact beginsWith_fieldLines _ fun f hf => ⟨(hkey f hf).2.2, (hval f hf).2⟩
  · intro f hf
    exact ⟨(hkey f hf).1, (hkey f hf).2.1, (hval f hf).1⟩

theorem ManifestText.unique {text : Bytes} {f g : List (Bytes × Bytes)} (hf : ManifestText text f)
    (hg : ManifestText text g) : f = g := by
  obtain ⟨⟨m, h1, h2⟩, -, p1⟩ := hf
  obtain ⟨⟨m', h1', h2'⟩, -, p2⟩ := hg
  obtain ⟨-, rfl⟩ := FirstLine.unique h1 h1'
  clear h1 h1'
  induction f generalizing g m with
  | nil =>
    cases g with
    | nil => rfl
    | cons a g =>
      simp only [List.map_nil, BeginsWithLines] at h2
      subst h2
      obtain ⟨k, h, -⟩ := h2'
      have := FirstLine.length_lt h
      simp at this
  | cons a f ih =>
    cases g with
    | nil =>
      simp only [List.map_nil, BeginsWithLines] at h2'
      subst h2'
      obtain ⟨k, h, -⟩ := h2
      have := FirstLine.length_lt h
      simp at this
    | cons c g =>
      obtain ⟨k, h3, h4⟩ := h2
      obtain ⟨k', h3', h4'⟩ := h2'
      obtain ⟨e, rfl⟩ := FirstLine.unique h3 h3'
      have e1 := (splitFirst_eq_some (c := equalsSign) (t := a.1 ++ equalsSign :: a.2) (l := a.1)
        (r := a.2)).2 ⟨rfl, (p1 a (by simp)).2.1⟩
      have e2 := (splitFirst_eq_some (c := equalsSign) (t := c.1 ++ equalsSign :: c.2) (l := c.1)
        (r := c.2)).2 ⟨rfl, (p2 c (by simp)).2.1⟩
      simp only at e
      rw [e, e2] at e1
      simp only [Option.some.injEq, Prod.mk.injEq] at e1
      have hac : a = c := Prod.ext e1.1.symm e1.2.symm
      rw [hac, ih k h4 (fun x hx => p1 x (by simp [hx])) (fun x hx => p2 x (by simp [hx])) h4']

theorem field0 : fieldOf (presentFields (metadataFields ft b m p)) "payload.size" =
    (some p.size).map decimal := by
  rw [field_at ft b m p "payload.size" (i := 0) (by decide +kernel)]; rfl
theorem field1 : fieldOf (presentFields (metadataFields ft b m p)) "payload.fnv1a64" =
    (some p.digest).map hex16 := by
  rw [field_at ft b m p "payload.fnv1a64" (i := 1) (by decide +kernel)]; rfl
theorem field2 : fieldOf (presentFields (metadataFields ft b m p)) "artifact" =
    some (artifactName m.artifact) := by
  rw [field_at ft b m p "artifact" (i := 2) (by decide +kernel)]; rfl
theorem field3 : fieldOf (presentFields (metadataFields ft b m p)) "resume_supported" =
    some (ascii "false") := by
  rw [field_at ft b m p "resume_supported" (i := 3) (by decide +kernel)]; rfl
theorem field4 : fieldOf (presentFields (metadataFields ft b m p)) "fresh_topology_replay_supported" =
    some (ascii "false") := by
  rw [field_at ft b m p "fresh_topology_replay_supported" (i := 4) (by decide +kernel)]; rfl
theorem field5 : fieldOf (presentFields (metadataFields ft b m p)) "transition_replay_requires_identical_start" =
    some (ascii "true") := by
  rw [field_at ft b m p "transition_replay_requires_identical_start" (i := 5) (by decide +kernel)]; rfl
theorem field6 : fieldOf (presentFields (metadataFields ft b m p)) "cdt.version" =
    some b.version := by
  rw [field_at ft b m p "cdt.version" (i := 6) (by decide +kernel)]; rfl
theorem field7 : fieldOf (presentFields (metadataFields ft b m p)) "build.compiler_id" =
    some b.compilerId := by
  rw [field_at ft b m p "build.compiler_id" (i := 7) (by decide +kernel)]; rfl
theorem field8 : fieldOf (presentFields (metadataFields ft b m p)) "build.compiler_version" =
    some b.compilerVersion := by
  rw [field_at ft b m p "build.compiler_version" (i := 8) (by decide +kernel)]; rfl
theorem field9 : fieldOf (presentFields (metadataFields ft b m p)) "build.configuration" =
    some b.configuration := by
  rw [field_at ft b m p "build.configuration" (i := 9) (by decide +kernel)]; rfl
theorem field10 : fieldOf (presentFields (metadataFields ft b m p)) "build.system" =
    some b.system := by
  rw [field_at ft b m p "build.system" (i := 10) (by decide +kernel)]; rfl
theorem field11 : fieldOf (presentFields (metadataFields ft b m p)) "build.processor" =
    some b.processor := by
  rw [field_at ft b m p "build.processor" (i := 11) (by decide +kernel)]; rfl
theorem field12 : fieldOf (presentFields (metadataFields ft b m p)) "build.cxx_standard" =
    some (ascii "23") := by
  rw [field_at ft b m p "build.cxx_standard" (i := 12) (by decide +kernel)]; rfl
theorem field13 : fieldOf (presentFields (metadataFields ft b m p)) "build.standard_library" =
    some b.standardLibrary := by
  rw [field_at ft b m p "build.standard_library" (i := 13) (by decide +kernel)]; rfl
theorem field14 : fieldOf (presentFields (metadataFields ft b m p)) "dependency.cgal_version" =
    some b.cgalVersion := by
  rw [field_at ft b m p "dependency.cgal_version" (i := 14) (by decide +kernel)]; rfl
theorem field15 : fieldOf (presentFields (metadataFields ft b m p)) "random.engine" =
    some (ascii "pcg64") := by
  rw [field_at ft b m p "random.engine" (i := 15) (by decide +kernel)]; rfl
theorem field16 : fieldOf (presentFields (metadataFields ft b m p)) "random.seed" =
    (some m.seed).map decimal := by
  rw [field_at ft b m p "random.seed" (i := 16) (by decide +kernel)]; rfl
theorem field17 : fieldOf (presentFields (metadataFields ft b m p)) "random.initialization_stream" =
    (some m.initializationStream).map decimal := by
  rw [field_at ft b m p "random.initialization_stream" (i := 17) (by decide +kernel)]; rfl
theorem field18 : fieldOf (presentFields (metadataFields ft b m p)) "random.transition_stream" =
    (some m.transitionStream).map decimal := by
  rw [field_at ft b m p "random.transition_stream" (i := 18) (by decide +kernel)]; rfl
theorem field19 : fieldOf (presentFields (metadataFields ft b m p)) "topology" =
    some (topologyName m.topology) := by
  rw [field_at ft b m p "topology" (i := 19) (by decide +kernel)]; rfl
theorem field20 : fieldOf (presentFields (metadataFields ft b m p)) "dimension" =
    (some m.dimension).map decimalInt := by
  rw [field_at ft b m p "dimension" (i := 20) (by decide +kernel)]; rfl
theorem field21 : fieldOf (presentFields (metadataFields ft b m p)) "desired.simplices" =
    (some m.desiredSimplices).map decimalInt := by
  rw [field_at ft b m p "desired.simplices" (i := 21) (by decide +kernel)]; rfl
theorem field22 : fieldOf (presentFields (metadataFields ft b m p)) "desired.timeslices" =
    (some m.desiredTimeslices).map decimalInt := by
  rw [field_at ft b m p "desired.timeslices" (i := 22) (by decide +kernel)]; rfl
theorem field23 : fieldOf (presentFields (metadataFields ft b m p)) "actual.vertices" =
    (some m.actualVertices).map decimalInt := by
  rw [field_at ft b m p "actual.vertices" (i := 23) (by decide +kernel)]; rfl
theorem field24 : fieldOf (presentFields (metadataFields ft b m p)) "actual.edges" =
    (some m.actualEdges).map decimalInt := by
  rw [field_at ft b m p "actual.edges" (i := 24) (by decide +kernel)]; rfl
theorem field25 : fieldOf (presentFields (metadataFields ft b m p)) "actual.faces" =
    (some m.actualFaces).map decimalInt := by
  rw [field_at ft b m p "actual.faces" (i := 25) (by decide +kernel)]; rfl
theorem field26 : fieldOf (presentFields (metadataFields ft b m p)) "actual.simplices" =
    (some m.actualSimplices).map decimalInt := by
  rw [field_at ft b m p "actual.simplices" (i := 26) (by decide +kernel)]; rfl
theorem field27 : fieldOf (presentFields (metadataFields ft b m p)) "actual.minimum_timeslice" =
    (some m.minimumTimeslice).map decimalInt := by
  rw [field_at ft b m p "actual.minimum_timeslice" (i := 27) (by decide +kernel)]; rfl
theorem field28 : fieldOf (presentFields (metadataFields ft b m p)) "actual.maximum_timeslice" =
    (some m.maximumTimeslice).map decimalInt := by
  rw [field_at ft b m p "actual.maximum_timeslice" (i := 28) (by decide +kernel)]; rfl
theorem field29 : fieldOf (presentFields (metadataFields ft b m p)) "initial_radius" =
    (some m.initialRadius).map ft.showDouble := by
  rw [field_at ft b m p "initial_radius" (i := 29) (by decide +kernel)]; rfl
theorem field30 : fieldOf (presentFields (metadataFields ft b m p)) "foliation_spacing" =
    (some m.foliationSpacing).map ft.showDouble := by
  rw [field_at ft b m p "foliation_spacing" (i := 30) (by decide +kernel)]; rfl
theorem field31 : fieldOf (presentFields (metadataFields ft b m p)) "alpha" =
    m.alpha.map ft.showLong := by
  rw [field_at ft b m p "alpha" (i := 31) (by decide +kernel)]; rfl
theorem field32 : fieldOf (presentFields (metadataFields ft b m p)) "k" =
    m.k.map ft.showLong := by
  rw [field_at ft b m p "k" (i := 32) (by decide +kernel)]; rfl
theorem field33 : fieldOf (presentFields (metadataFields ft b m p)) "lambda" =
    m.lambda.map ft.showLong := by
  rw [field_at ft b m p "lambda" (i := 33) (by decide +kernel)]; rfl
theorem field34 : fieldOf (presentFields (metadataFields ft b m p)) "configured_passes" =
    m.configuredPasses.map decimalInt := by
  rw [field_at ft b m p "configured_passes" (i := 34) (by decide +kernel)]; rfl
theorem field35 : fieldOf (presentFields (metadataFields ft b m p)) "configured_attempts" =
    m.configuredAttempts.map decimalInt := by
  rw [field_at ft b m p "configured_attempts" (i := 35) (by decide +kernel)]; rfl
theorem field36 : fieldOf (presentFields (metadataFields ft b m p)) "checkpoint_interval" =
    m.checkpointInterval.map decimalInt := by
  rw [field_at ft b m p "checkpoint_interval" (i := 36) (by decide +kernel)]; rfl
theorem field37 : fieldOf (presentFields (metadataFields ft b m p)) "completed_passes" =
    m.completedPasses.map decimalInt := by
  rw [field_at ft b m p "completed_passes" (i := 37) (by decide +kernel)]; rfl
theorem field38 : fieldOf (presentFields (metadataFields ft b m p)) "parallel.max_threads" =
    m.maxThreads.map decimal := by
  rw [field_at ft b m p "parallel.max_threads" (i := 38) (by decide +kernel)]; rfl
theorem field39 : fieldOf (presentFields (metadataFields ft b m p)) "transition_trace.fnv1a64" =
    m.transitionTrace.map hex16 := by
  rw [field_at ft b m p "transition_trace.fnv1a64" (i := 39) (by decide +kernel)]; rfl
theorem field40 : fieldOf (presentFields (metadataFields ft b m p)) "transition_trace.count" =
    m.transitionCount.map decimal := by
  rw [field_at ft b m p "transition_trace.count" (i := 40) (by decide +kernel)]; rfl
theorem field41 : fieldOf (presentFields (metadataFields ft b m p)) "placement.fnv1a64" =
    m.placementFingerprint.map hex16 := by
  rw [field_at ft b m p "placement.fnv1a64" (i := 41) (by decide +kernel)]; rfl
theorem field42 : fieldOf (presentFields (metadataFields ft b m p)) "topology.fnv1a64" =
    m.topologyFingerprint.map hex16 := by
  rw [field_at ft b m p "topology.fnv1a64" (i := 42) (by decide +kernel)]; rfl

section generic
variable {F : String → Option Bytes} {n : String}

theorem intIs_iff {o : Option ℤ} (h : F n = o.map decimalInt) (ho : ∀ i ∈ o, IsInt32 i) {j : ℤ} :
    IntIs F n j ↔ o = some j := by
  unfold IntIs
  rw [h]
  constructor
  · rintro ⟨v, hv, ht⟩
    obtain ⟨i, rfl, rfl⟩ := Option.map_eq_some_iff.1 hv
    rw [← parseInt_iff, parseInt_decimalInt (ho i rfl)] at ht
    exact ht
  · rintro rfl
    exact ⟨_, rfl, intText_decimalInt (ho j rfl)⟩

theorem natIs_iff {o : Option ℕ} (h : F n = o.map decimal) (ho : ∀ i ∈ o, IsU64 i) {j : ℕ} :
    NatIs F n j ↔ o = some j := by
  unfold NatIs
  rw [h]
  constructor
  · rintro ⟨v, hv, ht⟩
    obtain ⟨i, rfl, rfl⟩ := Option.map_eq_some_iff.1 hv
    rw [← parseUnsigned_iff, parseUnsigned_decimal (ho i rfl)] at ht
    exact ht
  · rintro rfl
    exact ⟨_, rfl, natText_decimal (ho j rfl)⟩

theorem hexIs_iff {o : Option ℕ} (h : F n = o.map hex16) (ho : ∀ i ∈ o, IsU64 i) {j : ℕ} :
    HexIs F n j ↔ o = some j := by
  unfold HexIs
  rw [h]
  constructor
  · rintro ⟨v, hv, ht⟩
    obtain ⟨i, rfl, rfl⟩ := Option.map_eq_some_iff.1 hv
    rw [parseUnsigned_hex16 (ho i rfl)] at ht
    exact ht
  · rintro rfl
    exact ⟨_, rfl, parseUnsigned_hex16 (ho j rfl)⟩

theorem floatIs_iff {o : Option LD} {sh : LD → Bytes} {rd : Bytes → Option LD}
    (h : F n = o.map sh) (hfin : ∀ q, .fin q ∈ o → rd (sh (.fin q)) = some (.fin q))
    (hspec : ∀ x ∈ o, x.isFinite = false → ∀ y ∈ rd (sh x), y.isFinite = false) {q : ℚ} :
    FloatIs rd F n q ↔ o = some (.fin q) := by
  unfold FloatIs
  rw [h]
  constructor
  · rintro ⟨v, hv, ht⟩
    obtain ⟨x, rfl, rfl⟩ := Option.map_eq_some_iff.1 hv
    cases x with
    | fin r =>
      rw [hfin r rfl] at ht
      exact ht
    | nan => have := hspec _ rfl rfl _ ht; simp [LD.isFinite] at this
    | inf s => have := hspec _ rfl rfl _ ht; simp [LD.isFinite] at this
  · rintro rfl
    exact ⟨_, rfl, hfin q rfl⟩

theorem map_none_iff {α : Type} {o : Option α} {f : α → Bytes} (h : F n = o.map f) :
    F n = none ↔ o = none := by rw [h]; simp

end generic

theorem artifactName_injective : Function.Injective artifactName := by
  intro a c h
  have := parseArtifact_iff.2 (rfl : artifactName a = artifactName a)
  rw [h, parseArtifact_iff.2 rfl] at this
  exact (Option.some.inj this).symm

theorem topologyName_injective : Function.Injective topologyName := by
  intro a c h
  have := parseTopology_iff.2 (rfl : topologyName a = topologyName a)
  rw [h, parseTopology_iff.2 rfl] at this
  exact (Option.some.inj this).symm

theorem accepts_written {isDouble isLong : LD → Prop} (hft : FloatTextLawful ft isDouble isLong)
    (hm : MetadataFloats isDouble isLong m) (ht : MetadataTyped m p) {q : ParsedMetadata} :
    ManifestAccepts ft (fieldOf (presentFields (metadataFields ft b m p))) q ↔
      MetadataValid m ∧ q = recordedValues m p := by
  have hi := ht.ints
  simp only [List.forall_mem_cons] at hi
  obtain ⟨t20, t21, t22, t23, t24, t25, t26, t27, t28, -⟩ := hi
  have ho := ht.optionalInts
  simp only [List.forall_mem_cons] at ho
  obtain ⟨t34, t35, t36, t37, -⟩ := ho
  have hn := ht.optionalNats
  simp only [List.forall_mem_cons] at hn
  obtain ⟨t38, t39, t40, t41, t42, -⟩ := hn
  have one : ∀ {P : ℤ → Prop} {x : ℤ}, P x → ∀ i ∈ some x, P i := by
    intro P x h i hi; simp at hi; exact hi ▸ h
  have oneN : ∀ {P : ℕ → Prop} {x : ℕ}, P x → ∀ i ∈ some x, P i := by
    intro P x h i hi; simp at hi; exact hi ▸ h
  have i0 := fun j => natIs_iff (field0 ft b m p) (oneN ht.size) (j := j)
  have i1 := fun j => hexIs_iff (field1 ft b m p) (oneN ht.digest) (j := j)
  have i16 := fun j => natIs_iff (field16 ft b m p) (oneN ht.seed) (j := j)
  have i17 := fun j => natIs_iff (field17 ft b m p) (oneN ht.streams.1) (j := j)
  have i18 := fun j => natIs_iff (field18 ft b m p) (oneN ht.streams.2) (j := j)
  have i20 := fun j => intIs_iff (field20 ft b m p) (one t20) (j := j)
  have i21 := fun j => intIs_iff (field21 ft b m p) (one t21) (j := j)
  have i22 := fun j => intIs_iff (field22 ft b m p) (one t22) (j := j)
  have i23 := fun j => intIs_iff (field23 ft b m p) (one t23) (j := j)
  have i24 := fun j => intIs_iff (field24 ft b m p) (one t24) (j := j)
  have i25 := fun j => intIs_iff (field25 ft b m p) (one t25) (j := j)
  have i26 := fun j => intIs_iff (field26 ft b m p) (one t26) (j := j)
  have i27 := fun j => intIs_iff (field27 ft b m p) (one t27) (j := j)
  have i28 := fun j => intIs_iff (field28 ft b m p) (one t28) (j := j)
  have dblF : ∀ x, isDouble x → (∀ q, .fin q ∈ some x →
      ft.readDouble (ft.showDouble (.fin q)) = some (.fin q)) := by
    intro x hx q hq
    simp only [Option.mem_def, Option.some.injEq] at hq
    subst hq; exact hft.double q hx
  have dblS : ∀ x, isDouble x → ∀ y ∈ some x, y.isFinite = false →
      ∀ z ∈ ft.readDouble (ft.showDouble y), z.isFinite = false := by
    intro x hx y hy
    simp only [Option.mem_def, Option.some.injEq] at hy
    subst hy; exact hft.doubleSpecial x hx
  have i29 := fun j => floatIs_iff (field29 ft b m p) (dblF _ hm.1) (dblS _ hm.1) (q := j)
  have i30 := fun j => floatIs_iff (field30 ft b m p) (dblF _ hm.2.1) (dblS _ hm.2.1) (q := j)
  have i31 := fun j => floatIs_iff (field31 ft b m p) (fun q hq => hft.long q (hm.2.2.1 _ hq))
    (fun x hx => hft.longSpecial x (hm.2.2.1 _ hx)) (q := j)
  have i32 := fun j => floatIs_iff (field32 ft b m p) (fun q hq => hft.long q (hm.2.2.2.1 _ hq))
    (fun x hx => hft.longSpecial x (hm.2.2.2.1 _ hx)) (q := j)
  have i33 := fun j => floatIs_iff (field33 ft b m p) (fun q hq => hft.long q (hm.2.2.2.2 _ hq))
    (fun x hx => hft.longSpecial x (hm.2.2.2.2 _ hx)) (q := j)
  have i34 := fun j => intIs_iff (field34 ft b m p) t34 (j := j)
  have i35 := fun j => intIs_iff (field35 ft b m p) t35 (j := j)
  have i36 := fun j => intIs_iff (field36 ft b m p) t36 (j := j)
  have i37 := fun j => intIs_iff (field37 ft b m p) t37 (j := j)
  have i38 := fun j => natIs_iff (field38 ft b m p) t38 (j := j)
  have i39 := fun j => hexIs_iff (field39 ft b m p) t39 (j := j)
  have i40 := fun j => natIs_iff (field40 ft b m p) t40 (j := j)
  have i41 := fun j => hexIs_iff (field41 ft b m p) t41 (j := j)
  have i42 := fun j => hexIs_iff (field42 ft b m p) t42 (j := j)
  have z31 := map_none_iff (field31 ft b m p)
  have z32 := map_none_iff (field32 ft b m p)
  have z33 := map_none_iff (field33 ft b m p)
  have z34 := map_none_iff (field34 ft b m p)
  have z35 := map_none_iff (field35 ft b m p)
  have z36 := map_none_iff (field36 ft b m p)
  have z37 := map_none_iff (field37 ft b m p)
  have z38 := map_none_iff (field38 ft b m p)
  have z39 := map_none_iff (field39 ft b m p)
  have z40 := map_none_iff (field40 ft b m p)
  constructor
  · intro h
    have a1 := artifactName_injective (Option.some.inj ((field2 ft b m p).symm.trans h.artifact))
    have a2 := topologyName_injective (Option.some.inj ((field19 ft b m p).symm.trans h.topology))
    have d := h.dimension
    have ds := h.desired
    have c := h.counts
    have tm := h.times
    have fo := h.foliation
    have ac := h.action
    have ru := h.run
    have att := h.attempts
    have cp := h.checkpoint
    have co := h.completed
    have th := h.threads
    have tr := h.trace
    have pl := h.payload
    have ra := h.random
    have fi := h.fingerprints
    simp only [i0, i1, i16, i17, i18, i20, i21, i22, i23, i24, i25, i26, i27, i28, i29, i30, i31,
      i32, i33, i34, i35, i36, i37, i38, i39, i40, i41, i42, z31, z32, z33, z34, z35, z36, z37, z38,
      z39, z40, ne_eq, Option.some.injEq] at d ds c tm fo ac ru att cp co th tr pl ra fi
    obtain ⟨⟨_, rfl, d2⟩, _, rfl, d3⟩ := ds
    refine ⟨⟨d.1 ▸ d.2, ⟨d2, d3, c.1.1 ▸ c.1.2, c.2.1.1 ▸ c.2.1.2, c.2.2.1.1 ▸ c.2.2.1.2,
      c.2.2.2.1 ▸ c.2.2.2.2⟩, by rw [tm.1, tm.2.1]; exact tm.2.2, fo.1, fo.2, ?_, ?_, ?_, ?_, ?_, ?_,
      ?_, ?_⟩, ?_⟩
    · rcases ac with h | ⟨⟨a, h1, h2⟩, ⟨k, h3⟩, l, h4⟩
      · exact .inl h
      · exact .inr ⟨a, k, l, h1, h3, h4, h2⟩
    · rcases ru with h | ⟨⟨a, h1, h2⟩, c, h3, h4⟩
      · exact .inl h
      · exact .inr ⟨a, c, h1, h3, h2, h4⟩
    · intro x hx
      rcases att with h | ⟨i, h1, h2⟩
      · rw [h] at hx; simp at hx
      · rw [h1] at hx; simp at hx; exact hx ▸ h2
    · intro e; exact cp (a1 ▸ e)
    · intro x hx
      rcases co with h | ⟨i, h1, h2⟩
      · rw [h] at hx; simp at hx
      · rw [h1] at hx; simp at hx; exact hx ▸ h2
    · intro x hx
      rcases th with h | ⟨i, h1, h2, h3⟩
      · rw [h.1] at hx; simp at hx
      · rw [h1] at hx; simp at hx; exact hx ▸ h3
    · rcases tr with h | ⟨⟨i, h1⟩, j, h2⟩
      · simp [h.1, h.2]
      · simp [h1, h2]
    · simp [fi.1, fi.2]
    · have hth : q.maxThreads = m.maxThreads := by
        rcases th with h | ⟨i, h1, h2, h3⟩
        · rw [h.1, h.2]
        · rw [h1, h2]
      obtain ⟨⟨ps, pd⟩, qa, qs, qi, qt, qtop, qd, q1, q2, q3, q4, q5, q6, q7, q8, q9⟩ := q
      obtain ⟨ps', pd'⟩ := p
      simp only at a1 a2 d c tm pl ra fi hth
      simp [recordedValues, a1, a2, d.1, c.1.1, c.2.1.1, c.2.2.1.1, c.2.2.2.1, tm.1, tm.2.1, pl.1,
        pl.2, ra.1, ra.2.1, ra.2.2, fi.1, fi.2, hth]
  · rintro ⟨hv, rfl⟩
    obtain ⟨r, hr, hr0⟩ := hv.radius
    obtain ⟨s, hs, hs0⟩ := hv.spacing
    obtain ⟨f1, f2⟩ := hv.fingerprints
    obtain ⟨x1, e1⟩ := Option.ne_none_iff_exists'.1 f1
    obtain ⟨x2, e2⟩ := Option.ne_none_iff_exists'.1 f2
    constructor <;>
      try simp only [i0, i1, i16, i17, i18, i20, i21, i22, i23, i24, i25, i26, i27, i28, i29, i30, i31,
        i32, i33, i34, i35, i36, i37, i38, i39, i40, i41, i42, z31, z32, z33, z34, z35, z36, z37,
        z38, z39, z40, ne_eq, Option.some.injEq, recordedValues]
    · have hx : ∀ {n : String} {v : Bytes}, fieldOf (presentFields (metadataFields ft b m p)) n =
          some v → ¬ fieldOf (presentFields (metadataFields ft b m p)) n = none := by
        intro n v h; rw [h]; simp
      have e41 := (field41 ft b m p).trans (by rw [e1]; rfl : _ = some (hex16 x1))
      have e42 := (field42 ft b m p).trans (by rw [e2]; rfl : _ = some (hex16 x2))
      simp only [mandatoryFields, List.forall_mem_cons]
      exact ⟨hx (field0 ..), hx (field1 ..), hx (field2 ..), hx (field3 ..), hx (field4 ..),
        hx (field5 ..), hx (field6 ..), hx (field7 ..), hx (field8 ..), hx (field9 ..),
        hx (field10 ..), hx (field11 ..), hx (field12 ..), hx (field13 ..), hx (field14 ..),
        hx (field15 ..), hx (field16 ..), hx (field17 ..), hx (field18 ..), hx (field19 ..),
        hx (field20 ..), hx (field21 ..), hx (field22 ..), hx (field23 ..), hx (field24 ..),
        hx (field25 ..), hx (field26 ..), hx (field27 ..), hx (field28 ..), hx (field29 ..),
        hx (field30 ..), hx e41, hx e42, by simp⟩
    · exact ⟨field3 .., field4 .., field5 .., field15 .., field12 ..⟩
    · exact field2 ..
    · exact field19 ..
    · exact ⟨trivial, hv.dimension⟩
    · exact ⟨⟨_, rfl, hv.counts.1⟩, _, rfl, hv.counts.2.1⟩
    · exact ⟨⟨trivial, hv.counts.2.2.1⟩, ⟨trivial, hv.counts.2.2.2.1⟩,
        ⟨trivial, hv.counts.2.2.2.2.1⟩, trivial, hv.counts.2.2.2.2.2⟩
    · exact ⟨trivial, trivial, hv.times⟩
    · exact ⟨⟨r, hr, hr0⟩, s, hs, hs0⟩
    · rcases hv.action with h | ⟨a, k, l, h1, h3, h4, h2⟩
      · exact .inl h
      · exact .inr ⟨⟨a, h1, h2⟩, ⟨k, h3⟩, l, h4⟩
    · rcases hv.run with h | ⟨a, c, h1, h3, h2, h4⟩
      · exact .inl h
      · exact .inr ⟨⟨a, h1, h2⟩, c, h3, h4⟩
    · cases h : m.configuredAttempts with
      | none => exact .inl rfl
      | some x => exact .inr ⟨x, rfl, hv.attempts x h⟩
    · exact hv.checkpoint
    · cases h : m.completedPasses with
      | none => exact .inl rfl
      | some x => exact .inr ⟨x, rfl, hv.completed x h⟩
    · cases h : m.maxThreads with
      | none => simp
      | some x => exact .inr ⟨x, rfl, rfl, hv.threads x h⟩
    · have := hv.trace
      cases h : m.transitionTrace with
      | none => exact .inl ⟨rfl, this.1 h⟩
      | some x =>
        cases h' : m.transitionCount with
        | none => rw [this.2 h'] at h; simp at h
        | some y => exact .inr ⟨⟨x, rfl⟩, y, rfl⟩
    · simp
    · simp
    · simp [e1, e2]

end CDT

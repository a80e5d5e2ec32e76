import Verif.Lemmas.MetadataText

namespace CDT.Props
open CDT Spec

variable {ft : FloatText} {build : BuildInfo} {isDouble isLong : LD → Prop}

/-- C53: parsing the manifest written for valid provenance returns exactly its values. -/
theorem C53_round_trip (hft : FloatTextLawful ft isDouble isLong) (hb : BuildLegible build)
    {m : Metadata} {p : PayloadIntegrity} (hf : MetadataFloats isDouble isLong m)
    (ht : MetadataTyped m p) (hv : MetadataValid m) :
    readMetadata ft (metadataText ft build m p) = .ok (recordedValues m p) :=
  readMetadata_iff.2 ⟨_, manifestText_write ft build m p hft hb hf,
    (accepts_written ft build m p hft hf ht).2 ⟨hv, rfl⟩⟩

/-- C53: the manifest written for provenance that is not valid (incomplete action, run or trace
group, checkpoint without pass count, missing fingerprints, non-finite or out-of-range values) is
rejected with `filesystem_error`. -/
theorem C53_rejects_invalid (hft : FloatTextLawful ft isDouble isLong) (hb : BuildLegible build)
    {m : Metadata} {p : PayloadIntegrity} (hf : MetadataFloats isDouble isLong m)
    (ht : MetadataTyped m p) (hv : ¬ MetadataValid m) :
    readMetadata ft (metadataText ft build m p) = .error .filesystemError := by
  cases h : readMetadata ft (metadataText ft build m p) with
  | error e => rw [fsOnly_readMetadata ft _ e h]
  | ok q =>
    obtain ⟨fields, h1, h2⟩ := readMetadata_iff.1 h
    have e := ManifestText.unique h1 (manifestText_write ft build m p hft hb hf)
    subst e
    exact absurd ((accepts_written ft build m p hft hf ht).1 h2).1 hv

/-- C53, for arbitrary text: a manifest is accepted exactly when it is the header line followed by
`name=value` lines with distinct non-empty names and non-empty values, carries every mandatory
field with an acceptable value, and every optional group is complete or absent. -/
theorem C53_accepts_iff (ft : FloatText) (text : Bytes) (q : ParsedMetadata) :
    readMetadata ft text = .ok q ↔
      ∃ fields, ManifestText text fields ∧
        ManifestAccepts ft (fun name => fields.lookup (ascii name)) q :=
  readMetadata_iff

/-- C53: every rejection is a `filesystem_error`. -/
theorem C53_rejects_with_filesystem_error (ft : FloatText) (text : Bytes)
    (h : ¬ ∃ fields q, ManifestText text fields ∧
      ManifestAccepts ft (fun name => fields.lookup (ascii name)) q) :
    readMetadata ft text = .error .filesystemError := by
  cases hr : readMetadata ft text with
  | error e => rw [fsOnly_readMetadata ft _ e hr]
  | ok q =>
    obtain ⟨fields, h1, h2⟩ := readMetadata_iff.1 hr
    exact absurd ⟨fields, q, h1, h2⟩ h

/-- C53: a field that occurs twice is never accepted, whatever the values. -/
theorem C53_rejects_duplicate_field (ft : FloatText) {text : Bytes} {name v w : Bytes}
    {before between after : List Bytes} (hname : equalsSign ∉ name)
    (h : BeginsWithLines text (metadataHeader :: (before ++ (name ++ equalsSign :: v) :: between ++
      (name ++ equalsSign :: w) :: after)) []) :
    readMetadata ft text = .error .filesystemError := by
  apply C53_rejects_with_filesystem_error
  rintro ⟨fields, q, ⟨hb, hnd, hprop⟩, -⟩
  obtain ⟨m, h1, h2⟩ := h
  obtain ⟨m', h1', h2'⟩ := hb
  obtain ⟨-, rfl⟩ := FirstLine.unique h1 h1'
  have len : ∀ {t : Bytes} {l l' : List Bytes}, BeginsWithLines t l [] → BeginsWithLines t l' [] →
      l = l' := by
    intro t l
    induction l generalizing t with
    | nil =>
      intro l' ha hb
      cases l' with
      | nil => rfl
      | cons x l' =>
        simp only [BeginsWithLines] at ha
        subst ha
        obtain ⟨k, h, -⟩ := hb
        have := FirstLine.length_lt h
        simp at this
    | cons y l ih =>
      intro l' ha hb
      cases l' with
      | nil =>
        simp only [BeginsWithLines] at hb
        subst hb
        obtain ⟨k, h, -⟩ := ha
        have := FirstLine.length_lt h
        simp at this
      | cons x l' =>
        obtain ⟨k, h, h'⟩ := ha
        obtain ⟨k', g, g'⟩ := hb
        obtain ⟨rfl, rfl⟩ := FirstLine.unique h g
        rw [ih h' g']
  have e := len h2' h2
  -- the two lines come from two fields with that name
  rw [List.append_assoc, List.map_eq_append_iff] at e
  obtain ⟨f1, f2, rfl, -, e⟩ := e
  rw [List.cons_append, List.map_eq_cons_iff] at e
  obtain ⟨a, f3, rfl, ea, e⟩ := e
  rw [List.map_eq_append_iff] at e
  obtain ⟨f4, f5, rfl, -, e⟩ := e
  rw [List.map_eq_cons_iff] at e
  obtain ⟨c, f6, rfl, ec, -⟩ := e
  have name_of : ∀ f : Bytes × Bytes, ∀ x : Bytes, equalsSign ∉ f.1 →
      f.1 ++ equalsSign :: f.2 = name ++ equalsSign :: x → f.1 = name := by
    intro f x hf he
    have e1 := (splitFirst_eq_some (c := equalsSign) (t := f.1 ++ equalsSign :: f.2) (l := f.1)
      (r := f.2)).2 ⟨rfl, hf⟩
    rw [he, (splitFirst_eq_some (c := equalsSign) (l := name) (r := x)).2 ⟨rfl, hname⟩] at e1
    simp only [Option.some.injEq, Prod.mk.injEq] at e1
    exact e1.1.symm
  have ha := name_of a v (hprop a (by simp)).2.1 ea
  have hc := name_of c w (hprop c (by simp)).2.1 ec
  simp only [List.map_append, List.map_cons] at hnd
  have hnd2 := (List.nodup_append.1 hnd).2.1
  rw [List.nodup_cons] at hnd2
  exact hnd2.1 (by rw [ha, ← hc]; simp)

/-- C53: the manifest determines everything it records: two records with the same manifest text are
equal, including the fields the reader only checks (requested sizes, couplings, run lengths). -/
theorem C53_text_injective (hft : FloatTextLawful ft isDouble isLong) (hb : BuildLegible build)
    {m m' : Metadata} {p p' : PayloadIntegrity} (hf : MetadataFloats isDouble isLong m)
    (hf' : MetadataFloats isDouble isLong m') (ht : MetadataTyped m p) (ht' : MetadataTyped m' p')
    (hv : MetadataValid m) (hv' : MetadataValid m')
    (h : metadataText ft build m p = metadataText ft build m' p') : m = m' ∧ p = p' := by
  have e : presentFields (metadataFields ft build m p) =
      presentFields (metadataFields ft build m' p') :=
    ManifestText.unique (manifestText_write ft build m p hft hb hf)
      (h ▸ manifestText_write ft build m' p' hft hb hf')
  -- the values the reader returns
  have hval : recordedValues m p = recordedValues m' p' := by
    have h1 := C53_round_trip hft hb hf ht hv
    have h2 := C53_round_trip hft hb hf' ht' hv'
    rw [h, h2] at h1
    exact (Except.ok.inj h1).symm
  have int : ∀ {o o' : Option ℤ}, (∀ i ∈ o, IsInt32 i) → (∀ i ∈ o', IsInt32 i) →
      o.map decimalInt = o'.map decimalInt → o = o' := by
    intro o o' h1 h2 he
    cases o with
    | none => cases o' <;> simp_all
    | some a =>
      cases o' with
      | none => simp at he
      | some c =>
        simp only [Option.map_some, Option.some.injEq] at he
        have := parseInt_decimalInt (h1 a rfl)
        rw [he, parseInt_decimalInt (h2 c rfl)] at this
        exact this.symm
  have nat : ∀ {o o' : Option ℕ}, (∀ i ∈ o, IsU64 i) → (∀ i ∈ o', IsU64 i) →
      o.map decimal = o'.map decimal → o = o' := by
    intro o o' h1 h2 he
    cases o with
    | none => cases o' <;> simp_all
    | some a =>
      cases o' with
      | none => simp at he
      | some c =>
        simp only [Option.map_some, Option.some.injEq] at he
        have := parseUnsigned_decimal (h1 a rfl)
        rw [he, parseUnsigned_decimal (h2 c rfl)] at this
        exact this.symm
  have hex : ∀ {o o' : Option ℕ}, (∀ i ∈ o, IsU64 i) → (∀ i ∈ o', IsU64 i) →
      o.map hex16 = o'.map hex16 → o = o' := by
    intro o o' h1 h2 he
    cases o with
    | none => cases o' <;> simp_all
    | some a =>
      cases o' with
      | none => simp at he
      | some c =>
        simp only [Option.map_some, Option.some.injEq] at he
        have := parseUnsigned_hex16 (h1 a rfl)
        rw [he, parseUnsigned_hex16 (h2 c rfl)] at this
        exact this.symm
  have dbl : ∀ {x y : LD}, isDouble x → isDouble y → (∃ q, x = .fin q) → (∃ q, y = .fin q) →
      ft.showDouble x = ft.showDouble y → x = y := by
    rintro x y hx hy ⟨q, rfl⟩ ⟨r, rfl⟩ he
    have := hft.double q hx
    rw [he, hft.double r hy] at this
    exact (Option.some.inj this).symm
  have lng : ∀ {o o' : Option LD}, (∀ x ∈ o, isLong x ∧ ∃ q, x = .fin q) →
      (∀ x ∈ o', isLong x ∧ ∃ q, x = .fin q) → o.map ft.showLong = o'.map ft.showLong → o = o' := by
    intro o o' h1 h2 he
    cases o with
    | none => cases o' <;> simp_all
    | some a =>
      cases o' with
      | none => simp at he
      | some c =>
        simp only [Option.map_some, Option.some.injEq] at he
        obtain ⟨l1, q, rfl⟩ := h1 a rfl
        obtain ⟨l2, r, rfl⟩ := h2 c rfl
        have := hft.long q l1
        rw [he, hft.long r l2] at this
        exact this.symm
  have fin : ∀ {m : Metadata}, MetadataFloats isDouble isLong m → MetadataValid m →
      (∀ x ∈ m.alpha, isLong x ∧ ∃ q, x = .fin q) ∧ (∀ x ∈ m.k, isLong x ∧ ∃ q, x = .fin q) ∧
        ∀ x ∈ m.lambda, isLong x ∧ ∃ q, x = .fin q := by
    intro m hf hv
    rcases hv.action with ⟨h1, h2, h3⟩ | ⟨a, k, l, h1, h2, h3, -⟩
    · simp [h1, h2, h3]
    · refine ⟨fun x hx => ⟨hf.2.2.1 x hx, a, ?_⟩, fun x hx => ⟨hf.2.2.2.1 x hx, k, ?_⟩,
        fun x hx => ⟨hf.2.2.2.2 x hx, l, ?_⟩⟩
      · rw [h1] at hx; simpa using hx.symm
      · rw [h2] at hx; simpa using hx.symm
      · rw [h3] at hx; simpa using hx.symm
  have F := fun n => congrArg (fun l => fieldOf l n) e
  have on := ht.optionalInts
  have on' := ht'.optionalInts
  have od := ht.optionalNats
  have od' := ht'.optionalNats
  have oi := ht.ints
  have oi' := ht'.ints
  simp only [List.forall_mem_cons] at on on' od od' oi oi'
  have e21 : m.desiredSimplices = m'.desiredSimplices := Option.some.inj
    (int (by simpa using oi.2.1) (by simpa using oi'.2.1)
      ((field21 ft build m p).symm.trans ((F _).trans (field21 ft build m' p'))))
  have e22 : m.desiredTimeslices = m'.desiredTimeslices := Option.some.inj
    (int (by simpa using oi.2.2.1) (by simpa using oi'.2.2.1)
      ((field22 ft build m p).symm.trans ((F _).trans (field22 ft build m' p'))))
  have e29 : m.initialRadius = m'.initialRadius :=
    dbl hf.1 hf'.1 (hv.radius.imp fun _ h => h.1) (hv'.radius.imp fun _ h => h.1) (Option.some.inj
      ((field29 ft build m p).symm.trans ((F _).trans (field29 ft build m' p'))))
  have e30 : m.foliationSpacing = m'.foliationSpacing :=
    dbl hf.2.1 hf'.2.1 (hv.spacing.imp fun _ h => h.1) (hv'.spacing.imp fun _ h => h.1)
      (Option.some.inj ((field30 ft build m p).symm.trans ((F _).trans (field30 ft build m' p'))))
  have e31 := lng (fin hf hv).1 (fin hf' hv').1
    ((field31 ft build m p).symm.trans ((F _).trans (field31 ft build m' p')))
  have e32 := lng (fin hf hv).2.1 (fin hf' hv').2.1
    ((field32 ft build m p).symm.trans ((F _).trans (field32 ft build m' p')))
  have e33 := lng (fin hf hv).2.2 (fin hf' hv').2.2
    ((field33 ft build m p).symm.trans ((F _).trans (field33 ft build m' p')))
  have e34 := int on.1 on'.1
    ((field34 ft build m p).symm.trans ((F _).trans (field34 ft build m' p')))
  have e35 := int on.2.1 on'.2.1
    ((field35 ft build m p).symm.trans ((F _).trans (field35 ft build m' p')))
  have e36 := int on.2.2.1 on'.2.2.1
    ((field36 ft build m p).symm.trans ((F _).trans (field36 ft build m' p')))
  have e37 := int on.2.2.2.1 on'.2.2.2.1
    ((field37 ft build m p).symm.trans ((F _).trans (field37 ft build m' p')))
  have e39 := hex od.2.1 od'.2.1
    ((field39 ft build m p).symm.trans ((F _).trans (field39 ft build m' p')))
  have e40 := nat od.2.2.1 od'.2.2.1
    ((field40 ft build m p).symm.trans ((F _).trans (field40 ft build m' p')))
  have e41 := hex od.2.2.2.1 od'.2.2.2.1
    ((field41 ft build m p).symm.trans ((F _).trans (field41 ft build m' p')))
  have e42 := hex od.2.2.2.2.1 od'.2.2.2.2.1
    ((field42 ft build m p).symm.trans ((F _).trans (field42 ft build m' p')))
  simp only [recordedValues, ParsedMetadata.mk.injEq] at hval
  obtain ⟨v1, v2, v3, v4, v5, v6, v7, v8, v9, v10, v11, v12, v13, v14, -, -⟩ := hval
  refine ⟨?_, v1⟩
  cases m
  cases m'
  simp only [Metadata.mk.injEq]
  exact ⟨v2, v3, v4, v5, v6, v7, e21, e22, v8, v9, v10, v11, v12, v13, e29, e30, e31, e32, e33, e34,
    e35, e36, e37, v14, e39, e40, e41, e42⟩

/-! ### The hypotheses are met -/

/-- Decimal text for integral values, a word for the special values. -/
def integerText : FloatText where
  showDouble := fun | .fin q => decimalInt q.num | .nan => ascii "nan" | .inf _ => ascii "inf"
  showLong := fun | .fin q => decimalInt q.num | .nan => ascii "nan" | .inf _ => ascii "inf"
  readDouble t := (parseInt t).map fun i : ℤ => LD.fin (i : ℚ)
  readLong t := (parseInt t).map fun i : ℤ => LD.fin (i : ℚ)

/-- Values `integerText` can represent. -/
def IntegralValue (x : LD) : Prop := ∀ q, x = .fin q → q.den = 1 ∧ IsInt32 q.num

theorem integerText_lawful : FloatTextLawful integerText IntegralValue IntegralValue := by
  have hline : ∀ x, LineText (integerText.showDouble x) := by
    intro x
    cases x with
    | fin q => exact lineText_decimalInt _
    | nan => unfold LineText; decide +kernel
    | inf s => cases s <;> (unfold LineText; decide +kernel)
  have hread : ∀ q : ℚ, IntegralValue (.fin q) →
      integerText.readDouble (integerText.showDouble (.fin q)) = some (.fin q) := by
    intro q hq
    obtain ⟨h1, h2⟩ := hq q rfl
    simp only [integerText, parseInt_decimalInt h2, Option.map_some, Option.some.injEq, LD.fin.injEq]
    exact Rat.coe_int_num_of_den_eq_one h1
  have hspec : ∀ x : LD, x.isFinite = false →
      ∀ y ∈ integerText.readDouble (integerText.showDouble x), y.isFinite = false := by
    intro x hx y hy
    have h1 : parseInt (ascii "nan") = none := by decide +kernel
    have h2 : parseInt (ascii "inf") = none := by decide +kernel
    cases x with
    | fin q => simp [LD.isFinite] at hx
    | nan => simp [integerText, h1] at hy
    | inf s => simp [integerText, h2] at hy
  exact ⟨fun x _ => hline x, fun x _ => hline x, hread, hread, fun x _ => hspec x,
    fun x _ => hspec x⟩

/-- A build. -/
def sampleBuild : BuildInfo :=
  ⟨ascii "1.0", ascii "GNU", ascii "14.2", ascii "Release", ascii "Linux", ascii "x86_64",
    ascii "libstdc++-2024", ascii "6.0"⟩

/-- A checkpoint with every optional field. -/
def sampleMetadata : Metadata :=
  { artifact := .checkpoint, seed := 92, initializationStream := 0, transitionStream := 1,
    topology := .spherical, dimension := 3, desiredSimplices := 640, desiredTimeslices := 4,
    actualVertices := 30, actualEdges := 150, actualFaces := 220, actualSimplices := 100,
    minimumTimeslice := -1, maximumTimeslice := 4, initialRadius := .fin 1,
    foliationSpacing := .fin 1, alpha := some (.fin 1), k := some (.fin 2),
    lambda := some (.fin (-3)), configuredPasses := some 10, configuredAttempts := some 5,
    checkpointInterval := some 2, completedPasses := some 4, maxThreads := some 8,
    transitionTrace := some 0xcbf29ce484222325, transitionCount := some 400,
    placementFingerprint := some 17, topologyFingerprint := some (2 ^ 64 - 1) }

example : BuildLegible sampleBuild := by unfold BuildLegible LineText; decide +kernel
example : MetadataTyped sampleMetadata ⟨1234, 0xdeadbeef⟩ := by
  constructor <;> (simp only [IsU64, IsInt32]; decide)
example : MetadataValid sampleMetadata := by
  constructor <;> try decide
  · exact ⟨1, rfl, by norm_num⟩
  · exact ⟨1, rfl, by norm_num⟩
  · exact .inr ⟨1, 2, -3, rfl, rfl, rfl, by norm_num⟩
  · exact .inr ⟨10, 2, rfl, rfl, by norm_num, by norm_num⟩
example : readMetadata integerText (metadataText integerText sampleBuild sampleMetadata
    ⟨1234, 0xdeadbeef⟩) = .ok (recordedValues sampleMetadata ⟨1234, 0xdeadbeef⟩) := by
  decide +kernel
-- An incomplete action group, a checkpoint without a pass count, a missing fingerprint.
example : ∀ m ∈ [{ sampleMetadata with k := none }, { sampleMetadata with completedPasses := none },
    { sampleMetadata with placementFingerprint := none }, { sampleMetadata with initialRadius := .nan },
    { sampleMetadata with transitionCount := none }, { sampleMetadata with maxThreads := some 0 }],
    readMetadata integerText (metadataText integerText sampleBuild m ⟨1234, 0xdeadbeef⟩) =
      .error .filesystemError := by decide +kernel
-- A build without a configuration name (an empty `CMAKE_BUILD_TYPE`) writes manifests that are
-- refused: the hypothesis that build strings are non-empty is needed.
example : readMetadata integerText (metadataText integerText { sampleBuild with configuration := [] }
    sampleMetadata ⟨1234, 0xdeadbeef⟩) = .error .filesystemError := by decide +kernel

end CDT.Props

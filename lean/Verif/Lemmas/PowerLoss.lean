import Verif.Lemmas.MetadataText
import Verif.Lemmas.StorageRead
/-
Reading the beginning of a manifest.
-/
namespace CDT
open Spec

theorem beginsWithLines_nil {lines : List Bytes} (h : BeginsWithLines [] lines []) : lines = [] := by
  cases lines with
  | nil => rfl
  | cons l ls =>
    obtain ⟨more, ⟨-, h | ⟨h, hne, -⟩⟩, -⟩ := h
    · exact absurd h (by simp)
    · exact absurd h.symm hne

/-- The lines of the beginning of a text are the first of its lines, and perhaps the beginning of the next. -/
theorem lines_prefix {lines' : List Bytes} : ∀ {text text' : Bytes} {lines : List Bytes}, BeginsWithLines text lines [] →
    text' <+: text → BeginsWithLines text' lines' [] →
    ∃ k, lines' = lines.take k ∨ ∃ l part, lines[k]? = some l ∧ part <+: l ∧ lines' = lines.take k ++ [part] := by
  induction lines' with
  | nil => intro text text' lines _ _ _; exact ⟨0, .inl (by simp)⟩
  | cons l' ls' ih =>
    rintro text text' lines h ⟨s, hs⟩ ⟨more', ⟨hnl', hf'⟩, hrest'⟩
    cases lines with
    | nil =>
      have h : text = [] := h
      rw [h] at hs
      have := (List.append_eq_nil_iff.1 hs).1
      rcases hf' with e | ⟨e, hne, -⟩
      · rw [e] at this; simp at this
      · rw [e] at this; exact absurd this hne
    | cons l ls =>
      obtain ⟨more, hf, hrest⟩ := h
      rcases hf' with e | ⟨e, hne, e2⟩
      · have h2 : FirstLine text l' (more' ++ s) := ⟨hnl', .inl (by rw [← hs, e]; simp)⟩
        obtain ⟨rfl, rfl⟩ := FirstLine.unique hf h2
        obtain ⟨k, hk⟩ := ih hrest ⟨s, rfl⟩ hrest'
        refine ⟨k + 1, ?_⟩
        rcases hk with rfl | ⟨x, part, hx, hp, rfl⟩
        · exact .inl (by simp)
        · exact .inr ⟨x, part, by simpa using hx, hp, by simp⟩
      · subst e e2
        rw [beginsWithLines_nil hrest']
        refine ⟨0, .inr ⟨l, text', rfl, ?_, by simp⟩⟩
        have hp : text' <+: text := ⟨s, hs⟩
        rcases hf.2 with e | ⟨e, -, -⟩
        · rw [e] at hp
          rcases List.prefix_or_prefix_of_prefix hp (List.prefix_append l (newline :: more)) with h | ⟨r, rfl⟩
          · exact h
          · rw [List.prefix_append_right_inj] at hp
            cases r with
            | nil => simp
            | cons b r =>
              rw [List.cons_prefix_cons] at hp
              exact absurd (by simp [hp.1]) hnl'
        · rwa [e] at hp

theorem fieldLine_prefix {f g : Bytes × Bytes} (hf : equalsSign ∉ f.1) (hg : equalsSign ∉ g.1)
    (h : fieldLine f <+: fieldLine g) : f.1 = g.1 ∧ f.2 <+: g.2 := by
  obtain ⟨a, v⟩ := f
  obtain ⟨b, w⟩ := g
  unfold fieldLine at h
  dsimp only at hf hg h ⊢
  induction a generalizing b with
  | nil =>
    cases b with
    | nil => rw [List.nil_append, List.nil_append, List.cons_prefix_cons] at h; exact ⟨rfl, h.2⟩
    | cons y b =>
      rw [List.nil_append, List.cons_append, List.cons_prefix_cons] at h
      exact absurd (by simp [h.1]) hg
  | cons x a ih =>
    cases b with
    | nil =>
      rw [List.nil_append, List.cons_append, List.cons_prefix_cons] at h
      exact absurd (by simp [h.1]) hf
    | cons y b =>
      rw [List.cons_append, List.cons_append, List.cons_prefix_cons] at h
      obtain ⟨h1, h2⟩ := ih (fun hm => hf (by simp [hm])) b (fun hm => hg (by simp [hm])) h.2
      exact ⟨by rw [h.1, h1], h2⟩

theorem fieldLine_injective {f g : Bytes × Bytes} (hf : equalsSign ∉ f.1) (hg : equalsSign ∉ g.1)
    (h : fieldLine f = fieldLine g) : f = g := by
  have h1 := fieldLine_prefix hf hg (h ▸ List.prefix_refl _)
  have h2 := fieldLine_prefix hg hf (h ▸ List.prefix_refl _)
  exact Prod.ext h1.1 (h1.2.eq_of_length (le_antisymm h1.2.length_le h2.2.length_le))

theorem map_fieldLine_injective {fs gs : List (Bytes × Bytes)} (hf : ∀ f ∈ fs, equalsSign ∉ f.1)
    (hg : ∀ g ∈ gs, equalsSign ∉ g.1) (h : fs.map fieldLine = gs.map fieldLine) : fs = gs := by
  induction fs generalizing gs with
  | nil => cases gs with
    | nil => rfl
    | cons g gs => cases h
  | cons f fs ih => cases gs with
    | nil => cases h
    | cons g gs =>
      simp only [List.map_cons, List.cons.injEq] at h
      rw [fieldLine_injective (hf f (by simp)) (hg g (by simp)) h.1,
        ih (fun x hx => hf x (by simp [hx])) (fun x hx => hg x (by simp [hx])) h.2]

/-- The fields of the beginning of a manifest are the first of its fields, and perhaps one of which the value
is cut. -/
theorem fields_prefix {text text' : Bytes} {fields fields' : List (Bytes × Bytes)} (h : ManifestText text fields)
    (hp : text' <+: text) (h' : ManifestText text' fields') :
    ∃ k, fields' = fields.take k ∨ ∃ n v v', fields[k]? = some (n, v) ∧ v' <+: v ∧ fields' = fields.take k ++ [(n, v')] := by
  obtain ⟨h1, -, h3⟩ := h
  obtain ⟨h1', -, h3'⟩ := h'
  have e : ∀ l : List (Bytes × Bytes), l.map (fun f => f.1 ++ equalsSign :: f.2) = l.map fieldLine := fun _ => rfl
  rw [e] at h1 h1'
  obtain ⟨k, hk | ⟨l, part, hl, hpart, hk⟩⟩ := lines_prefix h1 hp h1'
  · cases k with
    | zero => cases hk
    | succ k =>
      simp only [List.take_succ_cons, List.cons.injEq, true_and, ← List.map_take] at hk
      exact ⟨k, .inl (map_fieldLine_injective (fun f hf => (h3' f hf).2.1)
        (fun f hf => (h3 f (List.mem_of_mem_take hf)).2.1) hk)⟩
  · cases k with
    | zero =>
      simp only [List.take_zero, List.nil_append, List.cons.injEq, List.map_eq_nil_iff] at hk
      exact ⟨0, .inl (by rw [hk.2]; simp)⟩
    | succ k =>
      simp only [List.getElem?_cons_succ, List.getElem?_map, Option.map_eq_some_iff] at hl
      obtain ⟨f, hf, rfl⟩ := hl
      simp only [List.take_succ_cons, List.cons_append, List.cons.injEq, true_and, ← List.map_take] at hk
      obtain ⟨a, b, rfl, ha, hb⟩ := List.map_eq_append_iff.1 hk
      obtain ⟨g, rfl, rfl⟩ : ∃ g, b = [g] ∧ fieldLine g = part := by
        cases b with
        | nil => cases hb
        | cons g b =>
          simp only [List.map_cons, List.cons.injEq, List.map_eq_nil_iff] at hb
          exact ⟨g, by rw [hb.2], hb.1⟩
      have hg := (h3' g (by simp)).2.1
      obtain ⟨e1, e2⟩ := fieldLine_prefix hg (h3 f (List.mem_of_getElem? hf)).2.1 hpart
      refine ⟨k, .inr ⟨f.1, f.2, g.2, hf, e2, ?_⟩⟩
      rw [map_fieldLine_injective (fun f hf => (h3' f (by simp [hf])).2.1)
        (fun f hf => (h3 f (List.mem_of_mem_take hf)).2.1) ha, ← e1]

/-- The first two fields of a manifest that was written describe the payload. -/
theorem written_head {ft : FloatText} {build : BuildInfo} {m : Metadata} {p : PayloadIntegrity}
    {fields : List (Bytes × Bytes)} (h : ManifestText (metadataText ft build m p) fields)
    (hlen : 2 ≤ fields.length) :
    ∃ more, fields = (ascii "payload.size", decimal p.size) :: (ascii "payload.fnv1a64", hex16 p.digest) :: more := by
  obtain ⟨h1, -, h3⟩ := h
  obtain ⟨f, g, more, rfl⟩ : ∃ f g more, fields = f :: g :: more := by
    match fields, hlen with
    | f :: g :: more, _ => exact ⟨f, g, more, rfl⟩
  obtain ⟨r1, l1, r2, l2, r3, l3, -⟩ := h1
  obtain ⟨rest, hrest⟩ : ∃ rest, metadataText ft build m p = metadataHeader ++ newline ::
      (fieldLine (ascii "payload.size", decimal p.size) ++ newline ::
        (fieldLine (ascii "payload.fnv1a64", hex16 p.digest) ++ newline :: rest)) :=
    ⟨fieldLines (presentFields ((metadataFields ft build m p).drop 2)), by
      simp [metadataText, metadataFields, presentFields, fieldLines, fieldLine]⟩
  have k1 : newline ∉ fieldLine (ascii "payload.size", decimal p.size) := by
    simp only [fieldLine, List.mem_append, List.mem_cons, not_or]
    exact ⟨by decide +kernel, by decide +kernel, (lineText_decimal _).2⟩
  have k2 : newline ∉ fieldLine (ascii "payload.fnv1a64", hex16 p.digest) := by
    simp only [fieldLine, List.mem_append, List.mem_cons, not_or]
    exact ⟨by decide +kernel, by decide +kernel, (lineText_hex16 _).2⟩
  obtain ⟨-, e⟩ := FirstLine.unique l1 ⟨by decide +kernel, .inl hrest⟩
  subst e
  obtain ⟨e1, e⟩ := FirstLine.unique l2 ⟨k1, .inl rfl⟩
  subst e
  obtain ⟨e2, -⟩ := FirstLine.unique l3 ⟨k2, .inl rfl⟩
  refine ⟨more, ?_⟩
  rw [fieldLine_injective (f := f) (h3 f (by simp)).2.1 (show equalsSign ∉ ascii "payload.size" by decide +kernel) e1,
    fieldLine_injective (f := g) (h3 g (by simp)).2.1 (show equalsSign ∉ ascii "payload.fnv1a64" by decide +kernel) e2]

/-- A manifest of which only the beginning is left, if it is accepted at all, names the same payload. -/
theorem cut_manifest {ft : FloatText} {build : BuildInfo} {m : Metadata} {p : PayloadIntegrity} {text : Bytes}
    {r r' : ParsedMetadata} (h : readMetadata ft (metadataText ft build m p) = .ok r)
    (hp : text <+: metadataText ft build m p) (h' : readMetadata ft text = .ok r') : r'.payload = r.payload := by
  obtain ⟨fields, t1, a1⟩ := readMetadata_iff.1 h
  obtain ⟨fields', t2, a2⟩ := readMetadata_iff.1 h'
  have has : ∀ n, ∀ {l : List (Bytes × Bytes)}, fieldOf l n ≠ none → ∃ v, (ascii n, v) ∈ l := by
    intro n l hn
    unfold fieldOf at hn
    obtain ⟨v, hv⟩ := Option.ne_none_iff_exists'.1 hn
    rw [List.lookup_eq_some_iff] at hv
    obtain ⟨l₁, l₂, rfl, -⟩ := hv
    exact ⟨v, by simp⟩
  have hlen : 3 ≤ fields'.length := by
    obtain ⟨v0, h0⟩ := has _ (a2.mandatory "payload.size" (by simp [mandatoryFields]))
    obtain ⟨v1, h1⟩ := has _ (a2.mandatory "payload.fnv1a64" (by simp [mandatoryFields]))
    obtain ⟨v2, h2⟩ := has _ (a2.mandatory "artifact" (by simp [mandatoryFields]))
    have hsub : [(ascii "payload.size", v0), (ascii "payload.fnv1a64", v1), (ascii "artifact", v2)].Subperm fields' := by
      refine List.subperm_of_subset ?_ ?_
      · have : [ascii "payload.size", ascii "payload.fnv1a64", ascii "artifact"].Nodup := by decide +kernel
        exact List.Nodup.of_map Prod.fst this
      · simp [List.cons_subset, h0, h1, h2]
    simpa using hsub.length_le
  obtain ⟨k, hk⟩ := fields_prefix t1 hp t2
  have hk2 : 2 ≤ k ∧ 2 ≤ fields.length := by
    rcases hk with rfl | ⟨n, v, v', -, -, rfl⟩ <;> simp at hlen <;> omega
  obtain ⟨more, rfl⟩ := written_head t1 hk2.2
  obtain ⟨more', rfl⟩ : ∃ more', fields' =
      (ascii "payload.size", decimal p.size) :: (ascii "payload.fnv1a64", hex16 p.digest) :: more' := by
    obtain ⟨j, rfl⟩ : ∃ j, k = j + 2 := ⟨k - 2, by omega⟩
    rcases hk with rfl | ⟨n, v, v', -, -, rfl⟩ <;> exact ⟨_, by simp; rfl⟩
  have f0 : ∀ l : List (Bytes × Bytes), fieldOf ((ascii "payload.size", decimal p.size) ::
      (ascii "payload.fnv1a64", hex16 p.digest) :: l) "payload.size" = some (decimal p.size) := fun l => by
    simp [fieldOf]
  have f1 : ∀ l : List (Bytes × Bytes), fieldOf ((ascii "payload.size", decimal p.size) ::
      (ascii "payload.fnv1a64", hex16 p.digest) :: l) "payload.fnv1a64" = some (hex16 p.digest) := fun l => by
    have : (ascii "payload.fnv1a64" == ascii "payload.size") = false := by decide +kernel
    simp [fieldOf, List.lookup, this]
  obtain ⟨⟨v, e1, n1⟩, w, e2, n2⟩ := a1.payload
  obtain ⟨⟨v', e1', n1'⟩, w', e2', n2'⟩ := a2.payload
  rw [f0] at e1 e1'
  rw [f1] at e2 e2'
  cases e1; cases e1'; cases e2; cases e2'
  have e1 := NatText.unique n1' n1
  rw [n2] at n2'
  have e2 := (Option.some.inj n2').symm
  cases hr : r.payload
  cases hr' : r'.payload
  rw [hr, hr'] at e1 e2
  dsimp only at e1 e2
  rw [e1, e2]

/-- Two manifests with the same fields but for the last one record the same, but for that. -/
theorem accepts_determines {ft : FloatText} {F F' : String → Option Bytes} {r r' : ParsedMetadata}
    (h : ManifestAccepts ft F r) (h' : ManifestAccepts ft F' r') (e : ∀ n, ascii n ≠ ascii "topology.fnv1a64" → F n = F' n)
    (ht : r.topologyFingerprint = r'.topologyFingerprint) : r = r' := by
  have int : ∀ {n i i'}, ascii n ≠ ascii "topology.fnv1a64" → IntIs F n i → IntIs F' n i' → i = i' := by
    rintro n i i' hn ⟨v, h1, h2⟩ ⟨v', h1', h2'⟩
    rw [e n hn, h1'] at h1; cases h1; rw [← parseInt_iff] at h2 h2'; rw [h2] at h2'; exact Option.some.inj h2'
  have nat : ∀ {n i i'}, ascii n ≠ ascii "topology.fnv1a64" → NatIs F n i → NatIs F' n i' → i = i' := by
    rintro n i i' hn ⟨v, h1, h2⟩ ⟨v', h1', h2'⟩
    rw [e n hn, h1'] at h1; cases h1; exact NatText.unique h2 h2'
  have hex : ∀ {n i i'}, ascii n ≠ ascii "topology.fnv1a64" → HexIs F n i → HexIs F' n i' → i = i' := by
    rintro n i i' hn ⟨v, h1, h2⟩ ⟨v', h1', h2'⟩
    rw [e n hn, h1'] at h1; cases h1; rw [h2] at h2'; exact Option.some.inj h2'
  have e1 : r.artifact = r'.artifact := by
    have h1 := h.artifact; have h2 := h'.artifact
    rw [e _ (by decide +kernel), h2] at h1
    exact artifactName_injective (Option.some.inj h1).symm
  have e2 : r.topology = r'.topology := by
    have h1 := h.topology; have h2 := h'.topology
    rw [e _ (by decide +kernel), h2] at h1
    exact topologyName_injective (Option.some.inj h1).symm
  have e3 : r.maxThreads = r'.maxThreads := by
    rcases h.threads with ⟨k1, k2⟩ | ⟨n, k1, k2, -⟩ <;> rcases h'.threads with ⟨k1', k2'⟩ | ⟨n', k1', k2', -⟩
    · rw [k2, k2']
    · rw [e _ (by decide +kernel)] at k1; exact absurd k1 (natIs_ne_none k1')
    · rw [← e _ (by decide +kernel)] at k1'; exact absurd k1' (natIs_ne_none k1)
    · rw [k2, k2', nat (by decide +kernel) k1 k1']
  have e4 : r.payload = r'.payload := by
    have a := nat (by decide +kernel) h.payload.1 h'.payload.1
    have b := hex (by decide +kernel) h.payload.2 h'.payload.2
    cases hr : r.payload
    cases hr' : r'.payload
    rw [hr, hr'] at a b
    dsimp only at a b
    rw [a, b]
  have f1 := int (by decide +kernel) h.dimension.1 h'.dimension.1
  have f2 := int (by decide +kernel) h.counts.1.1 h'.counts.1.1
  have f3 := int (by decide +kernel) h.counts.2.1.1 h'.counts.2.1.1
  have f4 := int (by decide +kernel) h.counts.2.2.1.1 h'.counts.2.2.1.1
  have f5 := int (by decide +kernel) h.counts.2.2.2.1 h'.counts.2.2.2.1
  have f6 := int (by decide +kernel) h.times.1 h'.times.1
  have f7 := int (by decide +kernel) h.times.2.1 h'.times.2.1
  have f8 := nat (by decide +kernel) h.random.1 h'.random.1
  have f9 := nat (by decide +kernel) h.random.2.1 h'.random.2.1
  have f10 := nat (by decide +kernel) h.random.2.2 h'.random.2.2
  have f11 := hex (by decide +kernel) h.fingerprints.1 h'.fingerprints.1
  cases r; cases r'
  simp only at e1 e2 e3 e4 f1 f2 f3 f4 f5 f6 f7 f8 f9 f10 f11 ht
  simp only [e1, e2, e3, e4, f1, f2, f3, f4, f5, f6, f7, f8, f9, f10, f11, ht]

/-- The beginning of a file has the size of the file only if it is the whole file. -/
theorem cut_payload {c c' : Bytes} (hp : c' <+: c) (hsmall : c.length < 2 ^ 64)
    (h : payloadIntegrity c' = payloadIntegrity c) : c' = c := by
  have hl := hp.length_le
  have e : c'.length % 2 ^ 64 = c.length % 2 ^ 64 := congrArg PayloadIntegrity.size h
  rw [Nat.mod_eq_of_lt hsmall, Nat.mod_eq_of_lt (by omega)] at e
  exact hp.eq_of_length e

/-- A manifest of which only the beginning is left, if it is accepted at all, has all its lines; at most the
last one, the fingerprint of the topology, is cut. -/
theorem cut_manifest_fields {ft : FloatText} {text text' : Bytes} {fields fields' more : List (Bytes × Bytes)} {f : Bytes}
    {r' : ParsedMetadata} (h : ManifestText text fields) (hlast : fields = more ++ [(ascii "topology.fnv1a64", f)])
    (hp : text' <+: text) (h' : ManifestText text' fields') (ha : ManifestAccepts ft (fieldOf fields') r') :
    ∃ f', f' <+: f ∧ fields' = more ++ [(ascii "topology.fnv1a64", f')] := by
  have hname : ∃ v, (ascii "topology.fnv1a64", v) ∈ fields' := by
    have hn := ha.mandatory "topology.fnv1a64" (by simp [mandatoryFields])
    unfold fieldOf at hn
    obtain ⟨v, hv⟩ := Option.ne_none_iff_exists'.1 hn
    rw [List.lookup_eq_some_iff] at hv
    obtain ⟨l₁, l₂, rfl, -⟩ := hv
    exact ⟨v, by simp⟩
  obtain ⟨v, hv⟩ := hname
  have hnot : ∀ v, (ascii "topology.fnv1a64", v) ∉ more := by
    intro v hm
    have hn := h.2.1
    rw [hlast, List.map_append, List.nodup_append] at hn
    exact hn.2.2 _ (List.mem_map_of_mem hm) _ (by simp) rfl
  obtain ⟨k, hk⟩ := fields_prefix h hp h'
  have cut : ∀ j, more.length < j → fields.take j = fields := by
    intro j hj; rw [List.take_of_length_le]; rw [hlast]; simp; omega
  have early : ∀ j, j ≤ more.length → fields.take j = more.take j := by
    intro j hj; rw [hlast, List.take_append_of_le_length hj]
  rcases hk with rfl | ⟨n, w, w', hn, hw, rfl⟩
  · rcases Nat.lt_or_ge more.length k with hj | hj
    · exact ⟨f, List.prefix_refl _, by rw [cut k hj, hlast]⟩
    · rw [early k hj] at hv
      exact absurd (List.mem_of_mem_take hv) (hnot v)
  · rcases Nat.lt_trichotomy k more.length with hj | hj | hj
    · rw [early k hj.le] at hv
      rcases List.mem_append.1 hv with hv | hv
      · exact absurd (List.mem_of_mem_take hv) (hnot v)
      · rw [List.mem_singleton, Prod.mk.injEq] at hv
        rw [hlast, List.getElem?_append_left hj] at hn
        rw [← hv.1] at hn
        exact absurd (List.mem_of_getElem? hn) (hnot _)
    · subst hj
      rw [hlast] at hn
      simp only [List.getElem?_append_right (le_refl _), Nat.sub_self, List.getElem?_cons_zero, Option.some.injEq,
        Prod.mk.injEq] at hn
      obtain ⟨rfl, rfl⟩ := hn
      exact ⟨w', hw, by rw [early _ (le_refl _), List.take_length]⟩
    · rw [hlast, List.getElem?_eq_none (by simp; omega)] at hn
      cases hn

end CDT

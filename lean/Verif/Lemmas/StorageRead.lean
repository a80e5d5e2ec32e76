import Verif.Lemmas.Storage
import Verif.Lemmas.Metadata
/-
What a read accepts.
-/
namespace CDT
open Spec

variable {T : Type} {codec : Codec T} {ft : FloatText} {dest : Path} {t : T}

/-- A successful read of one payload state and one manifest state. -/
theorem readObserved_iff {s1 s2 s3 s4 : Files} {u : T} :
    readObserved codec ft dest s1 s2 s3 s4 = .ok u ↔
      (∃ c, s4 dest = some c ∧ parsePayload codec c = .ok u) ∧
      (s1 (manifestName dest) = none ∨
        ∃ M c recorded, s1 (manifestName dest) ≠ none ∧ s2 (manifestName dest) = some M ∧
          s3 dest = some c ∧ readMetadata ft M = .ok recorded ∧
          recorded.payload = payloadIntegrity c ∧ validateMetadata codec recorded u = .ok .unit) := by
  unfold readObserved
  have tail : ∀ (md : Option ParsedMetadata),
      ((do let t ← parsePayload codec (← orFilesystemError (s4 dest))
           match md with
           | some expected => validateMetadata codec expected t
           | none => Except.ok .unit
           return t : Except Exc T) = .ok u) ↔
      (∃ c, s4 dest = some c ∧ parsePayload codec c = .ok u) ∧
        ∀ r ∈ md, validateMetadata codec r u = .ok .unit := by
    intro md
    cases h4 : s4 dest with
    | none => simp [orFilesystemError, bind, Except.bind]
    | some c =>
      simp only [orFilesystemError, bind, Except.bind, Option.some.injEq, exists_eq_left']
      cases hp : parsePayload codec c with
      | error e => simp
      | ok v =>
        cases md with
        | none => simp [pure, Except.pure]
        | some r =>
          dsimp only
          cases hv : validateMetadata codec r v with
          | error e =>
            simp only [reduceCtorEq, Except.ok.injEq, Option.mem_some_iff, forall_eq', false_iff,
              not_and]
            rintro rfl; rw [hv]; simp
          | ok x =>
            simp only [pure, Except.pure, Except.ok.injEq, Option.mem_some_iff, forall_eq']
            constructor
            · rintro rfl; exact ⟨rfl, hv⟩
            · exact fun h => h.1
  cases h1 : s1 (manifestName dest) with
  | none =>
    have := tail none
    simp only [Option.not_mem_none, false_implies, implies_true, and_true] at this
    simp only [bind, Except.bind] at this ⊢
    rw [this]
    simp
  | some x =>
    simp only [reduceCtorEq, not_false_eq_true, true_and, false_or, ne_eq]
    cases h2 : s2 (manifestName dest) with
    | none => simp [orFilesystemError, bind, Except.bind]
    | some M =>
      cases h3 : readMetadata ft M with
      | error e => simp [orFilesystemError, bind, Except.bind, h3]
      | ok rec =>
        cases h5 : s3 dest with
        | none => simp [orFilesystemError, bind, Except.bind, h3]
        | some c =>
          by_cases hi : rec.payload = payloadIntegrity c
          · have := tail (some rec)
            simp only [Option.mem_some_iff, forall_eq'] at this
            simp only [orFilesystemError, bind, Except.bind, h3, require, hi, decide_true,
              if_true] at this ⊢
            rw [this]
            constructor
            · rintro ⟨a, b⟩; exact ⟨a, M, c, rec, rfl, rfl, h3, hi, b⟩
            · rintro ⟨a, M', c', rec', hM, hc, hr, -, b⟩
              cases hM; cases hc
              rw [h3] at hr
              cases hr
              exact ⟨a, b⟩
          · simp only [orFilesystemError, bind, Except.bind, h3, require, hi, decide_false]
            constructor
            · intro h; simp at h
            · rintro ⟨a, M', c', rec', hM, hc, hr, hi', b⟩
              cases hM; cases hc
              rw [h3] at hr
              cases hr
              exact absurd hi' hi

theorem readFile_iff {s : Files} {u : T} :
    readFile codec ft dest s = .ok u ↔
      ∃ c, s dest = some c ∧ parsePayload codec c = .ok u ∧
        ∀ M, s (manifestName dest) = some M → DescribesArtifact codec ft M c u := by
  unfold readFile
  rw [readObserved_iff]
  constructor
  · rintro ⟨⟨c, hc, hp⟩, h⟩
    refine ⟨c, hc, hp, fun M hM => ?_⟩
    rcases h with h | ⟨M', c', rec, -, hM', hc', hr, hi, hv⟩
    · rw [h] at hM; cases hM
    · rw [hM] at hM'; cases hM'
      rw [hc] at hc'; cases hc'
      exact ⟨rec, hr, hi, hv⟩
  · rintro ⟨c, hc, hp, h⟩
    refine ⟨⟨c, hc, hp⟩, ?_⟩
    cases hM : s (manifestName dest) with
    | none => exact .inl rfl
    | some M =>
      obtain ⟨rec, hr, hi, hv⟩ := h M hM
      exact .inr ⟨M, c, rec, by simp, rfl, hc, hr, hi, hv⟩

/-- What a manifest check establishes. -/
theorem derive_of_validate {p : ParsedMetadata} {u : T}
    (h : validateMetadata codec p u = .ok .unit) :
    deriveState codec u = .ok ⟨p.dimension, p.actualVertices, p.actualEdges, p.actualFaces,
      p.actualSimplices, p.minimumTimeslice, p.maximumTimeslice, p.placementFingerprint,
      p.topologyFingerprint⟩ := by
  unfold validateMetadata at h
  cases hs : deriveState codec u with
  | error e => simp [hs, bind, Except.bind] at h
  | ok s =>
    simp only [hs, bind, Except.bind, require] at h
    split at h
    · rename_i hc
      simp only [decide_eq_true_eq] at hc
      obtain ⟨c1, c2, c3, c4, c5, c6, c7, c8, c9⟩ := hc
      rw [c1, c2, c3, c4, c5, c6, c7, c8, c9]
    · cases h

/-- What is read depends on the manifest and the payload only. -/
theorem readFile_congr {s s' : Files} (h1 : s (manifestName dest) = s' (manifestName dest))
    (h2 : s dest = s' dest) : readFile codec ft dest s = readFile codec ft dest s' := by
  unfold readFile readObserved
  rw [h1, h2]

/-- Equal recorded integrity: the same bytes or a collision. -/
theorem integrity_eq {a b : Bytes} (h : payloadIntegrity a = payloadIntegrity b) :
    a = b ∨ Collision a b := by
  simp only [payloadIntegrity, PayloadIntegrity.mk.injEq] at h
  by_cases hab : a = b
  · exact .inl hab
  · exact .inr ⟨hab, h.1, BitVec.eq_of_toNat_eq h.2⟩

theorem isSpace_newline : isSpace newline = true := by decide

theorem skipSpace_newline (l : Bytes) : skipSpace (newline :: l) = skipSpace l := by
  simp [skipSpace, List.dropWhile, isSpace_newline]

/-- The text of a faithfully written triangulation parses back to it. -/
theorem parsePayload_write (hf : Faithful codec t) (hl : LabelsFit codec t) :
    parsePayload codec (payloadText codec t) = .ok t := by
  obtain ⟨l1, l2, l3⟩ := hl
  have l1 : Labels32 (codec.info t) := l1
  have hlen : (codec.info t).vertices.length = (codec.view t).nv := by simp [Codec.info]
  have hlen' : (codec.info t).cells.length = (codec.view t).nc := by simp [Codec.info]
  have tr := trailerFor_write l1 (by rw [hlen]; exact l2) (by rw [hlen']; exact l3) []
  obtain ⟨more, hmore⟩ : ∃ more, writeCausalInfo (codec.info t) = newline :: more := ⟨_, rfl⟩
  obtain ⟨t0, rest, hp, hs, hv, hc, hr⟩ := hf.parse more
  have hr : codec.relabel t0 (codec.info t) = t := hr
  rw [List.append_nil, hmore, skipSpace_newline, ← hs] at tr
  have hread : readCausalInfo (codec.view t0).nv (codec.view t0).nc (skipSpace rest) =
      .ok (codec.info t, []) := by
    rw [readCausalInfo_iff]
    exact ⟨by rw [hlen, hv], by rw [hlen', hc], tr⟩
  have hne : (skipSpace rest).isEmpty = false := by
    cases h : skipSpace rest with
    | nil => rw [h] at hread; simp [readCausalInfo, getline, orFilesystemError, bind, Except.bind] at hread
    | cons _ _ => rfl
  unfold parsePayload payloadText
  rw [hmore, hp]
  have hnil : skipSpace [] = [] := rfl
  simp only [orFilesystemError, bind, Except.bind, hne, hread, hr, hnil, require, hf.valid]
  rfl

theorem isSpace_iff {b : Byte} : isSpace b = true ↔ b ∈ [9#8, 10#8, 11#8, 12#8, 13#8, 32#8] := by
  revert b; decide

theorem skipSpace_isEmpty {l : Bytes} : (skipSpace l).isEmpty = true ↔ Blank l := by
  unfold skipSpace Blank
  induction l with
  | nil => simp
  | cons a l ih =>
    by_cases ha : isSpace a = true
    · rw [List.dropWhile_cons_of_pos ha, ih]
      simp only [List.forall_mem_cons, isSpace_iff.1 ha, true_and]
    · rw [List.dropWhile_cons_of_neg ha]
      simp only [List.isEmpty_cons, Bool.false_eq_true, false_iff]
      exact fun h => ha (isSpace_iff.2 (h a (List.mem_cons_self ..)))

theorem skipSpace_blank {gap l : Bytes} (h : Blank gap) : skipSpace (gap ++ l) = skipSpace l :=
  List.dropWhile_append_of_pos fun b hb => isSpace_iff.2 (h b hb)

theorem skipSpace_trailer {l rest : Bytes} {info : CausalInfo} (h : TrailerFor l info rest) :
    skipSpace l = l ∧ l ≠ [] := by
  obtain ⟨a, b, c, d, ⟨more, ⟨-, h⟩, -⟩, -⟩ := h
  obtain ⟨tl, e⟩ : ∃ tl, l = 99#8 :: tl := by
    rcases h with h | ⟨h, -⟩
    · exact ⟨_, h.trans (show causalHeader ++ newline :: more = 99#8 :: (causalHeader.tail ++ newline :: more) from rfl)⟩
    · exact ⟨_, h.trans (show causalHeader = 99#8 :: causalHeader.tail from rfl)⟩
  subst e
  exact ⟨List.dropWhile_cons_of_neg (by decide), by simp⟩

/-- What `parse_payload` accepts. -/
theorem parsePayload_iff {c : Bytes} {u : T} :
    parsePayload codec c = .ok u ↔
      ∃ t₀ rest, codec.parse c = some (t₀, rest) ∧ codec.tdsValid u = true ∧
        ((Blank rest ∧ u = t₀) ∨
          ∃ gap trailer info tail, rest = gap ++ trailer ∧ Blank gap ∧ TrailerFor trailer info tail ∧ Blank tail ∧
            info.vertices.length = (codec.view t₀).nv ∧ info.cells.length = (codec.view t₀).nc ∧
            u = codec.relabel t₀ info) := by
  unfold parsePayload
  simp only [orFs_bind_ok, Prod.exists]
  refine exists_congr fun t₀ => exists_congr fun rest => and_congr_right fun _ => ?_
  by_cases he : (skipSpace rest).isEmpty = true
  · rw [if_pos he]
    simp only [bind_ok (α := T × Bytes), require_bind_ok, Prod.exists, pure, Except.pure, Except.ok.injEq, Prod.mk.injEq]
    constructor
    · rintro ⟨_, _, ⟨rfl, rfl⟩, -, hv, rfl⟩
      exact ⟨hv, .inl ⟨skipSpace_isEmpty.1 he, rfl⟩⟩
    · rintro ⟨hv, ⟨hb, rfl⟩ | ⟨gap, trailer, info, tail, rfl, hg, ht, -⟩⟩
      · exact ⟨_, _, ⟨rfl, rfl⟩, he, hv, rfl⟩
      · rw [skipSpace_blank hg, (skipSpace_trailer ht).1] at he
        exact absurd (List.isEmpty_iff.1 he) (skipSpace_trailer ht).2
  · rw [if_neg he]
    simp only [bind_ok (α := T × Bytes), bind_ok (α := CausalInfo × Bytes), require_bind_ok, Prod.exists, readCausalInfo_iff, pure,
      Except.pure, Except.ok.injEq, Prod.mk.injEq]
    constructor
    · rintro ⟨info, tail, ⟨h1, h2, h3⟩, _, _, ⟨rfl, rfl⟩, ht, hv, rfl⟩
      refine ⟨hv, .inr ⟨rest.takeWhile isSpace, skipSpace rest, info, tail, (List.takeWhile_append_dropWhile ..).symm, ?_, h3,
        skipSpace_isEmpty.1 ht, h1, h2, rfl⟩⟩
      intro b hb
      exact isSpace_iff.1 (List.all_eq_true.1 List.all_takeWhile b hb)
    · rintro ⟨hv, ⟨hb, rfl⟩ | ⟨gap, trailer, info, tail, rfl, hg, ht, hta, h1, h2, rfl⟩⟩
      · exact absurd (skipSpace_isEmpty.2 hb) he
      · refine ⟨info, tail, ⟨h1, h2, ?_⟩, _, _, ⟨rfl, rfl⟩, skipSpace_isEmpty.2 hta, hv, rfl⟩
        rw [skipSpace_blank hg, (skipSpace_trailer ht).1]
        exact ht

end CDT

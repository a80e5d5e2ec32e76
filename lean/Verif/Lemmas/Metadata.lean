import Verif.Lemmas.Trailer
import Verif.Spec.Metadata
import Mathlib.Tactic.NormNum

namespace CDT
open Spec

/-- Look a field up by name. -/
def fieldOf (values : List (Bytes × Bytes)) (n : String) : Option Bytes :=
  values.lookup (ascii n)

theorem require_ok {c : Bool} {u : PUnit} : require c = .ok u ↔ c = true := by
  cases c <;> simp [require]

theorem pure_ok {α : Type} {a b : α} : (pure a : Except Exc α) = .ok b ↔ a = b := by
  simp [pure, Except.pure]

theorem map_ok {α β : Type} {x : Except Exc α} {f : α → β} {b : β} :
    (f <$> x) = .ok b ↔ ∃ a, x = .ok a ∧ f a = b := by
  cases x <;> simp [Functor.map, Except.map]

variable {values : List (Bytes × Bytes)} {n : String}

theorem fieldAt_ok {v : Bytes} : fieldAt values n = .ok v ↔ fieldOf values n = some v := by
  unfold fieldAt fieldOf
  cases h : values.lookup (ascii n) <;> simp only [Except.ok.injEq, reduceCtorEq, Option.some.injEq]

theorem hasField_eq : hasField values n = true ↔ fieldOf values n ≠ none := by
  unfold hasField fieldOf; rw [Option.isSome_iff_ne_none]

theorem hasField_false : hasField values n = false ↔ fieldOf values n = none := by
  unfold hasField fieldOf; exact Option.isSome_eq_false_iff.trans Option.isNone_iff_eq_none

theorem fieldIs_ok {t : String} {u : PUnit} :
    fieldIs values n t = .ok u ↔ fieldOf values n = some (ascii t) := by
  unfold fieldIs
  simp only [bind_ok, fieldAt_ok, require_ok, decide_eq_true_eq]
  exact ⟨fun ⟨a, h, e⟩ => e ▸ h, fun h => ⟨_, h, rfl⟩⟩

theorem intField_ok {i : ℤ} : intField values n = .ok i ↔ IntIs (fieldOf values) n i := by
  unfold intField IntIs
  simp only [bind_ok, fieldAt_ok, orFs_ok, parseInt_iff]

theorem natField_ok {i : ℕ} : natField 10 values n = .ok i ↔ NatIs (fieldOf values) n i := by
  unfold natField NatIs
  simp only [bind_ok, fieldAt_ok, orFs_ok, parseUnsigned_iff]

theorem hexField_ok {i : ℕ} : natField 16 values n = .ok i ↔ HexIs (fieldOf values) n i := by
  unfold natField HexIs
  simp only [bind_ok, fieldAt_ok, orFs_ok]

theorem floatField_ok {read : Bytes → Option LD} {x : LD} :
    floatField read values n = .ok x ↔ ∃ q, x = .fin q ∧ FloatIs read (fieldOf values) n q := by
  unfold floatField FloatIs
  simp only [bind_ok, fieldAt_ok, orFs_ok, require_ok, pure_ok]
  constructor
  · rintro ⟨v, hv, y, hy, u, hf, rfl⟩
    cases y with
    | fin q => exact ⟨q, rfl, v, hv, hy⟩
    | nan => simp [LD.isFinite] at hf
    | inf b => simp [LD.isFinite] at hf
  · rintro ⟨q, rfl, v, hv, h⟩
    exact ⟨v, hv, _, h, .unit, rfl, rfl⟩

theorem intIs_ne_none {field : String → Option Bytes} {i : ℤ} (h : IntIs field n i) :
    field n ≠ none := by obtain ⟨v, h, -⟩ := h; rw [h]; simp
theorem natIs_ne_none {field : String → Option Bytes} {i : ℕ} (h : NatIs field n i) :
    field n ≠ none := by obtain ⟨v, h, -⟩ := h; rw [h]; simp
theorem hexIs_ne_none {field : String → Option Bytes} {i : ℕ} (h : HexIs field n i) :
    field n ≠ none := by obtain ⟨v, h, -⟩ := h; rw [h]; simp
theorem floatIs_ne_none {read : Bytes → Option LD} {field : String → Option Bytes} {q : ℚ}
    (h : FloatIs read field n q) : field n ≠ none := by obtain ⟨v, h, -⟩ := h; rw [h]; simp

theorem checkAction_ok {ft : FloatText} {u : PUnit} :
    checkAction ft values = .ok u ↔
      ((fieldOf values "alpha" = none ∧ fieldOf values "k" = none ∧
          fieldOf values "lambda" = none) ∨
        ((∃ q, FloatIs ft.readLong (fieldOf values) "alpha" q ∧ 1 / 2 < q) ∧
          (∃ q, FloatIs ft.readLong (fieldOf values) "k" q) ∧
          ∃ q, FloatIs ft.readLong (fieldOf values) "lambda" q)) := by
  unfold checkAction
  simp only [bind_ok, require_ok]
  cases ha : hasField values "alpha" <;> cases hk : hasField values "k" <;>
    cases hl : hasField values "lambda" <;>
    simp only [hasField_eq, hasField_false] at ha hk hl <;>
    simp [ha, hk, hl, Bool.toNat]
  case false.false.true => intro q h; exact absurd ha (floatIs_ne_none h)
  case false.true.false => intro q h; exact absurd ha (floatIs_ne_none h)
  case false.true.true => intro q h; exact absurd ha (floatIs_ne_none h)
  case true.false.false => intro q _ _ r h; exact absurd hk (floatIs_ne_none h)
  case true.false.true => intro q _ _ r h; exact absurd hk (floatIs_ne_none h)
  case true.true.false => intro q _ _ r _ s h; exact absurd hl (floatIs_ne_none h)
  case false.false.false => exact pure_ok.2 rfl
  case true.true.true =>
    simp only [bind_ok, floatField_ok, require_ok]
    constructor
    · rintro ⟨x, ⟨q, rfl, h1⟩, y, ⟨r, rfl, h2⟩, z, ⟨s, rfl, h3⟩, h⟩
      refine ⟨⟨q, h1, ?_⟩, ⟨r, h2⟩, s, h3⟩
      simpa [LD.le] using h
    · rintro ⟨⟨q, h1, hq⟩, ⟨r, h2⟩, s, h3⟩
      exact ⟨_, ⟨q, rfl, h1⟩, _, ⟨r, rfl, h2⟩, _, ⟨s, rfl, h3⟩, by simpa [LD.le] using hq⟩

theorem checkRun_ok {u : PUnit} :
    checkRun values = .ok u ↔
      ((fieldOf values "configured_passes" = none ∧ fieldOf values "checkpoint_interval" = none) ∨
        ((∃ i, IntIs (fieldOf values) "configured_passes" i ∧ 0 < i) ∧
          ∃ i, IntIs (fieldOf values) "checkpoint_interval" i ∧ 0 < i)) := by
  unfold checkRun
  simp only [bind_ok, require_ok]
  cases ha : hasField values "configured_passes" <;>
    cases hk : hasField values "checkpoint_interval" <;>
    simp only [hasField_eq, hasField_false] at ha hk <;>
    simp [ha, hk, Bool.toNat]
  case false.true => intro q h; exact absurd ha (intIs_ne_none h)
  case true.false => intro q _ _ r h; exact absurd hk (intIs_ne_none h)
  case false.false => exact pure_ok.2 rfl
  case true.true =>
    simp only [bind_ok, intField_ok, require_ok, Bool.and_eq_true, decide_eq_true_eq]
    constructor
    · rintro ⟨x, h1, y, h2, h3, h4⟩; exact ⟨⟨x, h1, h3⟩, y, h2, h4⟩
    · rintro ⟨⟨x, h1, h3⟩, y, h2, h4⟩; exact ⟨x, h1, y, h2, h3, h4⟩

theorem checkBounded_ok {bound : ℤ} {u : PUnit} :
    checkBounded values n bound = .ok u ↔
      (fieldOf values n = none ∨ ∃ i, IntIs (fieldOf values) n i ∧ bound ≤ i) := by
  unfold checkBounded
  cases h : hasField values n <;> simp only [hasField_eq, hasField_false] at h
  · simp only [h, true_or, iff_true]; exact pure_ok.2 rfl
  · simp [h, bind_ok, intField_ok, require_ok]

theorem readThreads_ok {o : Option ℕ} :
    readThreads values = .ok o ↔
      ((fieldOf values "parallel.max_threads" = none ∧ o = none) ∨
        ∃ i, NatIs (fieldOf values) "parallel.max_threads" i ∧ o = some i ∧ 0 < i) := by
  unfold readThreads NatIs fieldOf
  cases h : values.lookup (ascii "parallel.max_threads") with
  | none => simp; exact eq_comm
  | some v =>
    simp only [bind_ok, orFs_ok, require_ok, pure_ok, parseUnsigned_iff, reduceCtorEq, false_and,
      false_or, Option.some.injEq, exists_eq_left', decide_eq_true_eq]
    constructor
    · rintro ⟨a, h1, u, h2, rfl⟩; exact ⟨a, h1, rfl, by omega⟩
    · rintro ⟨a, h1, rfl, h2⟩; exact ⟨a, h1, .unit, by omega, rfl⟩

theorem checkTrace_ok {u : PUnit} :
    checkTrace values = .ok u ↔
      ((fieldOf values "transition_trace.fnv1a64" = none ∧
          fieldOf values "transition_trace.count" = none) ∨
        ((∃ i, HexIs (fieldOf values) "transition_trace.fnv1a64" i) ∧
          ∃ i, NatIs (fieldOf values) "transition_trace.count" i)) := by
  unfold checkTrace
  simp only [bind_ok, require_ok]
  cases ha : hasField values "transition_trace.fnv1a64" <;>
    cases hk : hasField values "transition_trace.count" <;>
    simp only [hasField_eq, hasField_false] at ha hk <;>
    simp [ha, hk, Bool.toNat]
  case false.true => intro q h; exact absurd ha (hexIs_ne_none h)
  case true.false => intro q _ r h; exact absurd hk (natIs_ne_none h)
  case false.false => exact pure_ok.2 rfl
  case true.true =>
    simp only [bind_ok, map_ok, natField_ok, hexField_ok]
    constructor
    · rintro ⟨x, h1, y, h2, h⟩; exact ⟨⟨x, h1⟩, y, h2⟩
    · rintro ⟨⟨x, h1⟩, y, h2⟩; exact ⟨x, h1, y, h2, trivial⟩

theorem parseArtifact_iff {v : Bytes} {a : ArtifactKind} :
    parseArtifact v = some a ↔ v = artifactName a := by
  have d1 : ascii "initial-triangulation" ≠ ascii "checkpoint" := by decide +kernel
  have d2 : ascii "initial-triangulation" ≠ ascii "final-triangulation" := by decide +kernel
  have d3 : ascii "checkpoint" ≠ ascii "final-triangulation" := by decide +kernel
  unfold parseArtifact
  constructor
  · intro h
    split at h
    · simp only [Option.some.injEq] at h; subst h; assumption
    · split at h
      · simp only [Option.some.injEq] at h; subst h; assumption
      · split at h
        · simp only [Option.some.injEq] at h; subst h; assumption
        · simp at h
  · rintro rfl
    cases a
    · simp [artifactName]
    · simp [artifactName, d1.symm]
    · simp [artifactName, d2.symm, d3.symm]

theorem parseTopology_iff {v : Bytes} {t : Topology} :
    parseTopology v = some t ↔ v = topologyName t := by
  have d1 : ascii "spherical" ≠ ascii "toroidal" := by decide +kernel
  unfold parseTopology
  constructor
  · intro h
    split at h
    · simp only [Option.some.injEq] at h; subst h; assumption
    · split at h
      · simp only [Option.some.injEq] at h; subst h; assumption
      · simp at h
  · rintro rfl
    cases t
    · simp [topologyName, d1.symm]
    · simp [topologyName]

theorem interpretFields_iff {ft : FloatText} {p : ParsedMetadata} :
    interpretFields ft values = .ok p ↔ ManifestAccepts ft (fieldOf values) p := by
  unfold interpretFields
  simp only [bind_ok, require_ok, fieldIs_ok, fieldAt_ok, orFs_ok, parseArtifact_iff,
    parseTopology_iff, intField_ok, natField_ok, hexField_ok, floatField_ok, checkAction_ok,
    checkRun_ok, checkBounded_ok, readThreads_ok, checkTrace_ok, pure_ok]
  constructor
  · rintro ⟨-, hreq, -, c1, -, c2, -, c3, -, c4, -, c5, av, hav, art, rfl, tv, htv, topo, rfl,
      dim, hdim, ds, hds, dt, hdt, vs, hvs, es, hes, fs, hfs, ss, hss, mn, hmn, mx, hmx, -, hchk,
      r, ⟨rq, rfl, hr⟩, s, ⟨sq, rfl, hs⟩, -, hrs, -, hact, -, hrun, -, hatt, -, hcp, -, hcomp,
      th, hth, -, htr, size, hsize, dig, hdig, seed, hseed, i1, hi1, i2, hi2, pf, hpf, tf, htf,
      rfl⟩
    simp only [Bool.not_eq_true', Bool.or_eq_false_iff, decide_eq_false_iff_not, not_le,
      not_lt, gt_iff_lt] at hchk
    obtain ⟨⟨⟨⟨⟨⟨⟨h1, h2⟩, h3⟩, h4⟩, h5⟩, h6⟩, h7⟩, h8⟩ := hchk
    simp only [Bool.not_eq_true', Bool.or_eq_false_iff, LD.lt, LD.le, decide_eq_false_iff_not,
      not_le, not_lt] at hrs
    refine ⟨?_, ⟨c1, c2, c3, c4, c5⟩, hav, htv, ⟨hdim, h1⟩, ⟨⟨ds, hds, h2⟩, dt, hdt, h3⟩,
      ⟨⟨hvs, h4⟩, ⟨hes, h5⟩, ⟨hfs, h6⟩, hss, h7⟩, ⟨hmn, hmx, h8⟩, ⟨⟨rq, hr, hrs.1⟩, sq, hs, hrs.2⟩,
      hact, hrun, hatt, ?_, hcomp, hth, htr, ⟨hsize, hdig⟩, ⟨hseed, hi1, hi2⟩, hpf, htf⟩
    · intro m hm
      rw [List.all_eq_true] at hreq
      exact hasField_eq.1 (hreq m hm)
    · intro e
      simp only at e
      subst e
      simp only [decide_true, Bool.true_and, Bool.not_not] at hcp
      exact hasField_eq.1 hcp
  · intro h
    obtain ⟨⟨ds, hds, h2⟩, dt, hdt, h3⟩ := h.desired
    obtain ⟨⟨rq, hr, hr0⟩, sq, hs, hs0⟩ := h.foliation
    refine ⟨.unit, ?_, .unit, h.contract.1, .unit, h.contract.2.1, .unit, h.contract.2.2.1, .unit,
      h.contract.2.2.2.1, .unit, h.contract.2.2.2.2, _, h.artifact, _, rfl, _, h.topology, _, rfl,
      _, h.dimension.1, ds, hds, dt, hdt, _, h.counts.1.1, _, h.counts.2.1.1, _, h.counts.2.2.1.1,
      _, h.counts.2.2.2.1, _, h.times.1, _, h.times.2.1, .unit, ?_, _, ⟨rq, rfl, hr⟩, _,
      ⟨sq, rfl, hs⟩, .unit, ?_, .unit, h.action, .unit, h.run, .unit, h.attempts, .unit, ?_, .unit,
      h.completed, _, h.threads, .unit, h.trace, _, h.payload.1, _, h.payload.2, _, h.random.1, _,
      h.random.2.1, _, h.random.2.2, _, h.fingerprints.1, _, h.fingerprints.2, rfl⟩
    · rw [List.all_eq_true]
      intro m hm
      exact hasField_eq.2 (h.mandatory m hm)
    · have a1 := h.dimension.2
      have a2 := h.counts.1.2
      have a3 := h.counts.2.1.2
      have a4 := h.counts.2.2.1.2
      have a5 := h.counts.2.2.2.2
      have a6 := h.times.2.2
      simp only [Bool.not_eq_true', Bool.or_eq_false_iff, decide_eq_false_iff_not, not_le, not_lt,
        gt_iff_lt]
      exact ⟨⟨⟨⟨⟨⟨⟨a1, h2⟩, h3⟩, a2⟩, a3⟩, a4⟩, a5⟩, a6⟩
    · simp [LD.lt, LD.le, hr0, hs0]
    · by_cases e : p.artifact = .checkpoint
      · simp [e, hasField_eq.2 (h.checkpoint e)]
      · simp [e]

/-! ### The field loop -/

/-- A field line. -/
def fieldLine (f : Bytes × Bytes) : Bytes := f.1 ++ equalsSign :: f.2

theorem lookup_isSome_iff {l : List (Bytes × Bytes)} {k : Bytes} :
    (l.lookup k).isSome = true ↔ k ∈ l.map Prod.fst := by
  induction l with
  | nil => simp
  | cons a l ih =>
    obtain ⟨x, y⟩ := a
    by_cases h : k = x
    · subst h; simp [List.lookup]
    · have : (k == x) = false := by simpa using h
      rw [List.lookup_cons, this]
      simp only [List.map_cons, List.mem_cons, h, false_or]
      exact ih

theorem FirstLine.length_lt {t l r : Bytes} (h : FirstLine t l r) : r.length < t.length := by
  rcases h.2 with rfl | ⟨rfl, hne, rfl⟩
  · simp; omega
  · simpa using List.length_pos_iff.2 hne

theorem readFields_iff {fuel : ℕ} {acc out : List (Bytes × Bytes)} {input : Bytes}
    (hfuel : input.length ≤ fuel) (hacc : (acc.map Prod.fst).Nodup) :
    readFields fuel acc input = .ok out ↔
      ∃ fields, out = acc ++ fields ∧ BeginsWithLines input (fields.map fieldLine) [] ∧
        (out.map Prod.fst).Nodup ∧ ∀ f ∈ fields, f.1 ≠ [] ∧ equalsSign ∉ f.1 ∧ f.2 ≠ [] := by
  induction fuel generalizing acc input with
  | zero =>
    have : input = [] := List.length_eq_zero_iff.1 (by omega)
    subst this
    simp only [readFields, Except.ok.injEq]
    constructor
    · rintro rfl; exact ⟨[], by simp, rfl, hacc, by simp⟩
    · rintro ⟨fields, rfl, hb, -⟩
      cases fields with
      | nil => simp
      | cons f fs =>
        obtain ⟨m, h1, -⟩ := hb
        have := FirstLine.length_lt h1
        simp at this
  | succ fuel ih =>
    simp only [readFields]
    cases hg : getline input with
    | none =>
      have hin : input = [] := by
        unfold getline at hg
        split at hg
        · rename_i hz; simpa using hz
        · simp at hg
      subst hin
      simp only [Except.ok.injEq]
      constructor
      · rintro rfl; exact ⟨[], by simp, rfl, hacc, by simp⟩
      · rintro ⟨fields, rfl, hb, -⟩
        cases fields with
        | nil => simp
        | cons f fs =>
          obtain ⟨m, h1, -⟩ := hb
          have := FirstLine.length_lt h1
          simp at this
    | some lr =>
      obtain ⟨line, rest⟩ := lr
      have hfl := getline_iff.1 hg
      have hlt := FirstLine.length_lt hfl
      simp only [bind_ok, orFs_ok, require_ok, Prod.exists]
      constructor
      · rintro ⟨name, value, hsp, -, hne, -, hdup, hrec⟩
        obtain ⟨hline, hname⟩ := splitFirst_eq_some.1 hsp
        simp only [Bool.not_eq_true', Bool.or_eq_false_iff, List.isEmpty_eq_false_iff] at hne
        have hdup' : name ∉ acc.map Prod.fst := by
          intro hm
          rw [← lookup_isSome_iff] at hm
          simp [hm] at hdup
        have hacc' : ((acc ++ [(name, value)]).map Prod.fst).Nodup := by
          rw [List.map_append, List.nodup_append]
          exact ⟨hacc, by simp, by
            intro a ha b hb; simp at hb; subst hb; rintro rfl; exact hdup' ha⟩
        obtain ⟨fields, rfl, hb, hnd, hprop⟩ := (ih (by omega) hacc').1 hrec
        refine ⟨(name, value) :: fields, by simp, ⟨rest, by rw [show fieldLine (name, value) = line from hline.symm]; exact hfl, hb⟩, hnd, ?_⟩
        intro f hf
        rcases List.mem_cons.1 hf with rfl | hf
        · exact ⟨hne.1, hname, hne.2⟩
        · exact hprop f hf
      · rintro ⟨fields, rfl, hb, hnd, hprop⟩
        cases fields with
        | nil =>
          simp only [List.map_nil, BeginsWithLines] at hb
          subst hb; simp at hlt
        | cons f fs =>
          obtain ⟨m, h1, h2⟩ := hb
          obtain ⟨e1, e2⟩ := FirstLine.unique hfl h1
          subst e1 e2
          obtain ⟨p1, p2, p3⟩ := hprop f (by simp)
          have hnd' : ((acc ++ [f]).map Prod.fst).Nodup := by
            have : acc ++ f :: fs = (acc ++ [f]) ++ fs := by simp
            rw [this, List.map_append] at hnd
            exact (List.nodup_append.1 hnd).1
          have hdup : f.1 ∉ acc.map Prod.fst := by
            rw [List.map_append, List.nodup_append] at hnd'
            intro hm
            exact hnd'.2.2 _ hm _ (by simp) rfl
          refine ⟨f.1, f.2, splitFirst_eq_some.2 ⟨rfl, p2⟩, .unit, by simp [p1, p3], .unit, ?_, ?_⟩
          · cases h : (acc.lookup f.1).isSome with
            | false => rfl
            | true => exact absurd (lookup_isSome_iff.1 h) hdup
          · refine (ih (by omega) hnd').2 ⟨fs, by simp, h2, by simpa using hnd, ?_⟩
            intro g hg'; exact hprop g (by simp [hg'])

theorem readMetadata_iff {ft : FloatText} {text : Bytes} {p : ParsedMetadata} :
    readMetadata ft text = .ok p ↔
      ∃ fields, ManifestText text fields ∧ ManifestAccepts ft (fieldOf fields) p := by
  unfold readMetadata ManifestText
  simp only [bind_ok, orFs_ok, require_ok, Prod.exists, getline_iff, decide_eq_true_eq,
    interpretFields_iff]
  constructor
  · rintro ⟨line, rest, hfl, -, rfl, values, hf, hacc⟩
    obtain ⟨fields, e, hb, hnd, hprop⟩ := (readFields_iff (Nat.le_refl _) (by simp)).1 hf
    simp only [List.nil_append] at e
    subst e
    exact ⟨values, ⟨⟨rest, hfl, hb⟩, hnd, hprop⟩, hacc⟩
  · rintro ⟨fields, ⟨⟨rest, hfl, hb⟩, hnd, hprop⟩, hacc⟩
    exact ⟨_, rest, hfl, .unit, rfl, fields,
      (readFields_iff (Nat.le_refl _) (by simp)).2 ⟨fields, by simp, hb, hnd, hprop⟩, hacc⟩

/-! ### Only `filesystem_error` -/

theorem FsOnly.requireBind {β : Type} {c : Bool} {f : PUnit → Except Exc β}
    (h : c = true → FsOnly (f .unit)) : FsOnly (require c >>= f) := by
  cases c with
  | false => intro e he; simp only [require, Bool.false_eq_true, if_false] at he; exact (Except.error.inj he).symm
  | true => exact h rfl

theorem fsOnly_fieldAt (h : hasField values n = true) : FsOnly (fieldAt values n) := by
  intro e he
  unfold fieldAt at he
  unfold hasField at h
  split at he
  · simp at he
  · rename_i hn; rw [hn] at h; simp at h

theorem fsOnly_intField (h : hasField values n = true) : FsOnly (intField values n) :=
  (fsOnly_fieldAt h).bind fun _ => fsOnly_orFs _
theorem fsOnly_natField {b : ℕ} (h : hasField values n = true) : FsOnly (natField b values n) :=
  (fsOnly_fieldAt h).bind fun _ => fsOnly_orFs _
theorem fsOnly_floatField {r : Bytes → Option LD} (h : hasField values n = true) :
    FsOnly (floatField r values n) :=
  (fsOnly_fieldAt h).bind fun _ => (fsOnly_orFs _).bind fun _ => (fsOnly_require _).bind fun _ =>
    fsOnly_pure _
theorem fsOnly_fieldIs {t : String} (h : hasField values n = true) : FsOnly (fieldIs values n t) :=
  (fsOnly_fieldAt h).bind fun _ => fsOnly_require _

theorem fsOnly_checkAction (ft : FloatText) : FsOnly (checkAction ft values) := by
  unfold checkAction
  apply FsOnly.requireBind
  intro _
  split
  · rename_i h
    have h' : hasField values "alpha" = true ∧ hasField values "k" = true ∧
        hasField values "lambda" = true := by
      cases ha : hasField values "alpha" <;> cases hk : hasField values "k" <;>
        cases hl : hasField values "lambda" <;> simp [ha, hk, hl, Bool.toNat] at h ⊢
    exact (fsOnly_floatField h'.1).bind fun _ => (fsOnly_floatField h'.2.1).bind fun _ =>
      (fsOnly_floatField h'.2.2).bind fun _ => fsOnly_require _
  · exact fsOnly_pure _

theorem fsOnly_checkRun : FsOnly (checkRun values) := by
  unfold checkRun
  apply FsOnly.requireBind
  intro _
  split
  · rename_i h
    have h' : hasField values "configured_passes" = true ∧
        hasField values "checkpoint_interval" = true := by
      cases ha : hasField values "configured_passes" <;>
        cases hk : hasField values "checkpoint_interval" <;> simp [ha, hk, Bool.toNat] at h ⊢
    exact (fsOnly_intField h'.1).bind fun _ => (fsOnly_intField h'.2).bind fun _ =>
      fsOnly_require _
  · exact fsOnly_pure _

theorem fsOnly_checkBounded {b : ℤ} : FsOnly (checkBounded values n b) := by
  unfold checkBounded
  split
  · rename_i h; exact (fsOnly_intField h).bind fun _ => fsOnly_require _
  · exact fsOnly_pure _

theorem fsOnly_readThreads : FsOnly (readThreads values) := by
  unfold readThreads
  split
  · exact fsOnly_pure _
  · exact (fsOnly_orFs _).bind fun _ => (fsOnly_require _).bind fun _ => fsOnly_pure _

theorem fsOnly_checkTrace : FsOnly (checkTrace values) := by
  unfold checkTrace
  apply FsOnly.requireBind
  intro _
  split
  · rename_i h
    have h' : hasField values "transition_trace.fnv1a64" = true ∧
        hasField values "transition_trace.count" = true := by
      cases ha : hasField values "transition_trace.fnv1a64" <;>
        cases hk : hasField values "transition_trace.count" <;> simp [ha, hk, Bool.toNat] at h ⊢
    exact (fsOnly_natField h'.1).bind fun _ => (fsOnly_natField h'.2).bind fun _ => fsOnly_pure _
  · exact fsOnly_pure _

theorem fsOnly_interpret (ft : FloatText) : FsOnly (interpretFields ft values) := by
  apply FsOnly.requireBind
  intro hreq
  rw [List.all_eq_true] at hreq
  have r : ∀ m, m ∈ requiredFields → hasField values m = true := hreq
  have i : ∀ m, m ∈ requiredFields → FsOnly (intField values m) := fun m h => fsOnly_intField (r m h)
  have q : ∀ b m, m ∈ requiredFields → FsOnly (natField b values m) :=
    fun b m h => fsOnly_natField (r m h)
  have is : ∀ m t, m ∈ requiredFields → FsOnly (fieldIs values m t) :=
    fun m t h => fsOnly_fieldIs (r m h)
  refine (is _ _ (by decide)).bind fun _ => (is _ _ (by decide)).bind fun _ =>
    (is _ _ (by decide)).bind fun _ => (is _ _ (by decide)).bind fun _ =>
    (is _ _ (by decide)).bind fun _ => (fsOnly_fieldAt (r _ (by decide))).bind fun _ =>
    (fsOnly_orFs _).bind fun _ => (fsOnly_fieldAt (r _ (by decide))).bind fun _ =>
    (fsOnly_orFs _).bind fun _ => (i _ (by decide)).bind fun _ => (i _ (by decide)).bind fun _ =>
    (i _ (by decide)).bind fun _ => (i _ (by decide)).bind fun _ => (i _ (by decide)).bind fun _ =>
    (i _ (by decide)).bind fun _ => (i _ (by decide)).bind fun _ => (i _ (by decide)).bind fun _ =>
    (i _ (by decide)).bind fun _ => (fsOnly_require _).bind fun _ =>
    (fsOnly_floatField (r _ (by decide))).bind fun _ =>
    (fsOnly_floatField (r _ (by decide))).bind fun _ => (fsOnly_require _).bind fun _ =>
    (fsOnly_checkAction ft).bind fun _ => fsOnly_checkRun.bind fun _ =>
    fsOnly_checkBounded.bind fun _ => (fsOnly_require _).bind fun _ =>
    fsOnly_checkBounded.bind fun _ => fsOnly_readThreads.bind fun _ =>
    fsOnly_checkTrace.bind fun _ => (q _ _ (by decide)).bind fun _ => (q _ _ (by decide)).bind fun _ =>
    (q _ _ (by decide)).bind fun _ => (q _ _ (by decide)).bind fun _ =>
    (q _ _ (by decide)).bind fun _ => (q _ _ (by decide)).bind fun _ =>
    (q _ _ (by decide)).bind fun _ => fsOnly_pure _

theorem fsOnly_readFields (fuel : ℕ) (acc : List (Bytes × Bytes)) (input : Bytes) :
    FsOnly (readFields fuel acc input) := by
  induction fuel generalizing acc input with
  | zero => exact fsOnly_pure _
  | succ fuel ih =>
    unfold readFields
    split
    · exact fsOnly_pure _
    · exact (fsOnly_orFs _).bind fun _ => (fsOnly_require _).bind fun _ =>
        (fsOnly_require _).bind fun _ => ih _ _

theorem fsOnly_readMetadata (ft : FloatText) (input : Bytes) : FsOnly (readMetadata ft input) :=
  (fsOnly_orFs _).bind fun _ => (fsOnly_require _).bind fun _ =>
    (fsOnly_readFields _ _ _).bind fun _ => fsOnly_interpret ft

end CDT

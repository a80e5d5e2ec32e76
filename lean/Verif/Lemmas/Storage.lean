import Verif.Spec.Storage
import Verif.Lemmas.Trailer
import Mathlib.Tactic.Common
import Mathlib.Tactic.Set
/-
What the file operations of a write do.
-/
namespace CDT
open Spec

theorem Io.bind_run {α β : Type} (p : Io α) (f : α → Io β) (d : Disk) :
    (p >>= f) d = match p d with
      | (.ok a, d') => f a d'
      | (.error e, d') => (.error e, d') := rfl

theorem Io.pure_run {α : Type} (a : α) (d : Disk) : (pure a : Io α) d = (.ok a, d) := rfl

/-- Only files of `names` changed between the disks, and only they in the states in between. -/
structure Quiet (names : Path → Prop) (d d' : Disk) : Prop where
  visible : ∀ s ∈ d'.visible, s ∈ d.visible ∨ ∀ p, ¬ names p → s p = d.fs p
  fs : ∀ p, ¬ names p → d'.fs p = d.fs p
  fates : d'.fates = d.fates

theorem Quiet.refl (names : Path → Prop) (d : Disk) : Quiet names d d :=
  ⟨fun _ h => .inl h, fun _ _ => rfl, rfl⟩

theorem Quiet.trans {names : Path → Prop} {a b c : Disk} (h : Quiet names a b)
    (h' : Quiet names b c) : Quiet names a c := by
  refine ⟨fun s hs => ?_, fun p hp => (h'.fs p hp).trans (h.fs p hp), h'.fates.trans h.fates⟩
  rcases h'.visible s hs with hb | hb
  · exact h.visible s hb
  · exact .inr fun p hp => (hb p hp).trans (h.fs p hp)

theorem Quiet.mono {names names' : Path → Prop} {a b : Disk} (h : Quiet names a b)
    (hn : ∀ p, names p → names' p) : Quiet names' a b :=
  ⟨fun s hs => (h.visible s hs).imp id fun g p hp => g p (mt (hn p) hp),
    fun p hp => h.fs p (mt (hn p) hp), h.fates⟩

theorem Files.put_same (fs : Files) (p : Path) (c : Option Bytes) : fs.put p c p = c := by
  simp [Files.put]

theorem Files.put_other (fs : Files) {p q : Path} (h : q ≠ p) (c : Option Bytes) :
    fs.put p c q = fs q := by simp [Files.put, h]

theorem quiet_put (p : Path) (c : Option Bytes) (d : Disk) :
    Quiet (· = p) d (Io.put p c d).2 := by
  refine ⟨fun s hs => ?_, fun q hq => Files.put_other _ hq _, rfl⟩
  simp only [Io.put, List.mem_cons] at hs
  rcases hs with rfl | hs
  · exact .inr fun q hq => Files.put_other _ hq _
  · exact .inl hs

theorem quiet_clock (names : Path → Prop) (d : Disk) (n : ℕ) :
    Quiet names d { d with clock := n } := ⟨fun _ h => .inl h, fun _ _ => rfl, rfl⟩

/-! ### Single operations -/

theorem remove_run (p : Path) (d : Disk) :
    ∃ d', Io.remove p d = (.ok (), d') ∧ Quiet (· = p) d d' ∧
      ((d.fates d.clock).removed = true → d'.fs p = none ∧ d'.fs = d.fs.put p none) ∧
      (d'.fs = d.fs ∨ d'.fs = d.fs.put p none) ∧
      (d'.visible = d.visible ∨ d'.visible = d.fs.put p none :: d.visible) := by
  simp only [Io.remove, Io.bind_run, Io.nextFate]
  cases h : (d.fates d.clock).removed with
  | true =>
    refine ⟨_, rfl, (quiet_clock _ d _).trans (quiet_put p none _), fun _ => ?_, ?_, ?_⟩
    · exact ⟨Files.put_same _ _ _, rfl⟩
    · exact .inr rfl
    · exact .inr rfl
  | false => exact ⟨_, rfl, quiet_clock _ d _, fun h => absurd h (by simp), .inl rfl, .inl rfl⟩

theorem putAll_run (p : Path) : ∀ (cs : List Bytes) (d : Disk),
    ∃ d', Io.putAll p cs d = (.ok (), d') ∧ Quiet (· = p) d d'
  | [], d => ⟨d, rfl, Quiet.refl _ d⟩
  | c :: cs, d => by
    obtain ⟨d', h, q⟩ := putAll_run p cs (Io.put p (some c) d).2
    exact ⟨d', by simp only [Io.putAll, Io.bind_run, Io.put] at h ⊢; exact h,
      (quiet_put p (some c) d).trans q⟩

theorem writeWhole_run (p : Path) (c : Bytes) (d : Disk) :
    (∃ d', Io.writeWhole p c d = (.ok (), d') ∧ Quiet (· = p) d d' ∧ d'.fs p = some c) ∨
      ∃ e d', Io.writeWhole p c d = (.error e, d') ∧ Quiet (· = p) d d' := by
  simp only [Io.writeWhole, Io.bind_run, Io.nextFate]
  cases h : (d.fates d.clock).opened with
  | false => exact .inr ⟨_, _, rfl, quiet_clock _ d _⟩
  | true =>
    have q0 := (quiet_clock (· = p) d (d.clock + 1)).trans
      (quiet_put p (some []) { d with clock := d.clock + 1 })
    obtain ⟨d1, h1, q1⟩ := putAll_run p (d.fates d.clock).partials
      (Io.put p (some []) { d with clock := d.clock + 1 }).2
    simp only [if_true, Io.bind_run, Io.put] at h1 q0 q1 ⊢
    rw [h1]
    cases (d.fates d.clock).interrupted with
    | none =>
      refine .inl ⟨_, rfl, (q0.trans q1).trans (quiet_put p (some c) d1), Files.put_same _ _ _⟩
    | some e =>
      refine .inr ⟨e, _, rfl, (q0.trans q1).trans (quiet_put p _ d1)⟩

theorem readWhole_run (p : Path) (d : Disk) :
    (∃ c, Io.readWhole p d = (.ok c, { d with clock := d.clock + 1 }) ∧ d.fs p = some c) ∨
      Io.readWhole p d = (.error .filesystemError, { d with clock := d.clock + 1 }) := by
  simp only [Io.readWhole, Io.bind_run, Io.nextFate, Io.look]
  cases d.fs p with
  | none => exact .inr rfl
  | some c =>
    cases (d.fates d.clock).opened with
    | true => exact .inl ⟨c, rfl, rfl⟩
    | false => exact .inr rfl

theorem rename_run (a b : Path) (d : Disk) :
    (∃ c d', Io.rename a b d = (.ok (), d') ∧ d.fs a = some c ∧
        d'.fs = (d.fs.put b (some c)).put a none ∧ d'.visible = d'.fs :: d.visible ∧
        d'.fates = d.fates) ∨
      (Io.rename a b d = (.error .filesystemError, { d with clock := d.clock + 1 }) ∧
        (d.fs a ≠ none → (d.fates d.clock).renamed = false)) := by
  simp only [Io.rename, Io.bind_run, Io.nextFate, Io.look]
  cases d.fs a with
  | none => exact .inr ⟨rfl, fun h => absurd rfl h⟩
  | some c =>
    cases (d.fates d.clock).renamed with
    | true => exact .inl ⟨c, _, rfl, rfl, rfl, rfl, rfl⟩
    | false => exact .inr ⟨rfl, fun _ => rfl⟩

/-! ### The write -/

theorem ascii_tmp_length : (ascii ".tmp").length = 4 := by decide +kernel
theorem ascii_meta_length : (ascii ".meta").length = 5 := by decide +kernel

section Names
variable (p : Path)
theorem name_tmp_ne : temporaryName p ≠ p := fun h => by
  have := congrArg List.length h
  simp only [temporaryName, List.length_append, ascii_tmp_length] at this; omega
theorem name_meta_ne : manifestName p ≠ p := fun h => by
  have := congrArg List.length h
  simp only [manifestName, List.length_append, ascii_meta_length] at this; omega
theorem name_metatmp_ne : temporaryName (manifestName p) ≠ p := fun h => by
  have := congrArg List.length h
  simp only [manifestName, temporaryName, List.length_append, ascii_meta_length,
    ascii_tmp_length] at this; omega
theorem name_meta_ne_tmp : manifestName p ≠ temporaryName p := fun h => by
  have := congrArg List.length h
  simp only [manifestName, temporaryName, List.length_append, ascii_meta_length,
    ascii_tmp_length] at this; omega
theorem name_metatmp_ne_tmp : temporaryName (manifestName p) ≠ temporaryName p := fun h => by
  have := congrArg List.length h
  simp only [manifestName, temporaryName, List.length_append, ascii_meta_length,
    ascii_tmp_length] at this; omega
end Names

/-- The temporary files of a write. -/
def IsTemp (dest p : Path) : Prop := p = temporaryName dest ∨ p = temporaryName (manifestName dest)

theorem not_temp_dest (dest : Path) : ¬ IsTemp dest dest := by
  rintro (h | h)
  · exact name_tmp_ne dest h.symm
  · exact name_metatmp_ne dest h.symm

theorem not_temp_manifest (dest : Path) : ¬ IsTemp dest (manifestName dest) := by
  rintro (h | h)
  · exact name_meta_ne_tmp dest h
  · exact name_tmp_ne (manifestName dest) h.symm

variable {T : Type} {codec : Codec T} {ft : FloatText} {build : BuildInfo} {dest : Path} {t : T}

theorem Io.lift_run {α : Type} (x : Except Exc α) (d : Disk) : Io.lift x d = (x, d) := rfl

/-- Outcomes of the manifest part of a write. -/
theorem publishManifest_run (m : Metadata) (payload : Bytes) (d : Disk)
    (hp : d.fs (temporaryName dest) = some payload) :
    (∃ d1 d', publishManifest codec ft build dest t m d = (.ok (), d') ∧
        Quiet (IsTemp dest) d d1 ∧ d1.fs (temporaryName dest) = some payload ∧
        d'.fs = (d1.fs.put (manifestName dest)
          (some (metadataText ft build m (payloadIntegrity payload)))).put
            (temporaryName (manifestName dest)) none ∧
        d'.visible = d'.fs :: d1.visible ∧ d'.fates = d1.fates ∧
        DescribesArtifact codec ft (metadataText ft build m (payloadIntegrity payload)) payload t) ∨
      ∃ e d', publishManifest codec ft build dest t m d = (.error e, d') ∧
        Quiet (IsTemp dest) d d' := by
  have qm : ∀ {a b : Disk}, Quiet (· = temporaryName (manifestName dest)) a b →
      Quiet (IsTemp dest) a b := fun h => h.mono fun p hp => .inr hp
  simp only [publishManifest, Io.bind_run]
  rcases readWhole_run (temporaryName dest) d with ⟨c, h, hc⟩ | h
  · rw [hp, Option.some.injEq] at hc
    subst hc
    rw [h]
    dsimp only
    set d1 : Disk := { d with clock := d.clock + 1 } with hd1
    have q1 : Quiet (IsTemp dest) d d1 := quiet_clock _ d _
    rcases writeWhole_run (temporaryName (manifestName dest))
      (metadataText ft build m (payloadIntegrity payload)) d1 with ⟨d2, h2, q2, hw⟩ | ⟨e, d2, h2, q2⟩
    · rw [h2]
      dsimp only
      rcases readWhole_run (temporaryName (manifestName dest)) d2 with ⟨c', h3, hc'⟩ | h3
      · rw [hw, Option.some.injEq] at hc'
        subst hc'
        rw [h3]
        dsimp only [Io.lift_run]
        set d3 : Disk := { d2 with clock := d2.clock + 1 } with hd3
        have q3 : Quiet (IsTemp dest) d d3 := (q1.trans (qm q2)).trans (quiet_clock _ d2 _)
        cases hr : readMetadata ft (metadataText ft build m (payloadIntegrity payload)) with
        | error e => exact .inr ⟨_, _, rfl, q3⟩
        | ok recorded =>
          dsimp only
          by_cases hi : recorded.payload = payloadIntegrity payload
          · simp only [hi, decide_true, require, if_true]
            cases hv : validateMetadata codec recorded t with
            | error e => exact .inr ⟨_, _, rfl, q3⟩
            | ok u =>
              dsimp only
              rcases rename_run (temporaryName (manifestName dest)) (manifestName dest) d3 with
                ⟨c, d4, h4, hc, hfs, hvis, hf⟩ | ⟨h4, h4f⟩
              · rw [h4]
                have : d3.fs (temporaryName (manifestName dest)) =
                  some (metadataText ft build m (payloadIntegrity payload)) := hw
                rw [this, Option.some.injEq] at hc
                subst hc
                refine .inl ⟨d3, d4, rfl, q3, ?_, hfs, hvis, hf, recorded, hr, hi, hv⟩
                show d2.fs _ = _
                rw [q2.fs _ (name_metatmp_ne_tmp dest).symm]
                exact hp
              · rw [h4]
                exact .inr ⟨_, _, rfl, q3.trans (quiet_clock _ d3 _)⟩
          · simp only [hi, decide_false, require]
            exact .inr ⟨_, _, rfl, q3⟩
      · rw [h3]
        exact .inr ⟨_, _, rfl, (q1.trans (qm q2)).trans (quiet_clock _ d2 _)⟩
    · rw [h2]
      exact .inr ⟨_, _, rfl, q1.trans (qm q2)⟩
  · rw [h]
    exact .inr ⟨_, _, rfl, quiet_clock _ d _⟩

theorem serializedAs_of_validate {payload : Bytes}
    (h : validateSerialized codec payload t = .ok .unit) : SerializedAs codec payload t := by
  unfold validateSerialized at h
  cases hp : parsePayload codec payload with
  | error e => simp [hp, bind, Except.bind] at h
  | ok parsed =>
    simp only [hp, bind, Except.bind, require] at h
    split at h
    · cases h
    · rename_i hif
      split at hif
      · rename_i hc
        simp only [decide_eq_true_eq] at hc
        cases ha : topologyFingerprint (codec.view parsed) with
        | error e => simp [ha] at h
        | ok a =>
          cases hb : topologyFingerprint (codec.view t) with
          | error e => simp [ha, hb] at h
          | ok b =>
            simp only [ha, hb] at h
            split at h
            · rename_i hab
              simp only [decide_eq_true_eq] at hab
              subst hab
              exact ⟨parsed, a, hp, hc.1, hc.2.1, hc.2.2.2.2, hc.2.2.1, hc.2.2.2.1, ha, hb⟩
            · cases h
      · cases hif

/-! ### States of the artifact -/

theorem holding_of_same {dest : Path} {fs₀ s s' : Files} {m p : Option Bytes}
    (h : Holding dest fs₀ m p s) (hs : ∀ q, ¬ IsTemp dest q → s' q = s q) :
    Holding dest fs₀ m p s' := by
  obtain ⟨h1, h2, h3⟩ := h
  refine ⟨(hs _ (not_temp_manifest dest)).trans h1, (hs _ (not_temp_dest dest)).trans h2,
    fun q a b c e => ?_⟩
  rw [hs q (by rintro (h | h); exacts [c h, e h])]
  exact h3 q a b c e

/-- `V` holds of every state so far and the current state holds the given artifact. -/
def AtStage (dest : Path) (fs₀ : Files) (V : Files → Prop) (m p : Option Bytes) (d : Disk) : Prop :=
  (∀ s ∈ d.visible, V s) ∧ Holding dest fs₀ m p d.fs

theorem AtStage.quiet {fs₀ : Files} {V : Files → Prop} {m p : Option Bytes} {d d' : Disk}
    (h : AtStage dest fs₀ V m p d) (hV : ∀ s, Holding dest fs₀ m p s → V s)
    (q : Quiet (IsTemp dest) d d') : AtStage dest fs₀ V m p d' := by
  refine ⟨fun s hs => ?_, holding_of_same h.2 q.fs⟩
  rcases q.visible s hs with hs | hs
  · exact h.1 s hs
  · exact hV s (holding_of_same h.2 hs)

/-- Publishing the payload. -/
theorem AtStage.publish {fs₀ : Files} {V : Files → Prop} {m p : Option Bytes} {d d' : Disk}
    {c : Bytes} (h : AtStage dest fs₀ V m p d)
    (hV : ∀ s, Holding dest fs₀ m (some c) s → V s)
    (hfs : d'.fs = (d.fs.put dest (some c)).put (temporaryName dest) none)
    (hvis : d'.visible = d'.fs :: d.visible) : AtStage dest fs₀ V m (some c) d' := by
  obtain ⟨h0, h1, h2, h3⟩ := h
  have hold : Holding dest fs₀ m (some c) d'.fs := by
    rw [hfs]
    refine ⟨?_, ?_, fun q a b e f => ?_⟩
    · show (Files.put _ _ _) (manifestName dest) = m
      rw [Files.put_other _ (name_meta_ne_tmp dest), Files.put_other _ (name_meta_ne dest)]
      exact h1
    · rw [Files.put_other _ (name_tmp_ne dest).symm, Files.put_same]
    · rw [Files.put_other _ (p := temporaryName dest) e, Files.put_other _ a]
      exact h3 q a b e f
  refine ⟨fun s hs => ?_, hold⟩
  rw [hvis, List.mem_cons] at hs
  rcases hs with rfl | hs
  · exact hV _ hold
  · exact h0 s hs

/-- Publishing the manifest. -/
theorem AtStage.publishManifest {fs₀ : Files} {V : Files → Prop} {m p : Option Bytes} {d d' : Disk}
    {c : Bytes} (h : AtStage dest fs₀ V m p d)
    (hV : ∀ s, Holding dest fs₀ (some c) p s → V s)
    (hfs : d'.fs = (d.fs.put (manifestName dest) (some c)).put
      (temporaryName (manifestName dest)) none)
    (hvis : d'.visible = d'.fs :: d.visible) : AtStage dest fs₀ V (some c) p d' := by
  obtain ⟨h0, h1, h2, h3⟩ := h
  have hold : Holding dest fs₀ (some c) p d'.fs := by
    rw [hfs]
    refine ⟨?_, ?_, fun q a b e f => ?_⟩
    · show (Files.put _ _ _) (manifestName dest) = some c
      rw [Files.put_other _ (name_tmp_ne (manifestName dest)).symm, Files.put_same]
    · rw [Files.put_other _ (name_metatmp_ne dest).symm, Files.put_other _ (name_meta_ne dest).symm]
      exact h2
    · rw [Files.put_other _ (p := temporaryName (manifestName dest)) f,
        Files.put_other _ (p := manifestName dest) b]
      exact h3 q a b e f
  refine ⟨fun s hs => ?_, hold⟩
  rw [hvis, List.mem_cons] at hs
  rcases hs with rfl | hs
  · exact hV _ hold
  · exact h0 s hs

/-- Removing the manifest. -/
theorem AtStage.unpublish {fs₀ : Files} {V : Files → Prop} {m p : Option Bytes} {d : Disk}
    (h : AtStage dest fs₀ V m p d) (hV : ∀ s, Holding dest fs₀ none p s → V s) :
    ∃ d', Io.remove (manifestName dest) d = (.ok (), d') ∧ d'.fates = d.fates ∧
      ((AtStage dest fs₀ V none p d') ∨
        (AtStage dest fs₀ V m p d' ∧ (d.fates d.clock).removed = false)) ∧
      ∀ q, q ≠ manifestName dest → d'.fs q = d.fs q := by
  obtain ⟨d', h1, q, hok, hfs, hvis⟩ := remove_run (manifestName dest) d
  refine ⟨d', h1, q.fates, ?_, fun p hp => q.fs p hp⟩
  obtain ⟨h0, ha, hb, hc⟩ := h
  have hold : Holding dest fs₀ none p (d.fs.put (manifestName dest) none) := by
    refine ⟨Files.put_same _ _ _, ?_, fun q a b e f => ?_⟩
    · rw [Files.put_other _ (name_meta_ne dest).symm]; exact hb
    · rw [Files.put_other _ (p := manifestName dest) b]; exact hc q a b e f
  cases hs : (d.fates d.clock).removed with
  | true =>
    refine .inl ⟨fun s hs' => ?_, (hok hs).2 ▸ hold⟩
    rcases hvis with hvis | hvis
    · exact h0 s (hvis ▸ hs')
    · rw [hvis, List.mem_cons] at hs'
      rcases hs' with rfl | hs'
      · exact hV _ hold
      · exact h0 s hs'
  | false =>
    have : Io.remove (manifestName dest) d = (.ok (), { d with clock := d.clock + 1 }) := by
      simp only [Io.remove, Io.bind_run, Io.nextFate, hs]
      rfl
    rw [this, Prod.mk.injEq] at h1
    obtain ⟨-, rfl⟩ := h1
    exact .inr ⟨⟨h0, ha, hb, hc⟩, rfl⟩

/-- States that may be seen during a write without a manifest. -/
def PlainStage (codec : Codec T) (dest : Path) (fs₀ : Files) (t : T) (s : Files) : Prop :=
  Holding dest fs₀ (fs₀ (manifestName dest)) (fs₀ dest) s ∨
    (SerializedAs codec (payloadText codec t) t ∧
      (Holding dest fs₀ (fs₀ (manifestName dest)) (some (payloadText codec t)) s ∨
        Holding dest fs₀ none (some (payloadText codec t)) s))

/-- States that may be seen during a write with the manifest `M`. -/
def ManifestStage (codec : Codec T) (ft : FloatText) (dest : Path) (fs₀ : Files) (t : T) (M : Bytes)
    (s : Files) : Prop :=
  Holding dest fs₀ (fs₀ (manifestName dest)) (fs₀ dest) s ∨
    (SerializedAs codec (payloadText codec t) t ∧ DescribesArtifact codec ft M (payloadText codec t) t ∧
      (Holding dest fs₀ (some M) (fs₀ dest) s ∨
        Holding dest fs₀ (some M) (some (payloadText codec t)) s))

theorem quiet_tmp {a b : Disk} (h : Quiet (· = temporaryName dest) a b) : Quiet (IsTemp dest) a b :=
  h.mono fun _ hp => .inl hp

/-- The beginning of the `try` block: write and check the temporary payload. -/
theorem writeStart_run (d : Disk) :
    (∃ d', (do Io.writeWhole (temporaryName dest) (payloadText codec t)
               Io.lift (validateSerialized codec (← Io.readWhole (temporaryName dest)) t) : Io PUnit) d =
        (.ok .unit, d') ∧ Quiet (· = temporaryName dest) d d' ∧
        d'.fs (temporaryName dest) = some (payloadText codec t) ∧
        SerializedAs codec (payloadText codec t) t) ∨
      ∃ e d', (do Io.writeWhole (temporaryName dest) (payloadText codec t)
                  Io.lift (validateSerialized codec (← Io.readWhole (temporaryName dest)) t)
                    : Io PUnit) d = (.error e, d') ∧ Quiet (· = temporaryName dest) d d' := by
  simp only [Io.bind_run]
  rcases writeWhole_run (temporaryName dest) (payloadText codec t) d with
    ⟨d1, h1, q1, hw⟩ | ⟨e, d1, h1, q1⟩
  · rw [h1]
    dsimp only
    rcases readWhole_run (temporaryName dest) d1 with ⟨c, h2, hc⟩ | h2
    · rw [hw, Option.some.injEq] at hc
      subst hc
      rw [h2]
      dsimp only [Io.lift_run]
      cases hv : validateSerialized codec (payloadText codec t) t with
      | error e => exact .inr ⟨_, _, rfl, q1.trans (quiet_clock _ d1 _)⟩
      | ok u => exact .inl ⟨_, rfl, q1.trans (quiet_clock _ d1 _), hw, serializedAs_of_validate hv⟩
    · rw [h2]
      exact .inr ⟨_, _, rfl, q1.trans (quiet_clock _ d1 _)⟩
  · rw [h1]
    exact .inr ⟨_, _, rfl, q1⟩

theorem writeBody_eq (resolved : Option Metadata) (d : Disk) :
    writeBody codec ft build dest t resolved d =
      match (do Io.writeWhole (temporaryName dest) (payloadText codec t)
                Io.lift (validateSerialized codec (← Io.readWhole (temporaryName dest)) t)
                  : Io PUnit) d with
      | (.error e, d') => (.error e, d')
      | (.ok _, d') =>
        (match resolved with
          | some m => (do publishManifest codec ft build dest t m
                          Io.rename (temporaryName dest) dest : Io Unit)
          | none => (do Io.rename (temporaryName dest) dest
                        Io.remove (manifestName dest) : Io Unit)) d' := by
  cases resolved with
  | none =>
    simp only [writeBody, Io.bind_run]
    cases Io.writeWhole (temporaryName dest) (payloadText codec t) d with
    | mk r d1 =>
      cases r with
      | error e => rfl
      | ok u =>
        dsimp only
        cases Io.readWhole (temporaryName dest) d1 with
        | mk r d2 =>
          cases r with
          | error e => rfl
          | ok c =>
            dsimp only [Io.lift_run]
            cases validateSerialized codec c t with
            | error e => rfl
            | ok u => rfl
  | some m =>
    simp only [writeBody, Io.bind_run]
    cases Io.writeWhole (temporaryName dest) (payloadText codec t) d with
    | mk r d1 =>
      cases r with
      | error e => rfl
      | ok u =>
        dsimp only
        cases Io.readWhole (temporaryName dest) d1 with
        | mk r d2 =>
          cases r with
          | error e => rfl
          | ok c =>
            dsimp only [Io.lift_run]
            cases validateSerialized codec c t with
            | error e => rfl
            | ok u =>
              dsimp only
              cases publishManifest codec ft build dest t m d2 with
              | mk r d3 =>
                cases r with
                | error e => rfl
                | ok u =>
                  dsimp only
                  cases Io.rename (temporaryName dest) dest d3 with
                  | mk r d4 => cases r <;> rfl

theorem writeBody_plain {fs₀ : Files} (d : Disk)
    (h : AtStage dest fs₀ (PlainStage codec dest fs₀ t) (fs₀ (manifestName dest)) (fs₀ dest) d) :
    (∃ d', writeBody codec ft build dest t none d = (.ok (), d') ∧ d'.fates = d.fates ∧
        SerializedAs codec (payloadText codec t) t ∧
        (AtStage dest fs₀ (PlainStage codec dest fs₀ t) none (some (payloadText codec t)) d' ∨
          (AtStage dest fs₀ (PlainStage codec dest fs₀ t) (fs₀ (manifestName dest))
            (some (payloadText codec t)) d' ∧ ∃ i, (d.fates i).removed = false)) ∧
        d'.fs (temporaryName dest) = none ∧
        d'.fs (temporaryName (manifestName dest)) = d.fs (temporaryName (manifestName dest))) ∨
      ∃ e d', writeBody codec ft build dest t none d = (.error e, d') ∧ d'.fates = d.fates ∧
        AtStage dest fs₀ (PlainStage codec dest fs₀ t) (fs₀ (manifestName dest)) (fs₀ dest) d' := by
  have hV : ∀ s, Holding dest fs₀ (fs₀ (manifestName dest)) (fs₀ dest) s →
      PlainStage codec dest fs₀ t s := fun s hs => .inl hs
  rw [writeBody_eq]
  rcases writeStart_run (codec := codec) (dest := dest) (t := t) d with
    ⟨d1, h1, q1, hw, hser⟩ | ⟨e, d1, h1, q1⟩
  · rw [h1]
    dsimp only [Io.bind_run]
    have s1 := h.quiet hV (quiet_tmp q1)
    rcases rename_run (temporaryName dest) dest d1 with ⟨c, d2, h2, hc, hfs, hvis, hf⟩ | ⟨h2, h2f⟩
    · rw [hw, Option.some.injEq] at hc
      subst hc
      have s2 := s1.publish (fun s hs => .inr ⟨hser, .inl hs⟩) hfs hvis
      obtain ⟨d3, h3, hf3, hst, hoth⟩ := s2.unpublish fun s hs => .inr ⟨hser, .inr hs⟩
      rw [h2]
      dsimp only
      rw [h3]
      have hfates : d3.fates = d.fates := hf3.trans (hf.trans q1.fates)
      refine .inl ⟨d3, rfl, hfates, hser, ?_, ?_, ?_⟩
      · rcases hst with hst | ⟨hst, hfail⟩
        · exact .inl hst
        · exact .inr ⟨hst, d2.clock, by rw [← q1.fates, ← hf]; exact hfail⟩
      · rw [hoth _ (name_meta_ne_tmp dest).symm, hfs, Files.put_same]
      · rw [hoth _ (name_tmp_ne (manifestName dest)), hfs,
          Files.put_other _ (name_metatmp_ne_tmp dest), Files.put_other _ (name_metatmp_ne dest),
          q1.fs _ (name_metatmp_ne_tmp dest)]
    · rw [h2]
      exact .inr ⟨_, _, rfl, q1.fates, s1.quiet hV (quiet_clock _ d1 _)⟩
  · rw [h1]
    exact .inr ⟨e, d1, rfl, q1.fates, h.quiet hV (quiet_tmp q1)⟩

theorem writeBody_manifest {fs₀ : Files} (m : Metadata) (d : Disk)
    (h : AtStage dest fs₀ (ManifestStage codec ft dest fs₀ t
      (metadataText ft build m (payloadIntegrity (payloadText codec t))))
      (fs₀ (manifestName dest)) (fs₀ dest) d) :
    (∃ d', writeBody codec ft build dest t (some m) d = (.ok (), d') ∧ d'.fates = d.fates ∧
        SerializedAs codec (payloadText codec t) t ∧
        DescribesArtifact codec ft (metadataText ft build m (payloadIntegrity (payloadText codec t)))
          (payloadText codec t) t ∧
        AtStage dest fs₀ (ManifestStage codec ft dest fs₀ t
          (metadataText ft build m (payloadIntegrity (payloadText codec t))))
          (some (metadataText ft build m (payloadIntegrity (payloadText codec t))))
          (some (payloadText codec t)) d' ∧
        d'.fs (temporaryName dest) = none ∧ d'.fs (temporaryName (manifestName dest)) = none) ∨
      ∃ e d', writeBody codec ft build dest t (some m) d = (.error e, d') ∧ d'.fates = d.fates ∧
        (AtStage dest fs₀ (ManifestStage codec ft dest fs₀ t
          (metadataText ft build m (payloadIntegrity (payloadText codec t))))
          (fs₀ (manifestName dest)) (fs₀ dest) d' ∨
        (SerializedAs codec (payloadText codec t) t ∧
         DescribesArtifact codec ft (metadataText ft build m (payloadIntegrity (payloadText codec t)))
          (payloadText codec t) t ∧
         AtStage dest fs₀ (ManifestStage codec ft dest fs₀ t
          (metadataText ft build m (payloadIntegrity (payloadText codec t))))
          (some (metadataText ft build m (payloadIntegrity (payloadText codec t))))
          (fs₀ dest) d' ∧ ∃ i, (d.fates i).renamed = false)) := by
  set M := metadataText ft build m (payloadIntegrity (payloadText codec t)) with hM
  have hV : ∀ s, Holding dest fs₀ (fs₀ (manifestName dest)) (fs₀ dest) s →
      ManifestStage codec ft dest fs₀ t M s := fun s hs => .inl hs
  rw [writeBody_eq]
  rcases writeStart_run (codec := codec) (dest := dest) (t := t) d with
    ⟨d1, h1, q1, hw, hser⟩ | ⟨e, d1, h1, q1⟩
  · rw [h1]
    dsimp only [Io.bind_run]
    have s1 := h.quiet hV (quiet_tmp q1)
    rcases publishManifest_run (codec := codec) (ft := ft) (build := build) (t := t) m _ d1 hw with
      ⟨d2, d3, h3, q2, hw2, hfs3, hvis3, hf3, hdesc⟩ | ⟨e, d2, h2, q2⟩
    · have s2 := s1.quiet hV q2
      have s3 := s2.publishManifest (fun s hs => .inr ⟨hser, hdesc, .inl hs⟩) hfs3 hvis3
      rw [h3]
      dsimp only
      have hw3 : d3.fs (temporaryName dest) = some (payloadText codec t) := by
        rw [hfs3, Files.put_other _ (name_metatmp_ne_tmp dest).symm,
          Files.put_other _ (name_meta_ne_tmp dest).symm, hw2]
      rcases rename_run (temporaryName dest) dest d3 with ⟨c, d4, h4, hc, hfs, hvis, hf⟩ | ⟨h4, h4f⟩
      · rw [hw3, Option.some.injEq] at hc
        subst hc
        rw [h4]
        have s4 := s3.publish (fun s hs => .inr ⟨hser, hdesc, .inr hs⟩) hfs hvis
        refine .inl ⟨d4, rfl, hf.trans (hf3.trans (q2.fates.trans q1.fates)), hser, hdesc, s4, ?_, ?_⟩
        · rw [hfs, Files.put_same]
        · rw [hfs, Files.put_other _ (name_metatmp_ne_tmp dest),
            Files.put_other _ (name_metatmp_ne dest), hfs3, Files.put_same]
      · rw [h4]
        have hfates := hf3.trans (q2.fates.trans q1.fates)
        refine .inr ⟨_, _, rfl, hfates, .inr ⟨hser, hdesc, ?_, d3.clock,
          by rw [← hfates]; exact h4f (by rw [hw3]; simp)⟩⟩
        exact s3.quiet (fun s hs => .inr ⟨hser, hdesc, .inl hs⟩) (quiet_clock _ d3 _)
    · rw [h2]
      exact .inr ⟨e, d2, rfl, q2.fates.trans q1.fates, .inl (s1.quiet hV q2)⟩
  · rw [h1]
    exact .inr ⟨e, d1, rfl, q1.fates, .inl (h.quiet hV (quiet_tmp q1))⟩

/-- Removing both temporary files. -/
theorem removeTemps_run (dest : Path) (d : Disk) :
    ∃ d', (do Io.remove (temporaryName dest); Io.remove (temporaryName (manifestName dest)) : Io Unit) d =
        (.ok (), d') ∧ Quiet (IsTemp dest) d d' ∧
      ((∀ i, (d.fates i).removed = true) → d'.fs (temporaryName dest) = none ∧
        d'.fs (temporaryName (manifestName dest)) = none) := by
  obtain ⟨d1, h1, q1, ok1, -, -⟩ := remove_run (temporaryName dest) d
  obtain ⟨d2, h2, q2, ok2, -, -⟩ := remove_run (temporaryName (manifestName dest)) d1
  refine ⟨d2, ?_, (q1.mono fun _ h => .inl h).trans (q2.mono fun _ h => .inr h), fun hall => ?_⟩
  · simp only [Io.bind_run, h1, h2]
  · refine ⟨?_, (ok2 (by rw [q1.fates]; exact hall _)).1⟩
    rw [q2.fs _ (name_metatmp_ne_tmp dest).symm]
    exact (ok1 (hall _)).1

/-- `write_payload` without a manifest. -/
theorem writePayload_plain (fs₀ : Files) (fates : ℕ → Fate) :
    ∃ r d', writePayload codec ft build dest t none (startingWith fs₀ fates) = (r, d') ∧
      (∀ s ∈ d'.visible, PlainStage codec dest fs₀ t s) ∧
      (r = .ok () → SerializedAs codec (payloadText codec t) t ∧
        (Holding dest fs₀ none (some (payloadText codec t)) d'.fs ∨
          (Holding dest fs₀ (fs₀ (manifestName dest)) (some (payloadText codec t)) d'.fs ∧
            ∃ i, (fates i).removed = false))) ∧
      (∀ e, r = .error e → Holding dest fs₀ (fs₀ (manifestName dest)) (fs₀ dest) d'.fs) ∧
      ((∀ i, (fates i).removed = true) → d'.fs (temporaryName dest) = none ∧
        d'.fs (temporaryName (manifestName dest)) = none) := by
  have hV : ∀ s, Holding dest fs₀ (fs₀ (manifestName dest)) (fs₀ dest) s →
      PlainStage codec dest fs₀ t s := fun s hs => .inl hs
  have h0 : AtStage dest fs₀ (PlainStage codec dest fs₀ t) (fs₀ (manifestName dest)) (fs₀ dest)
      (startingWith fs₀ fates) := by
    have : Holding dest fs₀ (fs₀ (manifestName dest)) (fs₀ dest) fs₀ := ⟨rfl, rfl, fun _ _ _ _ _ => rfl⟩
    exact ⟨fun s hs => by simp only [startingWith, List.mem_singleton] at hs; exact hV _ (hs ▸ this),
      this⟩
  obtain ⟨d1, h1, q1, ok1⟩ := removeTemps_run dest (startingWith fs₀ fates)
  have s1 := h0.quiet hV q1
  have hf1 : d1.fates = fates := q1.fates
  have hrun : writePayload codec ft build dest t none (startingWith fs₀ fates) =
      Io.tryRethrow (writeBody codec ft build dest t none)
        (do Io.remove (temporaryName dest); Io.remove (temporaryName (manifestName dest))) d1 := by
    simp only [writePayload, Io.bind_run, Io.lift_run] at h1 ⊢
    revert h1
    cases Io.remove (temporaryName dest) (startingWith fs₀ fates) with
    | mk r d2 =>
      cases r with
      | error e => simp
      | ok u =>
        dsimp only
        intro h1
        rw [h1]
  rw [hrun]
  unfold Io.tryRethrow
  rcases writeBody_plain (codec := codec) (ft := ft) (build := build) (t := t) d1 s1 with
    ⟨d2, h2, hf2, hser, hst, ht1, ht2⟩ | ⟨e, d2, h2, hf2, hst⟩
  · rw [h2]
    refine ⟨_, _, rfl, ?_, fun _ => ⟨hser, ?_⟩, by simp, fun hall => ⟨ht1, ?_⟩⟩
    · rcases hst with hst | ⟨hst, -⟩ <;> exact hst.1
    · rcases hst with hst | ⟨hst, i, hi⟩
      · exact .inl hst.2
      · exact .inr ⟨hst.2, i, by rw [← hf1]; exact hi⟩
    · rw [ht2]; exact (ok1 hall).2
  · rw [h2]
    obtain ⟨d3, h3, q3, ok3⟩ := removeTemps_run dest d2
    have s3 := hst.quiet hV q3
    dsimp only
    rw [h3]
    refine ⟨_, _, rfl, s3.1, by simp, fun _ _ => s3.2, fun hall => ok3 ?_⟩
    rw [hf2, hf1]; exact hall

/-- `write_payload` with a manifest whose derived fields could be computed. -/
theorem writePayload_manifest (fs₀ : Files) (fates : ℕ → Fate) {m m' : Metadata}
    (hm : reconcile codec m t = .ok m') :
    ∃ r d', writePayload codec ft build dest t (some m) (startingWith fs₀ fates) = (r, d') ∧
      (∀ s ∈ d'.visible, ManifestStage codec ft dest fs₀ t
        (metadataText ft build m' (payloadIntegrity (payloadText codec t))) s) ∧
      (r = .ok () → SerializedAs codec (payloadText codec t) t ∧
        DescribesArtifact codec ft (metadataText ft build m' (payloadIntegrity (payloadText codec t)))
          (payloadText codec t) t ∧
        Holding dest fs₀ (some (metadataText ft build m' (payloadIntegrity (payloadText codec t))))
          (some (payloadText codec t)) d'.fs) ∧
      (∀ e, r = .error e → Holding dest fs₀ (fs₀ (manifestName dest)) (fs₀ dest) d'.fs ∨
        (Holding dest fs₀ (some (metadataText ft build m' (payloadIntegrity (payloadText codec t))))
          (fs₀ dest) d'.fs ∧ ∃ i, (fates i).renamed = false)) ∧
      ((∀ i, (fates i).removed = true) → d'.fs (temporaryName dest) = none ∧
        d'.fs (temporaryName (manifestName dest)) = none) := by
  set M := metadataText ft build m' (payloadIntegrity (payloadText codec t)) with hM
  have hV : ∀ s, Holding dest fs₀ (fs₀ (manifestName dest)) (fs₀ dest) s →
      ManifestStage codec ft dest fs₀ t M s := fun s hs => .inl hs
  have h0 : AtStage dest fs₀ (ManifestStage codec ft dest fs₀ t M) (fs₀ (manifestName dest))
      (fs₀ dest) (startingWith fs₀ fates) := by
    have : Holding dest fs₀ (fs₀ (manifestName dest)) (fs₀ dest) fs₀ := ⟨rfl, rfl, fun _ _ _ _ _ => rfl⟩
    exact ⟨fun s hs => by simp only [startingWith, List.mem_singleton] at hs; exact hV _ (hs ▸ this),
      this⟩
  obtain ⟨d1, h1, q1, ok1⟩ := removeTemps_run dest (startingWith fs₀ fates)
  have s1 := h0.quiet hV q1
  have hf1 : d1.fates = fates := q1.fates
  have hrun : writePayload codec ft build dest t (some m) (startingWith fs₀ fates) =
      Io.tryRethrow (writeBody codec ft build dest t (some m'))
        (do Io.remove (temporaryName dest); Io.remove (temporaryName (manifestName dest))) d1 := by
    simp only [writePayload, Io.bind_run, Io.lift_run, hm, Except.map] at h1 ⊢
    revert h1
    cases Io.remove (temporaryName dest) (startingWith fs₀ fates) with
    | mk r d2 =>
      cases r with
      | error e => simp
      | ok u =>
        dsimp only
        intro h1
        rw [h1]
  rw [hrun]
  unfold Io.tryRethrow
  rcases writeBody_manifest (codec := codec) (ft := ft) (build := build) (t := t) m' d1 s1 with
    ⟨d2, h2, hf2, hser, hdesc, hst, ht1, ht2⟩ | ⟨e, d2, h2, hf2, hst⟩
  · rw [h2]
    exact ⟨_, _, rfl, hst.1, fun _ => ⟨hser, hdesc, hst.2⟩, by simp, fun _ => ⟨ht1, ht2⟩⟩
  · rw [h2]
    obtain ⟨d3, h3, q3, ok3⟩ := removeTemps_run dest d2
    dsimp only
    rw [h3]
    rcases hst with hst | ⟨hser, hdesc, hst, i, hi⟩
    · have s3 := hst.quiet hV q3
      refine ⟨_, _, rfl, s3.1, by simp, fun _ _ => .inl s3.2, fun hall => ok3 ?_⟩
      rw [hf2, hf1]; exact hall
    · have s3 := hst.quiet (fun s hs => .inr ⟨hser, hdesc, .inl hs⟩) q3
      refine ⟨_, _, rfl, s3.1, by simp, fun _ _ => .inr ⟨s3.2, i, ?_⟩, fun hall => ok3 ?_⟩
      · rw [← hf1]; exact hi
      · rw [hf2, hf1]; exact hall

/-- A failure to compute the derived fields happens before any file is touched. -/
theorem writePayload_reconcile_error (fs₀ : Files) (fates : ℕ → Fate) {m : Metadata} {e : Exc}
    (hm : reconcile codec m t = .error e) :
    writePayload codec ft build dest t (some m) (startingWith fs₀ fates) =
      (.error e, startingWith fs₀ fates) := by
  simp only [writePayload, Io.bind_run, Io.lift_run, hm, Except.map]

end CDT

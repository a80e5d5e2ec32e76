import Verif.Lemmas.Processes
import Verif.Lemmas.Program
import Verif.Props.Filename
import Verif.Props.Program
import Verif.Props.Repeat
import Verif.Spec.Directory
/-
C107: programs with different seeds can share a directory.
-/
namespace CDT.Props
open CDT Spec

section
variable {α β : Type} {I : Type}

/-- All accesses concern these names. -/
def Within (A : Path → Prop) : Proc α → Prop
  | .done _ => True
  | .fate k => ∀ f, Within A (k f)
  | .clock k => ∀ n, Within A (k n)
  | .look p k => A p ∧ ∀ c, Within A (k c)
  | .put p _ k => A p ∧ Within A k
  | .rename s t _ k => A s ∧ A t ∧ ∀ b, Within A (k b)
  | .note p k => A p ∧ A (manifestName p) ∧ Within A k

theorem within_follow {A : Path → Prop} {p : Proc α} {f : Except Exc α → Proc β} (h : Within A p)
    (hf : ∀ r, Within A (f r)) : Within A (p.follow f) := by
  induction p with
  | done r => exact hf r
  | fate k ih => exact fun x => ih x (h x)
  | clock k ih => exact fun x => ih x (h x)
  | look p k ih => exact ⟨h.1, fun x => ih x (h.2 x)⟩
  | put p c k ih => exact ⟨h.1, ih h.2⟩
  | rename s t b k ih => exact ⟨h.1, h.2.1, fun x => ih x (h.2.2 x)⟩
  | note p k ih => exact ⟨h.1, h.2.1, ih h.2.2⟩

theorem within_bind {A : Path → Prop} {p : Proc α} {f : α → Proc β} (h : Within A p) (hf : ∀ a, Within A (f a)) :
    Within A (p >>= f) :=
  within_follow h fun r => by cases r with
    | ok a => exact hf a
    | error e => trivial

/-- Two machines that a process with these names cannot tell apart. -/
def Alike (A : Path → Prop) (w w' : Machine) : Prop :=
  (∀ p, A p → w.disk.fs p = w'.disk.fs p) ∧ w.disk.fates = w'.disk.fates ∧ w.disk.clock = w'.disk.clock ∧ w.log = w'.log

theorem alike_put {A : Path → Prop} {w w' : Machine} (h : Alike A w w') (p : Path) (c : Option Bytes) {v v' : List Files} :
    Alike A ⟨⟨w.disk.fs.put p c, v, w.disk.fates, w.disk.clock⟩, w.log⟩
      ⟨⟨w'.disk.fs.put p c, v', w'.disk.fates, w'.disk.clock⟩, w'.log⟩ := by
  refine ⟨fun q hq => ?_, h.2⟩
  show (if q = p then c else _) = (if q = p then c else _)
  rw [h.1 q hq]

theorem step_alike {A : Path → Prop} {p : Proc α} {w w' : Machine} (hp : Within A p) (h : Alike A w w') :
    (p.step w).1 = (p.step w').1 ∧ Alike A (p.step w).2 (p.step w').2 ∧ Within A (p.step w).1 := by
  obtain ⟨h1, h2, h3, h4⟩ := h
  cases p with
  | done r => exact ⟨rfl, ⟨h1, h2, h3, h4⟩, trivial⟩
  | fate k =>
    refine ⟨?_, ⟨h1, h2, ?_, h4⟩, hp _⟩
    · show k _ = k _; rw [h2, h3]
    · show w.disk.clock + 1 = w'.disk.clock + 1; rw [h3]
  | clock k => exact ⟨by show k _ = k _; rw [h3], ⟨h1, h2, h3, h4⟩, hp _⟩
  | look q k => exact ⟨by show k _ = k _; rw [h1 q hp.1], ⟨h1, h2, h3, h4⟩, hp.2 _⟩
  | put q c k => exact ⟨rfl, alike_put ⟨h1, h2, h3, h4⟩ q c, hp.2⟩
  | rename s t b k =>
    have e := h1 s hp.1
    simp only [Proc.step]
    rw [← e]
    cases w.disk.fs s with
    | none => exact ⟨rfl, ⟨h1, h2, h3, h4⟩, hp.2.2 _⟩
    | some c =>
      cases b with
      | false => exact ⟨rfl, ⟨h1, h2, h3, h4⟩, hp.2.2 _⟩
      | true =>
        refine ⟨rfl, ?_, hp.2.2 _⟩
        exact alike_put (alike_put (v := []) (v' := []) ⟨h1, h2, h3, h4⟩ t (some c)) s none
  | note q k =>
    refine ⟨rfl, ⟨h1, h2, h3, ?_⟩, hp.2.2⟩
    show w.log ++ _ = w'.log ++ _
    rw [h4, h1 q hp.1, h1 _ hp.2.1]

theorem step_outside {A : Path → Prop} {p : Proc α} {w : Machine} (hp : Within A p) {q : Path} (hq : ¬A q) :
    (p.step w).2.disk.fs q = w.disk.fs q := by
  have hput : ∀ (fs : Files) {r : Path} (c : Option Bytes), A r → (fs.put r c) q = fs q := by
    intro fs r c hr
    show (if q = r then c else fs q) = fs q
    rw [if_neg (by rintro rfl; exact hq hr)]
  cases p with
  | put r c k => exact hput _ _ hp.1
  | rename s t b k =>
    simp only [Proc.step]
    cases w.disk.fs s with
    | none => rfl
    | some c =>
      cases b with
      | false => rfl
      | true =>
        show ((w.disk.fs.put t (some c)).put s none) q = _
        rw [hput _ _ hp.1, hput _ _ hp.2.1]
  | _ => rfl

/-- So many accesses, with nobody else about. -/
def stepN : ℕ → Proc α → Machine → Proc α × Machine
  | 0, p, w => (p, w)
  | n + 1, p, w => (stepN n p w).1.step (stepN n p w).2

theorem stepN_within {A : Path → Prop} {p : Proc α} {w : Machine} (hp : Within A p) : ∀ n, Within A (stepN n p w).1
  | 0 => hp
  | n + 1 => (step_alike (w' := (stepN n p w).2) (stepN_within hp n) ⟨fun _ _ => rfl, rfl, rfl, rfl⟩).2.2

theorem stepN_run (p : Proc α) (w : Machine) : ∀ n, (stepN n p w).1.run (stepN n p w).2 = p.run w
  | 0 => rfl
  | n + 1 => by
    rw [← stepN_run p w n, Proc.run_step (stepN n p w).1]
    rfl

theorem step_history (p : Proc α) (w : Machine) :
    w.log <+: (p.step w).2.log ∧ w.disk.visible <:+ (p.step w).2.disk.visible ∧ (p.step w).2.disk.fates = w.disk.fates ∧
      (w.disk.fs ∈ w.disk.visible → (p.step w).2.disk.fs ∈ (p.step w).2.disk.visible) := by
  cases p with
  | put r c k => exact ⟨List.prefix_refl _, List.suffix_cons _ _, rfl, fun _ => by simp [Proc.step]⟩
  | rename s t b k =>
    simp only [Proc.step]
    cases w.disk.fs s with
    | none => exact ⟨List.prefix_refl _, List.suffix_refl _, rfl, id⟩
    | some c =>
      cases b with
      | false => exact ⟨List.prefix_refl _, List.suffix_refl _, rfl, id⟩
      | true => exact ⟨List.prefix_refl _, List.suffix_cons _ _, rfl, fun _ => by simp⟩
  | note q k => exact ⟨List.prefix_append _ _, List.suffix_refl _, rfl, id⟩
  | _ => exact ⟨List.prefix_refl _, List.suffix_refl _, rfl, id⟩

theorem run_history (p : Proc α) : ∀ w : Machine, w.log <+: (p.run w).2.log ∧ w.disk.visible <:+ (p.run w).2.disk.visible := by
  have key : ∀ (p q : Proc α) (w : Machine), q = (p.step w).1 →
      ((p.step w).2.log <+: (q.run (p.step w).2).2.log ∧ (p.step w).2.disk.visible <:+ (q.run (p.step w).2).2.disk.visible) →
      w.log <+: (p.run w).2.log ∧ w.disk.visible <:+ (p.run w).2.disk.visible := by
    rintro p _ w rfl h
    rw [Proc.run_step p w]
    exact ⟨(step_history p w).1.trans h.1, (step_history p w).2.1.trans h.2⟩
  induction p with
  | done r => exact fun w => ⟨List.prefix_refl _, List.suffix_refl _⟩
  | fate k ih => exact fun w => key _ _ w rfl (ih _ _)
  | clock k ih => exact fun w => key _ _ w rfl (ih _ _)
  | look p k ih => exact fun w => key _ _ w rfl (ih _ _)
  | put p c k ih => exact fun w => key _ _ w rfl (ih _)
  | rename s t b k ih =>
    intro w
    have : ∃ x, k x = ((Proc.rename s t b k).step w).1 := by
      simp only [Proc.step]
      cases w.disk.fs s with
      | none => exact ⟨_, rfl⟩
      | some c => cases b <;> exact ⟨_, rfl⟩
    obtain ⟨x, hx⟩ := this
    exact key _ _ w hx (ih _ _)
  | note p k ih => exact fun w => key _ _ w rfl (ih _)

theorem stepN_history (p : Proc α) (w : Machine) (hw : w.disk.fs ∈ w.disk.visible) (n : ℕ) :
    (stepN n p w).2.disk.fs ∈ (stepN n p w).2.disk.visible ∧ (stepN n p w).2.disk.fates = w.disk.fates := by
  induction n with
  | zero => exact ⟨hw, rfl⟩
  | succ n ih =>
    obtain ⟨-, -, h3, h4⟩ := step_history (stepN n p w).1 (stepN n p w).2
    exact ⟨h4 ih.1, h3.trans ih.2⟩

theorem stepN_succ (n : ℕ) (p : Proc α) (w : Machine) : stepN (n + 1) p w = stepN n (p.step w).1 (p.step w).2 := by
  induction n with
  | zero => rfl
  | succ n ih => rw [stepN, ih]; rfl

theorem stepN_done (r : Except Exc α) (w : Machine) (n : ℕ) : stepN n (.done r) w = (.done r, w) := by
  induction n with
  | zero => rfl
  | succ n ih => rw [stepN, ih]; rfl

/-- Every program ends. -/
theorem stepN_ends (p : Proc α) : ∀ w, ∃ n, ∀ m, n ≤ m → ∃ r, (stepN m p w).1 = .done r := by
  have key : ∀ (p q : Proc α) (w : Machine), q = (p.step w).1 →
      (∃ n, ∀ m, n ≤ m → ∃ r, (stepN m q (p.step w).2).1 = .done r) → ∃ n, ∀ m, n ≤ m → ∃ r, (stepN m p w).1 = .done r := by
    rintro p _ w rfl ⟨n, hn⟩
    refine ⟨n + 1, fun m hm => ?_⟩
    obtain ⟨m, rfl⟩ : ∃ k, m = k + 1 := ⟨m - 1, by omega⟩
    rw [stepN_succ]
    exact hn m (by omega)
  induction p with
  | done r => exact fun w => ⟨0, fun m _ => ⟨r, by rw [stepN_done]⟩⟩
  | fate k ih => exact fun w => key _ _ w rfl (ih _ _)
  | clock k ih => exact fun w => key _ _ w rfl (ih _ _)
  | look p k ih => exact fun w => key _ _ w rfl (ih _ _)
  | put p c k ih => exact fun w => key _ _ w rfl (ih _)
  | rename s t b k ih =>
    intro w
    have : ∃ x, k x = ((Proc.rename s t b k).step w).1 := by
      simp only [Proc.step]
      cases w.disk.fs s with
      | none => exact ⟨_, rfl⟩
      | some c => cases b <;> exact ⟨_, rfl⟩
    obtain ⟨x, hx⟩ := this
    exact key _ _ w hx (ih _ _)
  | note p k ih => exact fun w => key _ _ w rfl (ih _)

/-- Processes with separate names do not notice one another. -/
theorem separate [DecidableEq I] {A : I → Path → Prop} (hA : ∀ i j p, A i p → A j p → i = j) {d : Directory I}
    (hw : ∀ i, Within (A i) (d.processes i).code) (schedule : List I) :
    (∀ i, let x := stepN (schedule.count i) (d.processes i).code ⟨⟨d.fs, [d.fs], (d.processes i).fates, (d.processes i).clock⟩, (d.processes i).log⟩
      ((d.after schedule).processes i).code = x.1 ∧
        Alike (A i) (((d.after schedule).processes i).machine (d.after schedule).fs) x.2) ∧
    ∀ p, (∀ i, ¬A i p) → (d.after schedule).fs p = d.fs p := by
  induction schedule using List.reverseRecOn with
  | nil => exact ⟨fun i => ⟨rfl, fun _ _ => rfl, rfl, rfl, rfl⟩, fun _ _ => rfl⟩
  | append_singleton s j ih =>
    have e : d.after (s ++ [j]) = (d.after s).step j := by simp [Directory.after]
    rw [e]
    generalize d.after s = D at ih
    obtain ⟨ih1, ih2⟩ := ih
    have hj := ih1 j
    dsimp only at hj
    have hwj : Within (A j) (D.processes j).code := by rw [hj.1]; exact stepN_within (hw j) _
    refine ⟨fun i => ?_, fun p hp => ?_⟩
    · have hi := ih1 i
      dsimp only at hi ⊢
      by_cases hij : i = j
      · subst hij
        have hc : (s ++ [i]).count i = s.count i + 1 := by simp
        rw [hc]
        obtain ⟨h1, h2, -⟩ := step_alike hwj hj.2
        have hN : stepN (s.count i + 1) (d.processes i).code
            ⟨⟨d.fs, [d.fs], (d.processes i).fates, (d.processes i).clock⟩, (d.processes i).log⟩ =
            (D.processes i).code.step (stepN (s.count i) (d.processes i).code
              ⟨⟨d.fs, [d.fs], (d.processes i).fates, (d.processes i).clock⟩, (d.processes i).log⟩).2 := by
          rw [hj.1]; rfl
        rw [hN]
        have hs : (D.step i).processes i = ⟨((D.processes i).code.step ((D.processes i).machine D.fs)).1,
            ((D.processes i).code.step ((D.processes i).machine D.fs)).2.disk.fates,
            ((D.processes i).code.step ((D.processes i).machine D.fs)).2.disk.clock,
            ((D.processes i).code.step ((D.processes i).machine D.fs)).2.log⟩ := by
          simp [Directory.step]
        refine ⟨?_, ?_⟩
        · rw [hs]; exact h1
        · refine ⟨h2.1, ?_, ?_, ?_⟩
          · rw [hs]; exact h2.2.1
          · rw [hs]; exact h2.2.2.1
          · rw [hs]; exact h2.2.2.2
      · have hc : (s ++ [j]).count i = s.count i := by
          rw [List.count_append, List.count_cons_of_ne (fun h => hij h.symm)]; simp
        have hs : (D.step j).processes i = D.processes i := by simp [Directory.step, hij]
        rw [hc, hs]
        refine ⟨hi.1, fun p hp => ?_, hi.2.2⟩
        rw [← hi.2.1 p hp]
        exact step_outside hwj fun h => hij (hA _ _ _ hp h)
    · rw [← ih2 p hp]
      exact step_outside hwj (hp j)

end

section
variable {T : Type} (codec : Codec T) (ft : FloatText) (build : BuildInfo) {A : Path → Prop} (name : Path) (t : T)

theorem within_remove {p : Path} (h : A p) : Within A (Proc.remove p) := by
  intro f
  dsimp only
  split
  · exact ⟨h, trivial⟩
  · trivial

theorem within_replace {p q : Path} (h : A p) (h' : A q) : Within A (Proc.replace p q) := by
  intro f
  refine ⟨h, h', fun b => ?_⟩
  dsimp only
  split <;> trivial

theorem within_putAll {p : Path} (h : A p) : ∀ cs, Within A (Proc.putAll p cs)
  | [] => trivial
  | _ :: cs => ⟨h, within_putAll h cs⟩

theorem within_writeWhole {p : Path} (h : A p) (c : Bytes) : Within A (Proc.writeWhole p c) := by
  intro f
  dsimp only
  split
  · refine ⟨h, within_bind (within_putAll h _) fun _ => ?_⟩
    split <;> exact ⟨h, trivial⟩
  · trivial

theorem within_readWhole {p : Path} (h : A p) : Within A (Proc.readWhole p) := by
  intro f
  refine ⟨h, fun c => ?_⟩
  cases c with
  | none => trivial
  | some c => dsimp only; split <;> trivial

theorem within_writePayload (h : ∀ p, FilesOf name p → A p) (metadata : Option Metadata) :
    Within A (writePayloadSteps codec ft build name t metadata) := by
  have h1 : A name := h _ (.inl rfl)
  have h2 : A (manifestName name) := h _ (by unfold FilesOf; tauto)
  have h3 : A (temporaryName name) := h _ (by unfold FilesOf; tauto)
  have h4 : A (temporaryName (manifestName name)) := h _ (by unfold FilesOf; tauto)
  have hp : ∀ m, Within A (publishManifestSteps codec ft build name t m) := fun m =>
    within_bind (within_readWhole h3) fun _ => within_bind (within_writeWhole h4 _) fun _ =>
      within_bind (within_readWhole h4) fun _ => within_bind (p := Proc.lift _) trivial fun _ =>
      within_bind (p := Proc.lift _) trivial fun _ => within_bind (p := Proc.lift _) trivial fun _ =>
      within_replace h4 h2
  have hb : ∀ r, Within A (writeBodySteps codec ft build name t r) := by
    intro r
    refine within_bind (within_writeWhole h3 _) fun _ => within_bind (within_readWhole h3) fun _ =>
      within_bind (p := Proc.lift _) trivial fun _ => ?_
    cases r with
    | none => exact within_bind (p := pure ()) trivial fun _ => within_bind (within_replace h3 h1) fun _ => within_remove h2
    | some m => exact within_bind (hp m) fun _ => within_bind (within_replace h3 h1) fun _ => trivial
  refine within_bind (p := Proc.lift _) trivial fun _ => within_bind (within_remove h3) fun _ =>
    within_bind (within_remove h4) fun _ => within_follow (hb _) fun r => ?_
  cases r with
  | ok a => trivial
  | error e => exact within_follow (within_bind (within_remove h3) fun _ => within_remove h4) fun _ => trivial

end

section
variable {M S P T : Type} (host : Host M S P T) (out : Outside M S) {seed : BitVec 64}

theorem within_writeArtifact (m : M) {md : Metadata} (h : md.seed = seed.toNat) :
    Within (OwnFile seed) (writeArtifactSteps host out m md) := by
  intro n
  dsimp only
  split
  · trivial
  · rename_i path hp
    have hown : ∀ p, FilesOf path p → OwnFile seed p := by
      unfold artifactPath at hp
      rw [h] at hp
      split at hp
      · split at hp
        · exact absurd hp (by simp)
        · rw [← Except.ok.inj hp]; exact fun p => ownFile_pass
      · rw [← Except.ok.inj hp]; exact fun p => ownFile_seed
    refine within_follow (within_writePayload _ _ _ _ _ hown _) fun r => ?_
    cases r with
    | error e => trivial
    | ok u => exact ⟨hown _ (.inl rfl), hown _ (by unfold FilesOf; tauto), trivial⟩

theorem metadata_seed {base md : Metadata} {m : M} {k : ArtifactKind} {n : ℤ} {st : RunStats}
    (h : Sampler.metadata host base m k n st = .ok md) : md.seed = base.seed := by
  unfold Sampler.metadata updateState at h
  simp only [bind_ok] at h
  obtain ⟨md1, ⟨f, -, h1⟩, h2⟩ := h
  cases h1
  cases h2
  rfl

theorem within_passes (eng : MetroEngine M (Random S) P) {base : Metadata} (hb : base.seed = seed.toNat) (cad : Cadence)
    (writes : Bool) : ∀ n i v g, Within (OwnFile seed) (passesSteps host out eng base cad writes n i v g)
  | 0, _, _, _ => trivial
  | n + 1, i, v, g => by
    have ih := within_passes eng hb cad writes n
    unfold passesSteps
    split
    · trivial
    · dsimp only
      split
      · split
        · split
          · trivial
          · rename_i md hmd
            refine within_follow (within_writeArtifact host out _ ((metadata_seed host hmd).trans hb)) fun r => ?_
            cases r with
            | error e => trivial
            | ok u => exact ih _ _ _
        · exact ih _ _ _
      · exact ih _ _ _

theorem sampler_seed {root : Random S} {cfg : SimConfig} {start : M} {s : Sampler S}
    (h : cdtSampler host root cfg start = .ok s) : s.reproducibility.seed = root.seed.toNat := by
  unfold cdtSampler Sampler.make at h
  simp only [bind_ok] at h
  obtain ⟨md, -, p, -, c, -, h⟩ := h
  cases h
  rfl

theorem within_cdt (parsed : Option Options) (hs : ∀ o ∈ parsed, o.seed.getD out.entropy = seed) :
    Within (OwnFile seed) (cdtSteps host out parsed) := by
  unfold cdtSteps
  split
  · trivial
  · rename_i o
    have hseed := hs o rfl
    split
    · trivial
    · split
      · trivial
      · split
        · trivial
        · refine within_follow ?_ fun r => by cases r <;> trivial
          unfold cdtRunSteps
          dsimp only
          split
          · trivial
          · split
            · trivial
            · rename_i s h
              have hrep : s.reproducibility.seed = seed.toNat := by
                rw [sampler_seed host h]
                show (o.seed.getD out.entropy).toNat = _
                rw [hseed]
              refine within_follow (within_passes host out _ hrep _ _ _ _ _ _) fun r => ?_
              cases r with
              | error e => trivial
              | ok x =>
                dsimp only
                split
                · trivial
                · split
                  · split
                    · trivial
                    · rename_i md hmd
                      exact within_writeArtifact host out _ ((metadata_seed host hmd).trans hrep)
                  · trivial

theorem within_initialize (parsed : Option Options) (hs : ∀ o ∈ parsed, o.seed.getD out.entropy = seed) :
    Within (OwnFile seed) (initializeSteps host out parsed) := by
  unfold initializeSteps
  split
  · trivial
  · rename_i o
    have hseed := hs o rfl
    split
    · trivial
    · split
      · trivial
      · split
        · trivial
        · rename_i cfg hcfg
          refine within_follow ?_ fun r => by cases r <;> trivial
          unfold initializeRunSteps
          split
          · trivial
          · split
            · split
              · trivial
              · rename_i md hmd
                refine within_writeArtifact host out _ ?_
                have h1 : md.seed = cfg.seed.toNat := by
                  unfold makeMetadata at hmd
                  simp only [bind_ok] at hmd
                  obtain ⟨f, -, h⟩ := hmd
                  cases h
                  rfl
                have h2 : cfg.seed = o.seed.getD out.entropy := by
                  unfold initializeConfig at hcfg
                  simp only [bind_ok] at hcfg
                  obtain ⟨N, -, T', -, h⟩ := hcfg
                  rw [(makeTriangulation_ok h).1]; rfl
                show md.seed = _
                rw [h1, h2, hseed]
            · trivial

theorem files_apart {a b p : Path} (ha : OffName a) (hb : OffName b) (h : FilesOf a p) (h' : FilesOf b p) : a = b := by
  obtain ⟨x, rfl⟩ := ha
  obtain ⟨y, rfl⟩ := hb
  have last : ∀ {u v : Path}, u = v → u.getLast? = v.getLast? := fun e => congrArg _ e
  have clash : ∀ {q : Path}, manifestName q ≠ y ++ ascii ".off" ∧ manifestName q ≠ x ++ ascii ".off" := by
    intro q
    constructor <;> intro e <;> have := last e <;> rw [last_meta, last_off] at this <;> simp at this
  have strip : ∀ {u v : Path}, temporaryName u = temporaryName v → u = v := fun e => List.append_cancel_right e
  have strip' : ∀ {u v : Path}, manifestName u = manifestName v → u = v := fun e => List.append_cancel_right e
  rcases h with h | h | h | h <;> rcases h' with h' | h' | h' | h' <;> rw [h] at h'
  · exact h'
  · exact absurd h'.symm clash.2
  · have := last h'; rw [last_off, last_tmp] at this; simp at this
  · have := last h'; rw [last_off, last_tmp] at this; simp at this
  · exact absurd h' clash.1
  · exact strip' h'
  · have := last h'; rw [last_meta, last_tmp] at this; simp at this
  · have := last h'; rw [last_meta, last_tmp] at this; simp at this
  · have := last h'; rw [last_off, last_tmp] at this; simp at this
  · have := last h'; rw [last_meta, last_tmp] at this; simp at this
  · exact strip h'
  · exact absurd (strip h').symm clash.2
  · have := last h'; rw [last_off, last_tmp] at this; simp at this
  · have := last h'; rw [last_meta, last_tmp] at this; simp at this
  · exact absurd (strip h') clash.1
  · exact strip' (strip h')

/-- Names with different seeds are different. -/
theorem ownFile_disjoint {s s' : BitVec 64} {p : Path} (h : OwnFile s p) (h' : OwnFile s' p) : s = s' := by
  obtain ⟨i, now, a, ha, hp⟩ := h
  obtain ⟨i', now', b, hb, hp'⟩ := h'
  have off : ∀ {i : NameInfo} {now : Stamp} {s : BitVec 64} {a : Path},
      (a = makeFilenameSeed i s.toNat now ∨ ∃ pass, a = makeFilenamePass i s.toNat pass now) → OffName a := by
    intro i now s a h
    rcases h with h | ⟨pass, h⟩
    · rw [h]; exact offName_seed _ _ _
    · rw [h]; exact offName_pass _ _ _ _
  have hab : a = b := files_apart (off ha) (off hb) hp hp'
  apply BitVec.eq_of_toNat_eq
  rcases ha with ha | ⟨pass, ha⟩ <;> rcases hb with hb | ⟨pass', hb⟩ <;> rw [ha, hb] at hab
  · exact (C59_artifact_names hab).1
  · exact absurd hab.symm (C59_kinds_distinct _ _ _ _ _ _ _).1
  · exact absurd hab (C59_kinds_distinct _ _ _ _ _ _ _).1
  · exact (C59_checkpoint_names hab).1

end

section
variable {M S P T I : Type} (host : Host M S P T) (F : CastFloats)

theorem job_within (j : Job M S) : Within (j.Owns F) (j.steps host F) := by
  have mono : ∀ {α : Type} {A B : Path → Prop} (p : Proc α), (∀ q, A q → B q) → Within A p → Within B p := by
    intro α A B p h
    induction p with
    | done r => exact id
    | fate k ih => exact fun hw x => ih x (hw x)
    | clock k ih => exact fun hw x => ih x (hw x)
    | look q k ih => exact fun hw => ⟨h _ hw.1, fun x => ih x (hw.2 x)⟩
    | put q c k ih => exact fun hw => ⟨h _ hw.1, ih hw.2⟩
    | rename s t b k ih => exact fun hw => ⟨h _ hw.1, h _ hw.2.1, fun x => ih x (hw.2.2 x)⟩
    | note q k ih => exact fun hw => ⟨h _ hw.1, h _ hw.2.1, ih hw.2.2⟩
  cases ho : j.options F with
  | none =>
    unfold Job.steps
    rw [ho]
    cases j.tool <;> trivial
  | some o =>
    have hs : j.seed F = some (o.seed.getD j.out.entropy) := by unfold Job.seed; rw [ho]; rfl
    refine mono _ (fun q hq => ⟨_, hs, hq⟩) ?_
    unfold Job.steps
    rw [ho]
    cases j.tool with
    | cdt => exact within_cdt host j.out _ (by rintro _ ⟨⟩; rfl)
    | «initialize» => exact within_initialize host j.out _ (by rintro _ ⟨⟩; rfl)

theorem job_run (j : Job M S) (fs : Files) :
    (j.steps host F).run ⟨startingWith fs j.fates, []⟩ = (.ok (j.alone host F fs).1, (j.alone host F fs).2) := by
  obtain ⟨tool, words, out, fates⟩ := j
  cases tool with
  | cdt => exact cdt_steps host out _ _
  | «initialize» => exact initialize_steps host out _ _

variable [DecidableEq I] (jobs : I → Job M S)

/-- **C107.** Any number of `cdt` and `initialize` processes with different seeds share a directory, their
accesses to the files interleaved in any way; some may be killed at any point.
A process that ends has the exit status, the artifacts and the files it would have had alone.
A process that has not ended has completed some of the writes it would have completed alone, and the
files with its seed are as they would have been at some moment of its run alone.
Files without one of the seeds in their names are untouched. -/
theorem C107_shared_directory
    (hseeds : ∀ i j s, i ≠ j → (jobs i).seed F = some s → (jobs j).seed F ≠ some s)
    (fs : Files) (schedule : List I) :
    let d := (started host F jobs fs).after schedule
    (∀ i, let alone := (jobs i).alone host F fs
      (∀ r, (d.processes i).status = some r →
        r = .ok alone.1 ∧ (d.processes i).log = alone.2.log ∧
          ∀ p, (jobs i).Owns F p → d.fs p = alone.2.disk.fs p) ∧
      (d.processes i).log <+: alone.2.log ∧
      ∃ moment ∈ alone.2.disk.visible, ∀ p, (jobs i).Owns F p → d.fs p = moment p) ∧
    ∀ p, (∀ i, ¬(jobs i).Owns F p) → d.fs p = fs p := by
  have hA : ∀ i j p, (jobs i).Owns F p → (jobs j).Owns F p → i = j := by
    rintro i j p ⟨s, hs, hp⟩ ⟨s', hs', hp'⟩
    by_contra hij
    exact hseeds i j s hij hs (by rw [ownFile_disjoint hp hp']; exact hs')
  obtain ⟨h1, h2⟩ := separate (A := fun i => (jobs i).Owns F) hA (d := started host F jobs fs)
    (fun i => job_within host F (jobs i)) schedule
  intro d
  refine ⟨fun i => ?_, h2⟩
  obtain ⟨hc, hf, -, -, hl⟩ := h1 i
  have hr := stepN_run ((jobs i).steps host F) ⟨startingWith fs (jobs i).fates, []⟩ (schedule.count i)
  rw [job_run] at hr
  have hv := stepN_history ((jobs i).steps host F) ⟨startingWith fs (jobs i).fates, []⟩ (by simp [startingWith])
    (schedule.count i)
  have hh := run_history (stepN (schedule.count i) ((jobs i).steps host F) ⟨startingWith fs (jobs i).fates, []⟩).1
    (stepN (schedule.count i) ((jobs i).steps host F) ⟨startingWith fs (jobs i).fates, []⟩).2
  rw [hr] at hh
  intro alone
  change (d.processes i).code = (stepN (schedule.count i) ((jobs i).steps host F) ⟨startingWith fs (jobs i).fates, []⟩).1
    at hc
  change ∀ p, (jobs i).Owns F p → d.fs p =
    (stepN (schedule.count i) ((jobs i).steps host F) ⟨startingWith fs (jobs i).fates, []⟩).2.disk.fs p at hf
  change (d.processes i).log = (stepN (schedule.count i) ((jobs i).steps host F) ⟨startingWith fs (jobs i).fates, []⟩).2.log
    at hl
  refine ⟨fun r hs => ?_, by rw [hl]; exact hh.1, _, hh.2.subset hv.1, hf⟩
  unfold Running.status at hs
  split at hs
  · rename_i s e
    obtain rfl := Option.some.inj hs
    rw [hc] at e
    rw [e] at hr
    have hx := Prod.mk.inj hr
    refine ⟨hx.1, by rw [hl, hx.2], fun p hp => by rw [hf p hp, hx.2]⟩
  · cases hs

/-- **C107.** Every process ends if it is given enough turns, whatever the others do. -/
theorem C107_finishes (hseeds : ∀ i j s, i ≠ j → (jobs i).seed F = some s → (jobs j).seed F ≠ some s)
    (fs : Files) (i : I) :
    ∃ turns, ∀ schedule : List I, turns ≤ schedule.count i →
      (((started host F jobs fs).after schedule).processes i).status = some (.ok ((jobs i).alone host F fs).1) := by
  obtain ⟨n, hn⟩ := stepN_ends ((jobs i).steps host F) ⟨startingWith fs (jobs i).fates, []⟩
  refine ⟨n, fun schedule h => ?_⟩
  have hA : ∀ i j p, (jobs i).Owns F p → (jobs j).Owns F p → i = j := by
    rintro i j p ⟨s, hs, hp⟩ ⟨s', hs', hp'⟩
    by_contra hij
    exact hseeds i j s hij hs (by rw [ownFile_disjoint hp hp']; exact hs')
  obtain ⟨hc, -⟩ := (separate (A := fun i => (jobs i).Owns F) hA (d := started host F jobs fs)
    (fun i => job_within host F (jobs i)) schedule).1 i
  obtain ⟨r, hr⟩ := hn _ h
  have hs : (((started host F jobs fs).after schedule).processes i).status = some r := by
    unfold Running.status
    rw [hc]
    change (match (stepN (schedule.count i) ((jobs i).steps host F) ⟨startingWith fs (jobs i).fates, []⟩).1 with
      | .done s => some s | _ => none) = some r
    rw [hr]
  rw [hs, (((C107_shared_directory host F jobs hseeds fs schedule).1 i).1 r hs).1]

end

/-! ### Concrete processes -/

open Fixture

/-- `cdt` with the given seed. -/
def pointJob (seed : String) (entropy : BitVec 64) : Job (List ℤ) (BitVec 64 × BitVec 64) :=
  ⟨.cdt, pointWords ++ [ascii "--seed", ascii seed], pointOutside entropy, noFaults⟩

/-- `initialize --output`, with the time that `now` says. -/
def pointInitialize (seed : String) : Job (List ℤ) (BitVec 64 × BitVec 64) :=
  ⟨.initialize, [ascii "-s", ascii "-n", ascii "640", ascii "-t4", ascii "-o", ascii "--seed", ascii seed],
    { pointOutside 7 with now := fun _ => ⟨2026, 1, 2, 3, 4, 5⟩ }, noFaults⟩

/-- Three processes: two simulations and an initialization. -/
def pointJobs : Fin 3 → Job (List ℤ) (BitVec 64 × BitVec 64)
  | 0 => pointJob "12" 1
  | 1 => pointJob "13" 1
  | 2 => pointInitialize "14"

-- They have different seeds, and the processes take turns.
example : ∀ i j s, i ≠ j → (pointJobs i).seed integerCasts = some s → (pointJobs j).seed integerCasts ≠ some s := by
  have h : ∀ i j, i ≠ j → (pointJobs i).seed integerCasts ≠ (pointJobs j).seed integerCasts := by decide +kernel
  exact fun i j s hij hi hj => h i j hij (hi.trans hj.symm)
example :
    let d := (started pointHost integerCasts pointJobs (fun _ => none)).after (List.replicate 60 [0, 1, 2, 1]).flatten
    (∀ i, (match (d.processes i).status with | some (.ok r) => some r | _ => none) = some 0) ∧
      ∀ i, (d.processes i).log.length = if i = 2 then 1 else 2 := by decide +kernel

/-- **C107** (the seeds have to be different).  Two `initialize --output` processes with the same seed that
write in the same second write the same names.  One of them reports success, but its artifact is empty,
because the other was about to write it, and the other has been killed. -/
theorem C107_same_seed :
    let jobs : Bool → Job (List ℤ) (BitVec 64 × BitVec 64) := fun _ => pointInitialize "12"
    let d := (started pointHost integerCasts jobs fun _ => none).after
      (List.replicate 20 false ++ List.replicate 7 true ++ List.replicate 2 false)
    (match (d.processes false).status with | some (.ok r) => some r | _ => none) = some 0 ∧
      (∃ a ∈ ((jobs false).alone pointHost integerCasts fun _ => none).2.log,
        a.payload = some (payloadText pointSet [1, 2, 3]) ∧ d.fs a.path = some []) := by
  decide +kernel

end CDT.Props

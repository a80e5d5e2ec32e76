import Verif.Spec.Quickstart
import Verif.Lemmas.SamplerLive
import Verif.Lemmas.Console
/-
The parts of the quickstart program.
-/
namespace CDT
open Spec

variable {M S P T : Type} {α β : Type}

namespace Quick

/-- What a part of the program does: it goes on with a result and the error output untouched; or it
returns 1 after a message; or it throws, perhaps while writing a message. -/
def Does (errFaults : PrintFaults) (texts : Machine → Bytes → Prop) (files : Machine → Machine → Prop) (x : Quick α)
    (w : QuickWorld) (Q : α → QuickWorld → Prop) : Prop :=
  match x w with
  | (.ok a, w') => w'.err = w.err ∧ files w.machine w'.machine ∧ Q a w'
  | (.error (.throws _), w') => files w.machine w'.machine ∧
      (w'.err = w.err ∨ ∃ t, texts w'.machine t ∧ w'.err = (say errFaults t w.err).2 ∧ (say errFaults t w.err).1 ≠ .ok ())
  | (.error (.returns status), w') => files w.machine w'.machine ∧ status = 1 ∧
      ∃ t, texts w'.machine t ∧ w'.err = (say errFaults t w.err).2 ∧ (say errFaults t w.err).1 = .ok ()

variable {errFaults faults : PrintFaults} {texts : Machine → Bytes → Prop} {files : Machine → Machine → Prop} {w : QuickWorld}

theorem Does.next {f₁ f₂ : Machine → Machine → Prop} {x : Quick α} {f : α → Quick β} {Q : α → QuickWorld → Prop}
    {R : β → QuickWorld → Prop} (h : Does errFaults texts f₁ x w Q) (h1 : ∀ a b, f₁ a b → files a b)
    (h2 : ∀ a b c, f₁ a b → f₂ b c → files a c)
    (hf : ∀ a w1, w1.err = w.err → f₁ w.machine w1.machine → Q a w1 → Does errFaults texts f₂ (f a) w1 R) :
    Does errFaults texts files (x >>= f) w R := by
  have e : (x >>= f) w = match x w with | (.error e, w') => (.error e, w') | (.ok a, w') => f a w' := rfl
  unfold Does at h ⊢
  rw [e]
  rcases hx : x w with ⟨r, w1⟩
  rw [hx] at h
  cases r with
  | ok a =>
    obtain ⟨k1, k2, k3⟩ := h
    have := hf a w1 k1 k2 k3
    unfold Does at this
    dsimp only
    rcases hy : f a w1 with ⟨r, w2⟩
    rw [hy, k1] at this
    rcases r with (e | st) | b
    · exact ⟨h2 _ _ _ k2 this.1, this.2⟩
    · exact ⟨h2 _ _ _ k2 this.1, this.2⟩
    · exact ⟨this.1, h2 _ _ _ k2 this.2.1, this.2.2⟩
  | error e =>
    cases e with
    | throws e => exact ⟨h1 _ _ h.1, h.2⟩
    | returns s => exact ⟨h1 _ _ h.1, h.2⟩

theorem Does.bind {x : Quick α} {f : α → Quick β} {Q : α → QuickWorld → Prop} {R : β → QuickWorld → Prop}
    (h : Does errFaults texts Eq x w Q) (hr : ∀ m : Machine, files m m)
    (hf : ∀ a w1, w1.err = w.err → w1.machine = w.machine → Q a w1 → Does errFaults texts files (f a) w1 R) :
    Does errFaults texts files (x >>= f) w R :=
  h.next (fun _ _ e => e ▸ hr _) (fun _ _ _ e k => e ▸ k) fun a w1 h1 h2 h3 => hf a w1 h1 h2.symm h3

theorem Does.mono {x : Quick α} {Q R : α → QuickWorld → Prop} (h : Does errFaults texts files x w Q)
    (hq : ∀ a w', w'.err = w.err → files w.machine w'.machine → Q a w' → R a w') : Does errFaults texts files x w R := by
  unfold Does at h ⊢
  rcases hx : x w with ⟨r, w1⟩
  rw [hx] at h
  rcases r with (_ | _) | _
  · exact h
  · exact h
  · exact ⟨h.1, h.2.1, hq _ _ h.1 h.2.1 h.2.2⟩

theorem Does.widen {texts' : Machine → Bytes → Prop} {x : Quick α} {Q : α → QuickWorld → Prop} (h : Does errFaults texts files x w Q)
    (ht : ∀ m t, texts m t → texts' m t) : Does errFaults texts' files x w Q := by
  unfold Does at h ⊢
  rcases hx : x w with ⟨r, w1⟩
  rw [hx] at h
  rcases r with (_ | _) | _
  · obtain ⟨h1, h2 | ⟨t, h2, h3⟩⟩ := h
    · exact ⟨h1, .inl h2⟩
    · exact ⟨h1, .inr ⟨t, ht _ _ h2, h3⟩⟩
  · obtain ⟨h1, h0, t, h2, h3⟩ := h
    exact ⟨h1, h0, t, ht _ _ h2, h3⟩
  · exact h

theorem Does.refile {f₂ : Machine → Machine → Prop} {x : Quick α} {Q : α → QuickWorld → Prop}
    (h : Does errFaults texts files x w Q) (hf : ∀ m, files w.machine m → f₂ w.machine m) : Does errFaults texts f₂ x w Q := by
  unfold Does at h ⊢
  rcases hx : x w with ⟨r, w1⟩
  rw [hx] at h
  rcases r with (_ | _) | _
  · exact ⟨hf _ h.1, h.2⟩
  · exact ⟨hf _ h.1, h.2⟩
  · exact ⟨h.1, hf _ h.2.1, h.2.2⟩

theorem Does.pure {a : α} {Q : α → QuickWorld → Prop} (hr : ∀ m : Machine, files m m) (h : Q a w) :
    Does errFaults texts files (Pure.pure a) w Q := ⟨rfl, hr _, h⟩

theorem Does.lift {x : Except Exc α} : Does errFaults texts Eq (Quick.lift x) w fun a w' => x = .ok a ∧ w' = w := by
  unfold Does Quick.lift
  cases x with
  | ok a => exact ⟨rfl, rfl, rfl, rfl⟩
  | error e => exact ⟨rfl, .inl rfl⟩

/-- The world with more on standard output. -/
theorem Does.print {text : Bytes} : Does errFaults texts Eq (Quick.print faults text) w
    fun _ w' => w'.out.text = w.out.text ++ text := by
  unfold Does Quick.print say
  cases faults w.out.calls with
  | none => exact ⟨rfl, rfl, rfl⟩
  | some x => exact ⟨rfl, .inl rfl⟩

theorem Does.printAll : ∀ (ts : List Bytes) {w : QuickWorld}, Does errFaults texts Eq (Quick.printAll faults ts) w
    fun _ w' => w'.out.text = w.out.text ++ ts.flatten
  | [], w => .pure (fun _ => rfl) (by simp)
  | t :: ts, w => by
    refine Does.print.bind (fun _ => rfl) fun _ w1 _ _ h => ?_
    exact (Does.printAll ts).mono fun _ w2 _ _ h2 => by rw [h2, h]; simp

theorem Does.insist {fine : Bool} {text : Bytes} (ht : fine = false → texts w.machine text) :
    Does errFaults texts Eq (Quick.insist errFaults fine text) w fun _ w' => fine = true ∧ w' = w := by
  unfold Quick.insist
  cases fine with
  | true => exact .pure (fun _ => rfl) ⟨rfl, rfl⟩
  | false =>
    unfold Does
    simp only [Bool.false_eq_true, if_false, Quick.giveUp]
    rcases hs : say errFaults text w.err with ⟨r, c⟩
    cases r with
    | error e => exact ⟨rfl, .inr ⟨_, ht rfl, by rw [hs], by rw [hs]; simp⟩⟩
    | ok u => exact ⟨rfl, rfl, _, ht rfl, by rw [hs], by rw [hs]⟩

end Quick
open Quick

variable {q : QuickHost M S P T} {out : Outside M S} {faults errFaults : PrintFaults} {texts : Machine → Bytes → Prop}

/-! ### The pieces -/

theorem accepted_successful (o : MoveOutcome) : (!(o.accepted && !o.successful)) = true := by
  cases o <;> rfl

theorem proposalLine_eq {i : Fin 5} {mv : MoveType} (h : MoveType.ofCode (i.val : ℤ) = some mv) (n : ℕ) (o : MoveOutcome) :
    proposalLine n i o = quickLine n (mv, o) := by
  unfold proposalLine quickLine yesNo
  rw [h, format_eq _ ["proposal ", ": move ", ", accepted=", ", successful=", "\n"] _ (by decide +kernel) rfl]
  simp [sentence]

theorem history_one (eng : MetroEngine M (Random S) P) {v v' : MetroVars M (Random S)} {i o mv}
    (hs : sampleTransition eng v = (.ok (i, o), v')) (hmv : MoveType.ofCode (i.val : ℤ) = some mv) :
    history eng 1 (v.current, v.gen) = [(mv, o)] := by
  simp only [history, List.range_one, List.flatMap_cons, List.flatMap_nil, List.append_nil]
  have hc : (sampleTransition eng ⟨v.current, {}, {}, v.gen⟩).1 = .ok (i, o) := by
    rw [← show (sampleTransition eng v).1 = .ok (i, o) by rw [hs]]
    exact sample_result eng _ _ rfl rfl
  rw [show trajectory eng 0 (v.current, v.gen) = (v.current, v.gen) from rfl, hc]
  simp [entryOf, hmv]

/-- The transitions and their lines. -/
theorem proposals_does : ∀ (n idx : ℕ) (s : Sampler S) (m : M) (w : QuickWorld),
    Does errFaults texts Eq (proposals faults errFaults q n idx (s, m)) w fun x w' =>
      (∃ cmd stats gen, x.1 = { s with strategy := { s.strategy with cmd, stats, gen } }) ∧
      (x.2, x.1.strategy.gen) = trajectory (q.host.engine s.parameters) n (m, s.strategy.gen) ∧
      (history (q.host.engine s.parameters) n (m, s.strategy.gen)).length = n ∧
      (∀ h, Describes s.strategy.cmd s.strategy.stats h → Describes x.1.strategy.cmd x.1.strategy.stats
        (h ++ history (q.host.engine s.parameters) n (m, s.strategy.gen))) ∧
      w'.out.text = w.out.text ++ (quickLines idx (history (q.host.engine s.parameters) n (m, s.strategy.gen))).flatten
  | 0, idx, s, m, w => .pure (fun _ => rfl) ⟨⟨_, _, _, rfl⟩, rfl, rfl, fun h d => by simpa [history] using d, by simp [history, quickLines]⟩
  | n + 1, idx, s, m, w => by
    unfold proposals
    refine Does.lift.bind (fun _ => rfl) fun r w1 _ _ hr => ?_
    obtain ⟨hr, rfl⟩ := hr
    obtain ⟨⟨i, o⟩, s', m'⟩ := r
    unfold Sampler.sample at hr
    rcases hs : sampleTransition (q.host.engine s.parameters) ⟨m, s.strategy.cmd, s.strategy.stats, s.strategy.gen⟩ with ⟨r, v⟩
    rw [hs] at hr
    cases r with
    | error e => cases hr
    | ok r =>
      obtain ⟨i', o'⟩ := r
      simp only [Except.ok.injEq, Prod.mk.injEq] at hr
      obtain ⟨⟨rfl, rfl⟩, rfl, rfl⟩ := hr
      obtain ⟨mv, hmv, hb⟩ := block_sample hs
      have hone := history_one _ hs hmv
      have ha := Props.sample_advance _ _ hs
      dsimp only at ha hone ⊢
      refine (Does.insist (fun h => ?_)).bind (fun _ => rfl) fun _ w2 _ _ h2 => ?_
      · rw [accepted_successful] at h; cases h
      obtain ⟨-, rfl⟩ := h2
      refine Does.print.bind (fun _ => rfl) fun _ w3 _ _ h3 => ?_
      refine (proposals_does n (idx + 1) _ _ w3).mono fun x w4 _ _ h4 => ?_
      obtain ⟨⟨cmd, stats, gen, k1⟩, k2, k3, k4, k5⟩ := h4
      dsimp only at k2 k3 k4 k5
      rw [ha] at k2 k3 k4 k5
      have hh : history (q.host.engine s.parameters) (n + 1) (m, s.strategy.gen) =
          (mv, o') :: history (q.host.engine s.parameters) n (advance (q.host.engine s.parameters) (m, s.strategy.gen)) := by
        rw [history_succ, hone]; rfl
      refine ⟨⟨cmd, stats, gen, k1⟩, by rw [k2, Props.trajectory_succ], ?_, fun h d => ?_, ?_⟩
      · rw [hh, List.length_cons, k3]
      · have := k4 (h ++ [(mv, o')]) ⟨hb.cmd h d.1, hb.stats h d.2⟩
        rw [hh]
        simpa using this
      · rw [k5, h3, hh, proposalLine_eq hmv]
        simp [quickLines]

theorem summary_consistent {s : Sampler S} {h : List (MoveType × MoveOutcome)}
    (d : Describes s.strategy.cmd s.strategy.stats h) (hl : h.length = 10) : summaryConsistent s = true := by
  have b := describes_balanced d
  have a0 := b .twoThree; have a1 := b .threeTwo; have a2 := b .twoSix
  have a3 := b .sixTwo; have a4 := b .fourFour
  have t := describes_total d
  rw [d.2.count, hl] at t
  unfold summaryConsistent quickstartTransitions
  simp only [Tracker.total_eq] at t ⊢
  simp only [Bool.not_eq_true', Bool.or_eq_false_iff, decide_eq_false_iff_not, not_not]
  push_cast at t ⊢
  refine ⟨⟨?_, ?_⟩, ?_⟩ <;> omega

theorem quickConfig_ok {cfg : SimConfig} (h : quickConfig q = .ok cfg) :
    cfg = ⟨⟨.spherical, 64, 3, 3, .fin 1, .fin 1, 92, 1⟩, .fin q.alpha, .fin q.k, .fin q.lambda, 1, 1, false⟩ ∧
      1 / 2 < q.alpha := by
  unfold quickConfig at h
  simp only [bind_ok] at h
  obtain ⟨t, h1, h2⟩ := h
  obtain ⟨⟨a, ha, hb⟩, -, -, -, -, rfl⟩ := (Props.C47_simulation_iff ..).1 h2
  cases ha
  have ht : t = ⟨.spherical, 64, 3, 3, .fin 1, .fin 1, 92, 1⟩ := by
    exact (makeTriangulation_ok h1).1
  exact ⟨by rw [ht], hb⟩

/-- The arguments the strategy object is made with. -/
def quickArgs (q : QuickHost M S P T) (given : Metadata) : SamplerArgs S :=
  ⟨.fin q.alpha, .fin q.k, .fin q.lambda, 1, 1, false, Random.make q.host.pcg 92 1, some given⟩

theorem quickSampler_ok {initial : M} {s : Sampler S}
    (h : quickSampler q (Random.make q.host.pcg 92 initializationStream)
      ⟨⟨.spherical, 64, 3, 3, .fin 1, .fin 1, 92, 1⟩, .fin q.alpha, .fin q.k, .fin q.lambda, 1, 1, false⟩
      initializationStream initial = .ok s) :
    ∃ given : Metadata, MadeBy (quickArgs q given) s ∧ s.strategy.gen = Random.make q.host.pcg 92 1 ∧
      s.strategy.cmd = {} ∧ s.strategy.stats = {} ∧ given.initializationStream = 0 ∧ given.desiredSimplices = 64 ∧
      given.desiredTimeslices = 3 ∧ given.configuredAttempts = some 10 ∧ given.maxThreads = some 1 := by
  unfold quickSampler at h
  simp only [bind_ok] at h
  obtain ⟨md, -, h⟩ := h
  obtain ⟨h1, h2, h3, h4, -⟩ := ofArgs_ok (a := quickArgs q _) h
  exact ⟨_, h1, h2, h3, h4, rfl, rfl, rfl, rfl, rfl⟩

/-- What the program may say. -/
def quickTexts (q : QuickHost M S P T) (out : Outside M S) (target : Path) (m : Machine) (t : Bytes) : Prop :=
  ∃ start, QuickBuilt q out start ∧ QuickComplaint q start target m.disk.fs t

theorem quickStart_does {target : Path} (w : QuickWorld) : Does errFaults (quickTexts q out target) Eq (quickStart faults errFaults q out) w
    fun x w' => x.1 = ⟨⟨.spherical, 64, 3, 3, .fin 1, .fin 1, 92, 1⟩, .fin q.alpha, .fin q.k, .fin q.lambda, 1, 1, false⟩ ∧
      QuickBuilt q out x.2 ∧ q.correct x.2 = true ∧ 1 / 2 < q.alpha ∧
      w'.out.text = w.out.text ++ (q.building 64 3 (Random.make q.host.pcg 92 0) (.fin 1) (.fin 1)).flatten := by
  unfold quickStart
  refine Does.lift.bind (fun _ => rfl) fun cfg w1 _ _ hr => ?_
  obtain ⟨hc, rfl⟩ := hr
  obtain ⟨rfl, hα⟩ := quickConfig_ok hc
  refine (Does.printAll _).bind (fun _ => rfl) fun _ w2 _ _ h2 => ?_
  refine Does.lift.bind (fun _ => rfl) fun start w3 _ _ hr => ?_
  obtain ⟨hb, rfl⟩ := hr
  refine (Does.insist (fun h => ⟨start, hb, .initial h⟩)).bind (fun _ => rfl) fun _ w2 _ _ h2 => ?_
  obtain ⟨h4, rfl⟩ := h2
  exact .pure (fun _ => rfl) ⟨rfl, hb, h4, hα, by assumption⟩

theorem quickEvolve_does {target : Path} {start : M} (hb : QuickBuilt q out start) (hc : q.correct start = true) (w : QuickWorld) :
    Does errFaults (quickTexts q out target) Eq (quickEvolve faults errFaults q
      ⟨⟨.spherical, 64, 3, 3, .fin 1, .fin 1, 92, 1⟩, .fin q.alpha, .fin q.k, .fin q.lambda, 1, 1, false⟩ start) w
    fun x w' => (∃ given : Metadata, MadeBy (quickArgs q given) x.1 ∧ given.initializationStream = 0 ∧
        given.desiredSimplices = 64 ∧ given.desiredTimeslices = 3 ∧ given.configuredAttempts = some 10 ∧
        given.maxThreads = some 1) ∧
      x.2 = quickState q start 10 ∧ Describes x.1.strategy.cmd x.1.strategy.stats (quickHistory q start) ∧
      (quickHistory q start).length = 10 ∧ q.correct x.2 = true ∧
      w'.out.text = w.out.text ++ (ascii "=== Ten explicit Metropolis proposals ===\n" ++
        ((quickLines 0 (quickHistory q start)).flatten ++ (metroResultLines x.1.strategy.cmd x.1.strategy.stats).flatten)) := by
  unfold quickEvolve
  refine Does.lift.bind (fun _ => rfl) fun s w1 _ _ hr => ?_
  obtain ⟨hs, rfl⟩ := hr
  obtain ⟨given, h1, h2, h3, h4, h5⟩ := quickSampler_ok hs
  refine Does.print.bind (fun _ => rfl) fun _ w2 _ _ k2 => ?_
  refine (proposals_does _ _ _ _ _).bind (fun _ => rfl) fun x w3 _ _ k3 => ?_
  obtain ⟨s', m'⟩ := x
  dsimp only
  obtain ⟨⟨cmd, stats, gen, k31⟩, k32, k33, k34, k35⟩ := k3
  dsimp only at k31 k32 k33 k34 k35
  rw [h1.parameters, h2] at k32 k33 k34 k35
  change _ = trajectory (quickEngine q) 10 (quickOrigin q start) at k32
  change (quickHistory q start).length = 10 at k33
  change ∀ h, _ → Describes _ _ (h ++ quickHistory q start) at k34
  change _ = _ ++ (quickLines 0 (quickHistory q start)).flatten at k35
  have hd := k34 [] (by
    rw [h3, h4]
    exact ⟨⟨fun m => by cases m <;> rfl, fun m => by cases m <;> rfl, fun m => by cases m <;> rfl⟩, describesStats_nil _⟩)
  rw [List.nil_append] at hd
  have hm : m' = quickState q start 10 := congrArg Prod.fst k32
  refine (Does.printAll _).bind (fun _ => rfl) fun _ w4 _ _ k4 => ?_
  refine (Does.insist (fun h => ?_)).bind (fun _ => rfl) fun _ w5 _ _ k5 => ?_
  · rw [hc] at h
    exact ⟨start, hb, .evolved (by rw [← hm]; simpa using h)⟩
  obtain ⟨k5, rfl⟩ := k5
  refine (Does.insist (fun h => ?_)).bind (fun _ => rfl) fun _ w6 _ _ k6 => ?_
  · rw [summary_consistent hd k33] at h; cases h
  obtain ⟨-, rfl⟩ := k6
  refine .pure (fun _ => rfl) ⟨⟨given, ?_, h5⟩, hm, hd, k33, ?_, ?_⟩
  · rw [k31]
    exact ⟨h1.accepted, h1.parameters, h1.cadence, h1.writes, h1.record⟩
  · rw [hc] at k5; simpa using k5
  · rw [k4, k35, k2]; simp

/-- What the files may be when the program stops. -/
def quickStored (q : QuickHost M S P T) (start : M) (target : Path) (fs₀ : Files) (m : Machine) : Prop :=
  (∀ s ∈ m.disk.visible, QuickFiles q start target fs₀ s) ∧ QuickFiles q start target fs₀ m.disk.fs

theorem holding_self {dest : Path} {fs₀ : Files} : Holding dest fs₀ (fs₀ (dest ++ ascii ".meta")) (fs₀ dest) fs₀ :=
  ⟨rfl, rfl, fun _ _ _ _ _ => rfl⟩

theorem quickStored_init {start : M} {target : Path} {fs₀ : Files} {fates : ℕ → Fate} {log} :
    quickStored q start target fs₀ ⟨startingWith fs₀ fates, log⟩ := by
  refine ⟨fun s hs => ?_, .inl holding_self⟩
  simp only [startingWith, List.mem_singleton] at hs
  rw [hs]
  exact .inl holding_self

theorem quick_manifest {given : Metadata} {s : Sampler S} {start : M} (hs : MadeBy (quickArgs q given) s)
    (hg : given.initializationStream = 0 ∧ given.desiredSimplices = 64 ∧ given.desiredTimeslices = 3 ∧
      given.configuredAttempts = some 10 ∧ given.maxThreads = some 1)
    (hd : Describes s.strategy.cmd s.strategy.stats (quickHistory q start)) (hl : (quickHistory q start).length = 10)
    {md md' : Metadata} (h : s.published q.host (quickState q start 10) .finalTriangulation 0 = .ok md)
    (hr : reconcile q.host.codec md (q.host.snapshot (quickState q start 10)) = .ok md') :
    QuickManifest q start (metadataText q.host.text q.host.build md' (payloadIntegrity (quickPayload q start))) := by
  obtain ⟨-, -, -, h4⟩ := sampled_metadata hs h
  obtain ⟨lo, hi, f, l1, l2, rfl⟩ := h4 md' _ hr hd.2
  obtain ⟨g1, g2, g3, g4, g5⟩ := hg
  refine ⟨lo, hi, f, l1, l2, ?_⟩
  congr 1
  unfold sampledRecord quickRecord quickArgs
  simp [g1, g2, g3, g4, g5, hl, Random.make]

theorem write_does {given : Metadata} {s : Sampler S} {start : M} (hs : MadeBy (quickArgs q given) s)
    (hg : given.initializationStream = 0 ∧ given.desiredSimplices = 64 ∧ given.desiredTimeslices = 3 ∧
      given.configuredAttempts = some 10 ∧ given.maxThreads = some 1)
    (hd : Describes s.strategy.cmd s.strategy.stats (quickHistory q start)) (hl : (quickHistory q start).length = 10)
    {md : Metadata} (h : s.published q.host (quickState q start 10) .finalTriangulation 0 = .ok md)
    {target : Path} {fs₀ : Files} {fates : ℕ → Fate} {w : QuickWorld} (hw : w.machine = ⟨startingWith fs₀ fates, []⟩) :
    Does errFaults texts (fun m m' => m = ⟨startingWith fs₀ fates, []⟩ → quickStored q start target fs₀ m')
      (Quick.write faults q target (quickState q start 10) md) w fun _ w' =>
        w'.out.text = w.out.text ++ (ascii "Writing to file " ++ (target ++ ascii "\n")) ∧
        writePayload q.host.codec q.host.text q.host.build target (q.host.snapshot (quickState q start 10)) (some md)
          (startingWith fs₀ fates) = (.ok (), w'.machine.disk) ∧
        ∃ text, QuickManifest q start text ∧
          Holding target fs₀ (some text) (some (quickPayload q start)) w'.machine.disk.fs := by
  unfold Quick.write
  refine Does.print.bind (fun _ h => h ▸ quickStored_init) fun _ w1 _ h1 h2 => ?_
  have e : writingLine target = ascii "Writing to file " ++ (target ++ ascii "\n") := by
    unfold writingLine
    rw [format_eq _ ["Writing to file ", "\n"] _ (by decide +kernel) rfl]
    simp [sentence]
  rw [e] at h2
  obtain ⟨mach, o, er⟩ := w1
  dsimp only at h1
  rw [hw] at h1
  subst h1
  unfold Does writeTo
  dsimp only
  rcases hr : reconcile q.host.codec md (q.host.snapshot (quickState q start 10)) with e | md'
  · rw [writePayload_reconcile_error fs₀ fates hr]
    exact ⟨fun _ => quickStored_init, .inl rfl⟩
  · obtain ⟨r, d', h3, h4, h5, h6, -⟩ := writePayload_manifest (codec := q.host.codec) (ft := q.host.text)
      (build := q.host.build) (dest := target) (t := q.host.snapshot (quickState q start 10)) fs₀ fates hr
    have hm := quick_manifest hs hg hd hl h hr
    rw [h3]
    have hst : ∀ s, ManifestStage q.host.codec q.host.text target fs₀ (q.host.snapshot (quickState q start 10))
        (metadataText q.host.text q.host.build md'
          (payloadIntegrity (payloadText q.host.codec (q.host.snapshot (quickState q start 10))))) s →
        QuickFiles q start target fs₀ s := by
      rintro s (hs | ⟨-, -, hs⟩)
      · exact .inl hs
      · exact .inr ⟨_, hm, hs⟩
    cases r with
    | error e =>
      refine ⟨fun _ => ⟨fun s hs => hst s (h4 s hs), ?_⟩, .inl rfl⟩
      rcases h6 e rfl with h | ⟨h, -⟩
      · exact .inl h
      · exact .inr ⟨_, hm, .inl h⟩
    | ok u =>
      obtain ⟨-, -, hh⟩ := h5 rfl
      exact ⟨rfl, fun _ => ⟨fun s hs => hst s (h4 s hs), .inr ⟨_, hm, .inr hh⟩⟩, h2, rfl, _, hm, hh⟩

theorem sameFiniteCounts_iff {t : T} {m : M} : sameFiniteCounts q t m = true ↔ SameCounts q t m := by
  unfold sameFiniteCounts SameCounts
  simp [and_assoc]

theorem roundTripLine_eq (t : T) (m : M) : roundTripLine q t m =
    ascii "persisted triangulation failed round-trip checks: tds_valid=" ++
      (if q.tdsValid t then ascii "true" else ascii "false") ++
      ascii ", counts=(" ++ decimal (q.host.codec.view t).nv ++ ascii "," ++ decimal (q.host.codec.edges t) ++
      ascii "," ++ decimal (q.host.codec.facets t) ++ ascii "," ++ decimal (q.host.codec.view t).nc ++
      ascii ") expected=(" ++ decimalInt (q.host.summary m).N0 ++ ascii "," ++ decimalInt (q.host.summary m).N1 ++
      ascii "," ++ decimalInt (q.host.summary m).N2 ++ ascii "," ++ decimalInt (q.host.summary m).N3 ++ ascii ")\n" := by
  unfold roundTripLine boolText
  rw [format_eq _ ["persisted triangulation failed round-trip checks: tds_valid=", ", counts=(", ",", ",", ",", ") expected=(",
    ",", ",", ",", ")\n"] _ (by decide +kernel) rfl]
  simp [sentence]

theorem quickPersist_does {given : Metadata} {s : Sampler S} {start : M} (hb : QuickBuilt q out start)
    (hs : MadeBy (quickArgs q given) s)
    (hg : given.initializationStream = 0 ∧ given.desiredSimplices = 64 ∧ given.desiredTimeslices = 3 ∧
      given.configuredAttempts = some 10 ∧ given.maxThreads = some 1)
    (hd : Describes s.strategy.cmd s.strategy.stats (quickHistory q start)) (hl : (quickHistory q start).length = 10)
    {target : Path} {fs₀ : Files} {fates : ℕ → Fate} {w : QuickWorld} (hw : w.machine = ⟨startingWith fs₀ fates, []⟩) :
    Does errFaults (quickTexts q out target) (fun m m' => m = ⟨startingWith fs₀ fates, []⟩ → quickStored q start target fs₀ m')
      (quickPersist faults errFaults q target s (quickState q start 10)) w fun r w' => r = 0 ∧
        w'.out.text = w.out.text ++ (ascii "Writing to file " ++ (target ++ (ascii "\n" ++ (ascii "Reading from file " ++
          (target ++ (ascii "\n" ++ (ascii "wrote and verified " ++ (target ++ (ascii " with " ++
          (decimalInt (q.host.summary (quickState q start 10)).N3 ++ ascii " finite simplices\n")))))))))) ∧
        (∃ text, QuickManifest q start text ∧
          Holding target fs₀ (some text) (some (quickPayload q start)) w'.machine.disk.fs) ∧
        ∃ t, readFile q.host.codec q.host.text target w'.machine.disk.fs = .ok t ∧ q.tdsValid t = true ∧
          SameCounts q t (quickState q start 10) := by
  unfold quickPersist
  refine Does.lift.bind (fun _ h => h ▸ quickStored_init) fun md w1 _ _ hr => ?_
  obtain ⟨hmd, rfl⟩ := hr
  refine (write_does (texts := quickTexts q out target) hs hg hd hl hmd hw).next (f₂ := Eq) (fun _ _ h => h) (fun a b c h e => e ▸ h)
    fun _ w2 _ _ h2 => ?_
  obtain ⟨k1, -, k2⟩ := h2
  unfold Quick.read
  refine (Does.print.bind (Q := _) (files := Eq) (R := fun t w' => w'.out.text = w2.out.text ++ format "Reading from file {}\n" [target] ∧
      w'.machine = w2.machine ∧ readFile q.host.codec q.host.text target w2.machine.disk.fs = .ok t) (fun _ => rfl)
      fun _ w3 _ h3 h4 => ?_).bind (fun _ => rfl) fun t w4 _ _ h4 => ?_
  · unfold Does
    have := Does.lift (errFaults := errFaults) (texts := quickTexts q out target) (w := w3)
      (x := readFile q.host.codec q.host.text target w3.machine.disk.fs)
    refine this.mono ?_
    rintro t w' - - ⟨e1, rfl⟩
    exact ⟨h4, h3, h3 ▸ e1⟩
  obtain ⟨h5, h6, h7⟩ := h4
  refine (Does.insist (fun h => ?_)).bind (fun _ => rfl) fun _ w5 _ _ k5 => ?_
  · rw [roundTripLine_eq]
    refine ⟨start, hb, .roundTrip t (by rw [h6]; exact h7) ?_⟩
    simp only [Bool.not_eq_false', Bool.or_eq_true, Bool.not_eq_true'] at h
    rcases h with h | h
    · exact .inl h
    · exact .inr fun hc => by rw [sameFiniteCounts_iff.2 hc] at h; cases h
  obtain ⟨k5, rfl⟩ := k5
  refine Does.print.bind (fun _ => rfl) fun _ w6 _ k6 k7 => ?_
  refine .pure (fun _ => rfl) ⟨rfl, ?_, ?_, t, ?_, ?_⟩
  · rw [k7, h5, k1, format_eq "Reading from file {}\n" ["Reading from file ", "\n"] _ (by decide +kernel) rfl,
      format_eq _ ["wrote and verified ", " with ", " finite simplices\n"] _ (by decide +kernel) rfl]
    simp [sentence]
  · rw [k6, h6]; exact k2
  · rw [k6, h6]; exact h7
  · simp only [Bool.not_eq_true', Bool.or_eq_false_iff, Bool.not_eq_false'] at k5
    exact ⟨k5.1, sameFiniteCounts_iff.1 k5.2⟩

/-- What the files may be when the program stops. -/
def quickLeft (q : QuickHost M S P T) (out : Outside M S) (target : Path) (fs₀ : Files) (fates : ℕ → Fate) (m m' : Machine) :
    Prop :=
  m = ⟨startingWith fs₀ fates, []⟩ → m' = m ∨ ∃ start, QuickBuilt q out start ∧ quickStored q start target fs₀ m'

theorem quickBody_does {args : List Bytes} (ha : args.length ≤ 1) {fs₀ : Files} {fates : ℕ → Fate} :
    Does errFaults (quickTexts q out (quickTarget args)) (quickLeft q out (quickTarget args) fs₀ fates)
      (quickBody faults errFaults q out args) ⟨⟨startingWith fs₀ fates, []⟩, {}, {}⟩ fun r w' => r = 0 ∧
      ∃ start cmd st, QuickBuilt q out start ∧ q.correct start = true ∧ q.correct (quickState q start 10) = true ∧
        1 / 2 < q.alpha ∧ (quickHistory q start).length = 10 ∧ Describes cmd st (quickHistory q start) ∧
        w'.out.text = quickTranscript q start (quickTarget args) cmd st ∧
        (∃ text, QuickManifest q start text ∧
          Holding (quickTarget args) fs₀ (some text) (some (quickPayload q start)) w'.machine.disk.fs) ∧
        ∃ t, readFile q.host.codec q.host.text (quickTarget args) w'.machine.disk.fs = .ok t ∧ q.tdsValid t = true ∧
          SameCounts q t (quickState q start 10) := by
  have key : quickBody faults errFaults q out args = (do
      let x ← quickStart faults errFaults q out
      let y ← quickEvolve faults errFaults q x.1 x.2
      quickPersist faults errFaults q (quickTarget args) y.1 y.2) := by
    match args, ha with
    | [], _ => rfl
    | [_], _ => rfl
  rw [key]
  refine (quickStart_does _).bind (fun _ _ => .inl rfl) fun x w1 e1 m1 h1 => ?_
  obtain ⟨cfg, start⟩ := x
  obtain ⟨rfl, hb, hc, hα, t1⟩ := h1
  dsimp only
  refine (quickEvolve_does hb hc w1).bind (fun _ _ => .inl rfl) fun x w2 e2 m2 h2 => ?_
  obtain ⟨s, evolved⟩ := x
  obtain ⟨⟨given, hs, hg⟩, he, hd, hl, hc', t2⟩ := h2
  dsimp only at he hs hd hc' t2 ⊢
  subst he
  have hw : w2.machine = ⟨startingWith fs₀ fates, []⟩ := m2.trans m1
  refine ((quickPersist_does (errFaults := errFaults) (faults := faults) (target := quickTarget args) hb hs hg hd hl hw).refile
    fun m hm => ?_).mono ?_
  · exact fun h => .inr ⟨start, hb, hm h⟩
  · rintro r w3 - - ⟨rfl, h1, h2, h3⟩
    refine ⟨rfl, start, s.strategy.cmd, s.strategy.stats, hb, hc, hc', hα, hl, hd, ?_, h2, h3⟩
    rw [h1, t2, t1]
    unfold quickTranscript
    simp

end CDT

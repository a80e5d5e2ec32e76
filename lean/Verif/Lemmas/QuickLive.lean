import Verif.Lemmas.Quickstart
import Verif.Lemmas.SamplerLive
import Verif.Props.Storage
import Verif.Props.Sampler
import Verif.Props.Metadata
/-
The quickstart program reaches its end.
-/
namespace CDT
open Spec

variable {M S P T : Type} {α β : Type}

namespace Quick

/-- A part of the program goes on. -/
def Goes (x : Quick α) (w : QuickWorld) : Prop := ∃ a w', x w = (.ok a, w')

variable {errFaults faults : PrintFaults} {texts : Machine → Bytes → Prop} {files : Machine → Machine → Prop} {w : QuickWorld}

theorem Goes.bind {x : Quick α} {f : α → Quick β} (h : Goes x w) (hf : ∀ a w', x w = (.ok a, w') → Goes (f a) w') :
    Goes (x >>= f) w := by
  obtain ⟨a, w', h⟩ := h
  obtain ⟨b, w'', h'⟩ := hf a w' h
  refine ⟨b, w'', ?_⟩
  have e : (x >>= f) w = match x w with | (.error e, w') => (.error e, w') | (.ok a, w') => f a w' := rfl
  rw [e, h]
  exact h'

theorem bind_ok_run {x : Quick α} {f : α → Quick β} {a : α} {w' : QuickWorld} (h : x w = (.ok a, w')) :
    (x >>= f) w = f a w' := by
  have e : (x >>= f) w = match x w with | (.error e, w') => (.error e, w') | (.ok a, w') => f a w' := rfl
  rw [e, h]

theorem Does.spec {x : Quick α} {Q : α → QuickWorld → Prop} (h : Does errFaults texts files x w Q) {a : α} {w' : QuickWorld}
    (hx : x w = (.ok a, w')) : w'.err = w.err ∧ files w.machine w'.machine ∧ Q a w' := by
  unfold Does at h
  rw [hx] at h
  exact h

theorem Goes.pure {a : α} : Goes (Pure.pure a) w := ⟨_, _, rfl⟩

theorem Goes.lift {x : Except Exc α} (h : ∃ a, x = .ok a) : Goes (Quick.lift x) w := by
  obtain ⟨a, rfl⟩ := h
  exact ⟨_, _, rfl⟩

theorem lift_ok {x : Except Exc α} {a : α} {w' : QuickWorld} (h : Quick.lift x w = (.ok a, w')) : x = .ok a ∧ w' = w := by
  unfold Quick.lift at h
  cases x with
  | error e => cases h
  | ok b => cases h; exact ⟨rfl, rfl⟩

theorem Goes.print {text : Bytes} (h : ∀ n, faults n = none) : Goes (Quick.print faults text) w := by
  unfold Goes Quick.print say
  rw [h]
  exact ⟨_, _, rfl⟩

theorem Goes.printAll (h : ∀ n, faults n = none) : ∀ (ts : List Bytes) {w : QuickWorld}, Goes (Quick.printAll faults ts) w
  | [], _ => .pure
  | _ :: ts, _ => (Goes.print h).bind fun _ _ _ => Goes.printAll h ts

theorem Goes.insist {fine : Bool} {text : Bytes} (h : fine = true) : Goes (Quick.insist errFaults fine text) w := by
  subst h
  exact .pure

end Quick
open Quick

variable {q : QuickHost M S P T} {out : Outside M S} {faults errFaults : PrintFaults}

theorem proposals_go (hp : ∀ n, faults n = none) : ∀ (n idx : ℕ) (s : Sampler S) (m : M) (w : QuickWorld),
    (∀ j < n, ∃ r, (sampleTransition (q.host.engine s.parameters)
      ⟨(trajectory (q.host.engine s.parameters) j (m, s.strategy.gen)).1, {}, {},
        (trajectory (q.host.engine s.parameters) j (m, s.strategy.gen)).2⟩).1 = .ok r) →
    Goes (proposals faults errFaults q n idx (s, m)) w
  | 0, idx, s, m, w, _ => .pure
  | n + 1, idx, s, m, w, h => by
    unfold proposals
    obtain ⟨r, hr⟩ := h 0 (by omega)
    rcases hs : sampleTransition (q.host.engine s.parameters) ⟨m, s.strategy.cmd, s.strategy.stats, s.strategy.gen⟩ with ⟨r', v⟩
    have : r' = .ok r := by
      rw [← hr, ← show (sampleTransition (q.host.engine s.parameters)
        ⟨m, s.strategy.cmd, s.strategy.stats, s.strategy.gen⟩).1 = r' by rw [hs]]
      exact sample_result _ _ _ rfl rfl
    subst this
    have hsamp : s.sample q.host m = .ok (r, { s with strategy := { s.strategy with cmd := v.cmd, stats := v.stats, gen := v.gen } },
        v.current) := by unfold Sampler.sample; rw [hs]
    refine (Goes.lift ⟨_, hsamp⟩).bind fun x w1 hx => ?_
    obtain ⟨hx, rfl⟩ := lift_ok hx
    rw [hsamp] at hx
    cases hx
    dsimp only
    refine (Goes.insist (accepted_successful _)).bind fun _ _ _ => ?_
    refine (Goes.print hp).bind fun _ w2 _ => ?_
    have ha := Props.sample_advance _ _ hs
    dsimp only at ha
    refine proposals_go hp n _ _ _ _ fun j hj => ?_
    dsimp only
    rw [ha, ← Props.trajectory_succ]
    exact h (j + 1) (by omega)

/-- What makes the program succeed. -/
structure QuickSmooth (q : QuickHost M S P T) (isDouble isLong : LD → Prop) (start : M) : Prop where
  config : ∃ cfg, quickConfig q = .ok cfg
  correct : q.correct start = true
  fingerprint : ∃ f, topologyFingerprint (q.host.codec.view (q.host.snapshot start)) = .ok f
  transitions : ∀ j < 10, ∃ r, (sampleTransition (quickEngine q)
      ⟨(trajectory (quickEngine q) j (quickOrigin q start)).1, {}, {},
        (trajectory (quickEngine q) j (quickOrigin q start)).2⟩).1 = .ok r
  evolved : q.correct (quickState q start 10) = true
  storable : Storable q.host isDouble (quickState q start 10)
  countable : Countable q.host (quickState q start 10)
  couplings : isLong (.fin q.alpha) ∧ isLong (.fin q.k) ∧ isLong (.fin q.lambda)
  valid : q.tdsValid (q.host.snapshot (quickState q start 10)) = true
  counts : SameCounts q (q.host.snapshot (quickState q start 10)) (quickState q start 10)

theorem quickSampler_total {start : M} (hf : ∃ f, topologyFingerprint (q.host.codec.view (q.host.snapshot start)) = .ok f)
    (hα : 1 / 2 < q.alpha) : ∃ s, quickSampler q (Random.make q.host.pcg 92 initializationStream)
      ⟨⟨.spherical, 64, 3, 3, .fin 1, .fin 1, 92, 1⟩, .fin q.alpha, .fin q.k, .fin q.lambda, 1, 1, false⟩
      initializationStream start = .ok s := by
  obtain ⟨f, hf⟩ := hf
  have hmd : ∃ md, makeMetadata q.host start 92 .initialTriangulation = .ok md := by
    unfold makeMetadata
    simp only [hf]
    exact ⟨_, rfl⟩
  obtain ⟨md, hmd⟩ := hmd
  unfold quickSampler
  simp only [hmd]
  exact (Props.C90_constructor (quickArgs q _)).1.2 ⟨⟨_, _, _, rfl, rfl, rfl, hα⟩, by simp [quickArgs], by simp [quickArgs]⟩

theorem quickBody_goes {isDouble isLong : LD → Prop} (hft : FloatTextLawful q.host.text isDouble isLong)
    (hbuild : BuildLegible q.host.build) {start : M} (hb : QuickBuilt q out start) (h : QuickSmooth q isDouble isLong start)
    (hp : ∀ n, faults n = none) {args : List Bytes} (ha : args.length ≤ 1) {fs₀ : Files} {fates : ℕ → Fate}
    (hd : NoFaults fates) :
    Goes (quickBody faults errFaults q out args) ⟨⟨startingWith fs₀ fates, []⟩, {}, {}⟩ := by
  have key : quickBody faults errFaults q out args = (do
      let x ← quickStart faults errFaults q out
      let y ← quickEvolve faults errFaults q x.1 x.2
      quickPersist faults errFaults q (quickTarget args) y.1 y.2) := by
    match args, ha with
    | [], _ => rfl
    | [_], _ => rfl
  rw [key]
  refine Goes.bind ?_ fun x w1 hx => ?_
  · unfold quickStart
    refine (Goes.lift h.config).bind fun cfg w1 hx => ?_
    obtain ⟨hc, rfl⟩ := lift_ok hx
    obtain ⟨rfl, hα⟩ := quickConfig_ok hc
    refine (Goes.printAll hp _).bind fun _ w2 _ => ?_
    refine (Goes.lift ⟨start, hb⟩).bind fun st w3 hx => ?_
    obtain ⟨hb', rfl⟩ := lift_ok hx
    have : start = st := Except.ok.inj (hb.symm.trans hb')
    subst this
    exact (Goes.insist h.correct).bind fun _ _ _ => .pure
  obtain ⟨e1, m1, h1⟩ := (quickStart_does (target := []) (faults := faults) (errFaults := errFaults) _).spec hx
  obtain ⟨cfg, st⟩ := x
  obtain ⟨rfl, hb', hc, hα, t1⟩ := h1
  dsimp only at hb' hc ⊢
  have : start = st := Except.ok.inj (hb.symm.trans hb')
  subst this
  refine Goes.bind ?_ fun x w2 hx => ?_
  · unfold quickEvolve
    refine (Goes.lift (quickSampler_total h.fingerprint hα)).bind fun s w2 hx => ?_
    obtain ⟨hs, rfl⟩ := lift_ok hx
    obtain ⟨given, k1, k2, k3, k4, k5⟩ := quickSampler_ok hs
    refine (Goes.print hp).bind fun _ w3 _ => ?_
    have hgo : ∀ j < 10, ∃ r, (sampleTransition (q.host.engine s.parameters)
      ⟨(trajectory (q.host.engine s.parameters) j (start, s.strategy.gen)).1, {}, {},
        (trajectory (q.host.engine s.parameters) j (start, s.strategy.gen)).2⟩).1 = .ok r := by
      rw [k1.parameters, k2]
      exact h.transitions
    refine (proposals_go hp _ _ _ _ _ hgo).bind fun x w4 hx => ?_
    obtain ⟨-, -, ⟨cmd, stats, gen, p1⟩, p2, p3, p4, -⟩ := (proposals_does (texts := fun _ _ => True) _ _ _ _ _).spec hx
    obtain ⟨s', m'⟩ := x
    dsimp only at p1 p2 p3 p4 ⊢
    rw [k1.parameters, k2] at p2 p3 p4
    have hm : m' = quickState q start 10 := congrArg Prod.fst p2
    subst hm
    have hdesc := p4 [] (by
      rw [k3, k4]
      exact ⟨⟨fun m => by cases m <;> rfl, fun m => by cases m <;> rfl, fun m => by cases m <;> rfl⟩, describesStats_nil _⟩)
    rw [List.nil_append] at hdesc
    refine (Goes.printAll hp _).bind fun _ w5 _ => ?_
    refine (Goes.insist (by rw [hc, h.evolved]; rfl)).bind fun _ _ _ => ?_
    exact (Goes.insist (summary_consistent hdesc p3)).bind fun _ _ _ => .pure
  obtain ⟨e2, m2, h2⟩ := (quickEvolve_does (target := []) (faults := faults) (errFaults := errFaults) hb hc w1).spec hx
  obtain ⟨s, ev⟩ := x
  obtain ⟨⟨given, hs, hg⟩, he, hdesc, hl, hc', -⟩ := h2
  dsimp only at he hs hdesc hc' ⊢
  subst he
  have hw : w2.machine = ⟨startingWith fs₀ fates, []⟩ := m2.symm.trans m1.symm
  unfold quickPersist
  obtain ⟨f, hf⟩ := h.storable.fingerprint
  have hmd : ∃ md, s.published q.host (quickState q start 10) .finalTriangulation 0 = .ok md := by
    unfold Sampler.published Sampler.metadata updateState
    simp only [hf]
    exact ⟨_, rfl⟩
  refine (Goes.lift hmd).bind fun md w3 hx => ?_
  obtain ⟨hmd, rfl⟩ := lift_ok hx
  obtain ⟨md', hres⟩ := reconcile_total (codec := q.host.codec) md hf h.storable.counts.1 h.storable.counts.2.1
    h.storable.counts.2.2.1 h.storable.counts.2.2.2
  obtain ⟨-, -, -, h4⟩ := sampled_metadata hs hmd
  obtain ⟨lo, hi, f', l1, l2, rfl⟩ := h4 md' _ hres hdesc.2
  obtain ⟨g1, g2, g3, g4, g5⟩ := hg
  obtain ⟨f1, f2, f3⟩ := sampledRecord_fits (a := quickArgs q given) (isLong := isLong) (kind := .finalTriangulation)
    (p := 0) hs.accepted h.couplings (by simp [quickArgs]) (by
      rintro g ⟨rfl⟩
      refine ⟨by rw [g1]; norm_num, by rw [g2]; norm_num, by rw [g3]; norm_num, fun n hn => ?_, fun n hn => ?_⟩
      · rw [g4] at hn; cases hn; norm_num
      · rw [g5] at hn; cases hn; norm_num) h.storable h.countable le_rfl (by simp [quickArgs])
    (by rw [hl]; norm_num) (f := f') l1
  obtain ⟨d', hd'⟩ := writePayload_manifest_ok (dest := quickTarget args) h.storable.faithful h.storable.labels hres
    (Props.C53_round_trip hft hbuild f1 f2 f3) (d := startingWith fs₀ fates) hd
  refine Goes.bind ?_ fun _ w4 hx => ?_
  · unfold Quick.write
    refine (Goes.print hp).bind fun _ w4 hx => ?_
    obtain ⟨-, hm4, -⟩ := (Does.print (errFaults := errFaults) (texts := fun _ _ => True)).spec hx
    unfold Goes writeTo
    dsimp only
    rw [← hm4, hw]
    dsimp only
    rw [hd']
    exact ⟨_, _, rfl⟩
  obtain ⟨-, -, -, hwp, -⟩ := (write_does (errFaults := errFaults) (texts := fun _ _ => True) hs ⟨g1, g2, g3, g4, g5⟩ hdesc hl hmd hw).spec hx
  have hread := Props.C60_read_back h.storable.faithful h.storable.labels fs₀ fates (some md) hwp (fun h => by cases h)
  have hreadGoes : ∀ {γ : Type} (k : T → Quick γ), (∀ t w5, t = q.host.snapshot (quickState q start 10) → Goes (k t) w5) →
      Goes (Quick.read faults q (quickTarget args) >>= k) w4 := by
    intro γ k hk
    refine Goes.bind ?_ fun t w5 hx => ?_
    · unfold Quick.read
      refine (Goes.print hp).bind fun _ w5 hx => ?_
      obtain ⟨-, hm5, -⟩ := (Does.print (errFaults := errFaults) (texts := fun _ _ => True)).spec hx
      exact Goes.lift ⟨_, by rw [← hm5]; exact hread⟩
    · refine hk t w5 ?_
      unfold Quick.read at hx
      obtain ⟨u, w6, hy⟩ : Goes (Quick.print faults (format "Reading from file {}\n" [quickTarget args])) w4 := Goes.print hp
      obtain ⟨-, hm6, -⟩ := (Does.print (errFaults := errFaults) (texts := fun _ _ => True)).spec hy
      have hx' : Quick.lift (readFile q.host.codec q.host.text (quickTarget args) w6.machine.disk.fs) w6 = (.ok t, w5) :=
        (bind_ok_run (f := fun _ w => Quick.lift (readFile q.host.codec q.host.text (quickTarget args) w.machine.disk.fs) w)
          hy).symm.trans hx
      rw [← hm6, hread] at hx'
      cases hx'
      rfl
  refine hreadGoes _ fun t w5 ht => ?_
  subst ht
  refine (Goes.insist (by rw [h.valid, sameFiniteCounts_iff.2 h.counts]; rfl)).bind fun _ _ _ => ?_
  exact (Goes.print hp).bind fun _ _ _ => .pure

end CDT

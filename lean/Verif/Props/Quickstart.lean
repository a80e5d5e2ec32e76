/-
C103: the quickstart program.
-/
import Verif.Spec.Quickstart
import Verif.Lemmas.Quickstart
import Verif.Lemmas.QuickLive
import Verif.Props.TopologyRun
import Verif.Props.Session

namespace CDT.Props
open CDT Spec

section
variable {M S P T : Type} {faults errFaults : PrintFaults} {q : QuickHost M S P T} {out : Outside M S} {args : List Bytes}
  {fs₀ : Files} {fates : ℕ → Fate}

/-- C103: more than one argument is refused: no file is touched and nothing is printed on standard
output, the status is not 0, and with a working standard error the usage is printed there and the status
is 2. -/
theorem C103_usage (h : 2 ≤ args.length) (disk : Disk) :
    let r := quickMain faults errFaults q out args disk
    r.2.machine = ⟨disk, []⟩ ∧ r.2.out = {} ∧ r.1 ≠ .exits 0 ∧
      ((∀ n, errFaults n = none) → r.1 = .exits 2 ∧
        r.2.err.text = ascii "usage: " ++ q.argv0 ++ ascii " [output.off]\n") := by
  intro r
  have hr : r = quickMain faults errFaults q out args disk := rfl
  match args, h with
  | _ :: _ :: _, _ =>
    unfold quickMain quickBody Quick.giveUp at hr
    have e : format "usage: {} [output.off]\n" [q.argv0] = ascii "usage: " ++ q.argv0 ++ ascii " [output.off]\n" := by
      rw [format_eq _ ["usage: ", " [output.off]\n"] _ (by decide +kernel) rfl]
      simp [sentence]
    rw [e] at hr
    cases h0 : errFaults 0 with
    | none =>
      simp only [say, h0] at hr
      rw [hr]
      exact ⟨rfl, rfl, by simp, fun _ => ⟨rfl, by simp⟩⟩
    | some x =>
      refine ⟨?_, ?_, ?_, fun h => by rw [h] at h0; cases h0⟩
      all_goals
        simp only [say, h0] at hr
        rw [hr]
        clear hr r
        cases errFaults 1 <;> first | rfl | simp

theorem quickMain_cases (ha : args.length ≤ 1) :
    let r := quickMain faults errFaults q out args (startingWith fs₀ fates)
    quickLeft q out (quickTarget args) fs₀ fates ⟨startingWith fs₀ fates, []⟩ r.2.machine ∧
    ((r.1 = .exits 0 ∧ r.2.err = {} ∧ ∃ start cmd st, QuickBuilt q out start ∧ q.correct start = true ∧
        q.correct (quickState q start 10) = true ∧ 1 / 2 < q.alpha ∧ (quickHistory q start).length = 10 ∧
        Describes cmd st (quickHistory q start) ∧ r.2.out.text = quickTranscript q start (quickTarget args) cmd st ∧
        (∃ text, QuickManifest q start text ∧
          Holding (quickTarget args) fs₀ (some text) (some (quickPayload q start)) r.2.machine.disk.fs) ∧
        ∃ t, readFile q.host.codec q.host.text (quickTarget args) r.2.machine.disk.fs = .ok t ∧ q.tdsValid t = true ∧
          SameCounts q t (quickState q start 10)) ∨
      (r.1 = .exits 1 ∨ r.1 = .aborts) ∧ ((∀ n, errFaults n = none) → r.1 = .exits 1 ∧
        ((∃ e, r.2.err.text = ascii "quickstart failed: " ++ q.what e ++ ascii "\n") ∨
          ∃ start, QuickBuilt q out start ∧ QuickComplaint q start (quickTarget args) r.2.machine.disk.fs r.2.err.text))) := by
  intro r
  have hb := quickBody_does (faults := faults) (errFaults := errFaults) (q := q) (out := out) ha (fs₀ := fs₀) (fates := fates)
  have hr : r = quickMain faults errFaults q out args (startingWith fs₀ fates) := rfl
  unfold quickMain at hr
  unfold Quick.Does at hb
  rcases hx : quickBody faults errFaults q out args ⟨⟨startingWith fs₀ fates, []⟩, {}, {}⟩ with ⟨(e | status) | status, w⟩
  · rw [hx] at hb hr
    dsimp only at hb hr
    have e0 : format "quickstart failed: {}\n" [q.what e] = ascii "quickstart failed: " ++ q.what e ++ ascii "\n" := by
      rw [format_eq _ ["quickstart failed: ", "\n"] _ (by decide +kernel) rfl]
      simp [sentence]
    rw [e0] at hr
    have hm : r.2.machine = w.machine := by
      rw [hr]; rcases say errFaults _ w.err with ⟨_ | _, c⟩ <;> rfl
    refine ⟨hm ▸ hb.1, .inr ⟨?_, fun hn => ?_⟩⟩
    · rw [hr]; rcases say errFaults _ w.err with ⟨_ | _, c⟩
      · exact .inr rfl
      · exact .inl rfl
    · have hs : ∀ t c, say errFaults t c = (.ok (), ⟨c.text ++ t, c.calls + 1⟩) := fun t c => by simp only [say, hn]
      rw [hs] at hr
      obtain ⟨-, hw | ⟨t, -, -, k⟩⟩ := hb
      · rw [hr, hw]
        exact ⟨rfl, .inl ⟨e, by simp⟩⟩
      · rw [hs] at k; exact absurd rfl k
  · rw [hx] at hb hr
    dsimp only at hb hr
    obtain ⟨h1, rfl, t, ⟨start, h2, h3⟩, h4, h5⟩ := hb
    rw [hr]
    refine ⟨h1, .inr ⟨.inl rfl, fun hn => ⟨rfl, .inr ⟨start, h2, ?_⟩⟩⟩⟩
    rw [h4]
    simp only [say, hn]
    simpa using h3
  · rw [hx] at hb hr
    dsimp only at hb hr
    obtain ⟨h1, h2, rfl, h3⟩ := hb
    rw [hr]
    exact ⟨h2, .inl ⟨rfl, h1, h3⟩⟩

/-- C103: exit status 0 tells the truth.  The initial universe was built as documented and found correct;
ten transitions were made and the universe after them was found correct; standard output is exactly the
transcript of those ten transitions, with the counters of their history; nothing is on standard error;
the file named on the command line holds the universe after the tenth transition, beside a manifest whose
every field is the truth about it, no other file has changed, and reading the file back gives a valid
triangulation with the counts of that universe. -/
theorem C103_exit_zero_true (h : (quickMain faults errFaults q out args (startingWith fs₀ fates)).1 = .exits 0) :
    let w := (quickMain faults errFaults q out args (startingWith fs₀ fates)).2
    args.length ≤ 1 ∧ ∃ start cmd st, QuickBuilt q out start ∧ q.correct start = true ∧
      q.correct (quickState q start 10) = true ∧ 1 / 2 < q.alpha ∧ (quickHistory q start).length = 10 ∧
      Describes cmd st (quickHistory q start) ∧ w.out.text = quickTranscript q start (quickTarget args) cmd st ∧
      w.err.text = [] ∧
      (∃ text, QuickManifest q start text ∧
        Holding (quickTarget args) fs₀ (some text) (some (quickPayload q start)) w.machine.disk.fs) ∧
      ∃ t, readFile q.host.codec q.host.text (quickTarget args) w.machine.disk.fs = .ok t ∧ q.tdsValid t = true ∧
        SameCounts q t (quickState q start 10) := by
  intro w
  have ha : args.length ≤ 1 := by
    by_contra hc
    exact (C103_usage (by omega) _).2.2.1 h
  refine ⟨ha, ?_⟩
  obtain ⟨-, ⟨-, h0, start, cmd, st, h1, h2, h3, h4, h5, h6, h7, h8, h9⟩ | ⟨hc | hc, -⟩⟩ :=
    quickMain_cases (faults := faults) (errFaults := errFaults) (q := q) (out := out) (fs₀ := fs₀) (fates := fates) ha
  · exact ⟨start, cmd, st, h1, h2, h3, h4, h5, h6, h7, by rw [show w.err = {} from h0], h8, h9⟩
  · rw [hc] at h; simp at h
  · rw [hc] at h; simp at h

/-- C103: the other ends.  With at most one argument the program exits with 0 or 1, or is aborted because
the message about an exception cannot be printed; with a working standard error it is never aborted, and
exit status 1 comes with one message: the text of the exception, or that the initial universe or the
evolved one failed its validation (and it did), or that the stored one differs from what was read back
(and it does).  In particular the messages about an accepted transition without a candidate and about
inconsistent counters are never printed. -/
theorem C103_ends (ha : args.length ≤ 1) :
    let r := quickMain faults errFaults q out args (startingWith fs₀ fates)
    (r.1 = .exits 0 ∨ r.1 = .exits 1 ∨ r.1 = .aborts) ∧
    ((∀ n, errFaults n = none) → r.1 ≠ .aborts ∧ (r.1 = .exits 1 →
      (∃ e, r.2.err.text = ascii "quickstart failed: " ++ q.what e ++ ascii "\n") ∨
        ∃ start, QuickBuilt q out start ∧ QuickComplaint q start (quickTarget args) r.2.machine.disk.fs r.2.err.text)) := by
  intro r
  obtain ⟨-, ⟨h0, -⟩ | ⟨h1, h2⟩⟩ :=
    quickMain_cases (faults := faults) (errFaults := errFaults) (q := q) (out := out) (fs₀ := fs₀) (fates := fates) ha
  · exact ⟨.inl h0, fun _ => ⟨by rw [h0]; simp, fun h => by rw [h0] at h; simp at h⟩⟩
  · exact ⟨h1.elim (fun h => .inr (.inl h)) fun h => .inr (.inr h), fun hn => ⟨by rw [(h2 hn).1]; simp, fun _ => (h2 hn).2⟩⟩

/-- C103: at every moment (after any crash, and when the program ends however it does) the files are as
before, or the artifact is one of the stages of writing the universe after the tenth transition: the new
manifest beside the old file, or both. -/
theorem C103_files :
    let w := (quickMain faults errFaults q out args (startingWith fs₀ fates)).2
    ∀ s ∈ w.machine.disk.fs :: w.machine.disk.visible,
      s = fs₀ ∨ ∃ start, QuickBuilt q out start ∧ QuickFiles q start (quickTarget args) fs₀ s := by
  intro w s hs
  have init : ∀ s ∈ (startingWith fs₀ fates).fs :: (startingWith fs₀ fates).visible, s = fs₀ := by
    simp [startingWith]
  rcases (by omega : args.length ≤ 1 ∨ 2 ≤ args.length) with ha | ha
  · obtain ⟨h, -⟩ :=
      quickMain_cases (faults := faults) (errFaults := errFaults) (q := q) (out := out) (fs₀ := fs₀) (fates := fates) ha
    rcases h rfl with h | ⟨start, hb, h1, h2⟩
    · change w.machine = _ at h
      rw [h] at hs
      exact .inl (init s hs)
    · rcases List.mem_cons.1 hs with rfl | hs
      · exact .inr ⟨start, hb, h2⟩
      · exact .inr ⟨start, hb, h1 s hs⟩
  · have h : w.machine = _ := (C103_usage (faults := faults) (errFaults := errFaults) (q := q) (out := out) ha (startingWith fs₀ fates)).1
    rw [h] at hs
    exact .inl (init s hs)

end

open Moves
variable {V S T : Type} [LinearOrder V]

/-- What is asked of the parts of the program that are not modelled: the library is the assembled one;
`is_correct_with_diagnostics` answers as the structural test does (C77); trial values lie in [0, 1]; the
literals are long doubles, and `0.6L` is more than one half. -/
structure OrdinaryQuick (q : QuickHost (Mfld V) S Mp T) (base : Host (Mfld V) S Mp T) (env : Env V (Random S)) (R : Rounding)
    (drawMove : Random S → Fin 5 × Random S) (drawTrial : Random S → LD × Random S) (value : BitVec 64 → ℚ)
    (snapshot : Tri V → T) : Prop where
  host : q.host = assembled base env R drawMove drawTrial value snapshot
  correct : ∀ m : Mfld V, q.correct m = isStructurallyCorrect m.tri m.caches
  lawful : env.Lawful
  rounding : R.Lawful
  trial : ∀ g, ∃ u : ℚ, (drawTrial g).1 = .fin u ∧ 0 ≤ u ∧ u ≤ 1
  alpha : 1 / 2 < q.alpha
  literals : InLongDouble q.alpha ∧ InLongDouble q.k ∧ InLongDouble q.lambda

theorem fit_correct {G : Type} {env : Env V G} (hl : env.Lawful) {m : Mfld V} (h : Fit env m) :
    isStructurallyCorrect m.tri m.caches = true := by
  refine (isStructurallyCorrect_iff hl h.caches).2 ⟨h.sound.closed, fun c hc => ?_⟩
  obtain ⟨h1, h2⟩ := Finset.mem_filter.1 hc
  exact (typeCorrect_iff (h.sound.closed.1 c h1)).2 (h.sound.labels c h1 h2)

variable {q : QuickHost (Mfld V) S Mp T} {base : Host (Mfld V) S Mp T} {env : Env V (Random S)} {R : Rounding}
  {drawMove : Random S → Fin 5 × Random S} {drawTrial : Random S → LD × Random S} {value : BitVec 64 → ℚ}
  {snapshot : Tri V → T} {out : Outside (Mfld V) S} {faults errFaults : PrintFaults} {args : List Bytes}
  {fs₀ : Files} {fates : ℕ → Fate}

theorem depicted_n0 {K : Tri V} {t : Stored} (hd : Depicts t K) : t.nv = K.finiteVerts.card := by
  obtain ⟨vertex, cell, hinj, -, hv, -⟩ := hd
  have h1 : (Finset.univ.image vertex) = K.finiteVerts := by
    ext v
    have := hv v
    simp only [Finset.mem_image, Finset.mem_univ, true_and]
    rw [this]
    rfl
  rw [← h1, Finset.card_image_of_injective _ hinj, Finset.card_univ, Fintype.card_fin]

/-- C103: the program succeeds.  With the modelled components in place, if the configuration is feasible,
the initial universe is in order, the ten transitions meet no duplicate centroid and no counter near its
limit, the universe after them can be stored, CGAL counts its finite edges and facets and tests its
validity as they are, its last slice has a number that fits a manifest, and nothing fails from outside,
then the program exits with 0; the universe stored is reached from the initial one by moves, is in order,
and has its topology. -/
theorem C103_succeeds {isDouble isLong : LD → Prop} (hft : FloatTextLawful base.text isDouble isLong)
    (hbuild : BuildLegible base.build) (ho : OrdinaryQuick q base env R drawMove drawTrial value snapshot)
    (hcfg : ∃ cfg, quickConfig q = .ok cfg) {start : Mfld V} (hb : QuickBuilt q out start) (hs : Fit env start)
    (hfp : ∃ f, topologyFingerprint (base.codec.view (snapshot start.tri)) = .ok f)
    (ht : ∀ j < 10, TameState env (quickState q start j))
    (hst : Storable q.host isDouble (quickState q start 10))
    (hdep : Depicts (base.codec.view (snapshot (quickState q start 10).tri)) (quickState q start 10).tri)
    (hcgal : base.codec.edges (snapshot (quickState q start 10).tri) = (quickState q start 10).tri.finiteEdges.card ∧
      base.codec.facets (snapshot (quickState q start 10).tri) = (quickState q start 10).tri.finiteFacets.card ∧
      q.tdsValid (snapshot (quickState q start 10).tri) = (quickState q start 10).tri.isValid)
    (hlong : isLong (.fin q.alpha) ∧ isLong (.fin q.k) ∧ isLong (.fin q.lambda))
    (hmax : 0 ≤ start.caches.maxTime ∧ start.caches.maxTime < 2 ^ 31)
    (hp : ∀ n, faults n = none) (hd : NoFaults fates) (ha : args.length ≤ 1) :
    (quickMain faults errFaults q out args (startingWith fs₀ fates)).1 = .exits 0 ∧
    Next env start (quickState q start 10) ∧ SameTopology start.tri (quickState q start 10).tri := by
  have heng : quickEngine q = metroEngine env R ⟨.fin q.alpha, .fin q.k, .fin q.lambda⟩ drawMove drawTrial := by
    unfold quickEngine
    rw [ho.host]
    rfl
  obtain ⟨h1, h2⟩ := trajectory_next ho.lawful ho.rounding ho.alpha ho.literals.1 ho.literals.2.1 ho.literals.2.2 ho.trial heng
    (x := quickOrigin q start) hs (n := 10) fun j hj => ht j hj
  have hn : Next env start (quickState q start 10) := h1 10 le_rfl
  have hc : SameCounts q (q.host.snapshot (quickState q start 10)) (quickState q start 10) := by
    unfold SameCounts
    rw [ho.host]
    refine ⟨?_, ?_, ?_, ?_⟩
    · show ((base.codec.view (snapshot (quickState q start 10).tri)).nv : ℤ) = ((quickState q start 10).tri.finiteVerts.card : ℤ)
      rw [depicted_n0 hdep]
    · show (base.codec.edges (snapshot (quickState q start 10).tri) : ℤ) = _
      rw [hcgal.1]
      rfl
    · show (base.codec.facets (snapshot (quickState q start 10).tri) : ℤ) = _
      rw [hcgal.2.1]
      rfl
    · exact (depicted_n3 ho.lawful hn.fit hdep).symm
  have hsm : QuickSmooth q isDouble isLong start := by
    refine ⟨hcfg, by rw [ho.correct]; exact fit_correct ho.lawful hs, by rw [ho.host]; exact hfp, h2,
      by rw [ho.correct]; exact fit_correct ho.lawful hn.fit, hst, ⟨?_, ?_⟩, hlong, ?_, hc⟩
    · have := hst.counts.2.2.2
      rw [← hc.2.2.2]
      omega
    · rw [ho.host]
      show 0 ≤ (Mfld.caches _).maxTime ∧ (Mfld.caches _).maxTime < 2 ^ 31
      rw [(slices_bounds ho.lawful hs.caches hn.fit.caches hn.preserved.slices).1]
      exact hmax
    · rw [ho.host]
      show q.tdsValid (snapshot _) = true
      rw [hcgal.2.2]
      exact isValid_iff.2 hn.fit.sound.closed
  refine ⟨?_, hn, topology_of_next ho.lawful hs hn⟩
  obtain ⟨r, w, hr⟩ := quickBody_goes (out := out) (faults := faults) (errFaults := errFaults) (by rw [ho.host]; exact hft)
    (by rw [ho.host]; exact hbuild) hb hsm hp ha (fs₀ := fs₀) hd
  obtain ⟨-, -, rfl, -⟩ := (quickBody_does (faults := faults) (errFaults := errFaults) (q := q) (out := out) ha
    (fs₀ := fs₀) (fates := fates)).spec hr
  unfold quickMain
  rw [hr]


/-! ### Non-vacuity -/

namespace QuickExample
open CDT.Fixture WholeExample SimExample

/-- The octahedron with its flips; the literals are all 1. -/
noncomputable def octaQuick : QuickHost (Mfld ℕ) St Mp ((Fin 6 → ℤ) × (Fin 4 → ℤ)) where
  host := octaHost
  correct m := isStructurallyCorrect m.tri m.caches
  tdsValid _ := true
  alpha := 1
  k := 1
  lambda := 1
  building _ _ _ _ _ := [ascii "Generating universe...\n"]
  what _ := ascii "something"
  argv0 := ascii "cdt-quickstart"

theorem octa_quick : OrdinaryQuick octaQuick octaBase plainEnv .exact flipAlways trialZero (fun b => (b.toNat : ℚ))
    octaSnapshot where
  host := rfl
  correct _ := rfl
  lawful := plain_lawful
  rounding := exactLawful
  trial _ := ⟨0, rfl, le_rfl, by norm_num⟩
  alpha := by show (1 : ℚ) / 2 < 1; norm_num
  literals := ⟨inLongDouble_one, inLongDouble_one, inLongDouble_one⟩

-- C103: the program on the octahedron; its ten flips bring the octahedron back to where it was, the first
-- of them changes it, and the program exits with 0.
example : ∃ start : Mfld ℕ, QuickBuilt octaQuick (octaOutside start) start ∧ Fit plainEnv start ∧
    (∀ j < 10, TameState plainEnv (quickState octaQuick start j)) ∧
    (quickState octaQuick start 1).tri.cells ≠ start.tri.cells ∧
    (quickMain (fun _ => none) (fun _ => none) octaQuick (octaOutside start) [] (startingWith (fun _ => none) noFaults)).1 = .exits 0 := by
  have key : ((buildCaches plainEnv k44).toOption.map fun cs =>
      decide ((∀ k ∈ List.range 10,
          FreshCentroids plainEnv (flipOnce^[k] (⟨k44, cs, 1, 1⟩, Random.make toyPcg 92 1)).1.tri ∧
          Roomy (flipOnce^[k] (⟨k44, cs, 1, 1⟩, Random.make toyPcg 92 1)).1.geometry) ∧
        (flipOnce (⟨k44, cs, 1, 1⟩, Random.make toyPcg 92 1)).1.tri.cells ≠ k44.cells ∧
        (flipOnce^[10] (⟨k44, cs, 1, 1⟩, Random.make toyPcg 92 1)).1.tri.cells = k44.cells ∧
        (flipOnce^[10] (⟨k44, cs, 1, 1⟩, Random.make toyPcg 92 1)).1.tri.inf = k44.inf ∧
        (flipOnce^[10] (⟨k44, cs, 1, 1⟩, Random.make toyPcg 92 1)).1.tri.finiteEdges.card = 13 ∧
        (flipOnce^[10] (⟨k44, cs, 1, 1⟩, Random.make toyPcg 92 1)).1.tri.finiteFacets.card = 12 ∧
        0 ≤ cs.maxTime ∧ cs.maxTime < 2 ^ 31)) = some true := by decide +kernel
  cases hb : buildCaches plainEnv k44 with
  | error e => rw [hb] at key; simp [Except.toOption] at key
  | ok cs =>
    rw [hb] at key
    simp only [Except.toOption, Option.map_some, Option.some.injEq, decide_eq_true_eq] at key
    obtain ⟨h1, h3, h4, h5, h7, h8, h6⟩ := key
    simp only [List.mem_range] at h1
    have h44 : (⟨k44, cs, 1, 1⟩ : Mfld ℕ).tri = k44 := rfl
    have hsp : (⟨k44, cs, 1, 1⟩ : Mfld ℕ).radius = 1 ∧ (⟨k44, cs, 1, 1⟩ : Mfld ℕ).spacing = 1 := ⟨rfl, rfl⟩
    have hcs : (⟨k44, cs, 1, 1⟩ : Mfld ℕ).caches = cs := rfl
    have hfit : Fit plainEnv ⟨k44, cs, 1, 1⟩ :=
      ⟨⟨sound44.closed, sound44.labels, sound44.times, sound44.quiet⟩, hb⟩
    generalize (⟨k44, cs, 1, 1⟩ : Mfld ℕ) = start at *
    have hfl := flips (x := (start, Random.make toyPcg 92 1)) hfit 10 h1
    have hq : ∀ j ≤ 10, quickState octaQuick start j = (flipOnce^[j] (start, Random.make toyPcg 92 1)).1 :=
      fun j hj => congrArg Prod.fst (hfl j hj).1
    have hn := (hfl 10 le_rfl).2
    have ht : ∀ j < 10, TameState plainEnv (quickState octaQuick start j) := fun j hj => by
      rw [hq j (by omega)]; exact h1 j hj
    have hfit' : Fit plainEnv (quickState octaQuick start 10) := by rw [hq 10 le_rfl]; exact hn.fit
    refine ⟨start, rfl, hfit, ht, ?_, ?_⟩
    · rw [hq 1 (by omega), h44]
      exact h3
    · refine (C103_succeeds (isDouble := IntegralValue) (isLong := IntegralValue) integerText_lawful sampleBuild_legible octa_quick
        ⟨⟨⟨.spherical, 64, 3, 3, .fin 1, .fin 1, 92, 1⟩, .fin 1, .fin 1, .fin 1, 1, 1, false⟩,
          (by decide +kernel : (RuntimeConfig.makeTriangulation exactFloats false true false 64 3 3 (.fin 1) (.fin 1) 92 1 >>=
            (fun t => RuntimeConfig.makeSimulation t (.fin 1) (.fin 1) (.fin 1) 1 1 false)) = .ok _)⟩
        (out := octaOutside start) (args := []) (start := start) rfl hfit
        (C58_defined_without_coincidence fun i j h => Fin.ext (decimal_injective h)) ht ?_ ?_ ?_
        (by refine ⟨?_, ?_, ?_⟩ <;> (rintro q ⟨rfl⟩; simp only [IsInt32]; decide)) (by rw [hcs]; exact h6)
        (fun _ => rfl) noFaults_noFaults (by decide)).1
      · rw [hq 10 le_rfl]
        exact octa_storable hn.fit h5 h4 (hn.radius.trans hsp.1) (hn.spacing.trans hsp.2)
      · rw [hq 10 le_rfl]
        exact octa_depicts h5 h4
      · refine ⟨?_, ?_, (isValid_iff.2 hfit'.sound.closed).symm⟩
        · rw [hq 10 le_rfl, h7]; rfl
        · rw [hq 10 le_rfl, h8]; rfl

-- C103: more than one argument.
example : 2 ≤ ([ascii "a.off", ascii "b.off"] : List Bytes).length := by decide

end QuickExample

end CDT.Props

/-
C84, C85 for whole simulations: every published universe has the topology of the initial one.
-/
import Verif.Props.Topology
import Verif.Props.Whole

namespace CDT.Props
open CDT Spec Cavity Moves

variable {V S T : Type} [LinearOrder V]

/-- `K'` is connected with `K` by bistellar moves of the interior, and so is each of its slices. -/
structure SameTopology (K K' : Tri V) : Prop where
  inf : K'.inf = K.inf
  whole : PachnerEquivalent 3 K.inf (faces K.cells) (faces K'.cells)
  slices : ∀ t, PachnerEquivalent 2 K.inf (sliceAt K.inf K.time K.cells t) (sliceAt K'.inf K'.time K'.cells t)

theorem topology_of_next {G : Type} {env : Env V G} (hl : env.Lawful) {m m' : Mfld V} (hm : Fit env m) (h : Next env m m') :
    SameTopology m.tri m'.tri :=
  have h1 := C84_history hl hm.sound h.steps
  ⟨h1.1, h1.2, fun t => (C85_history hl hm.sound h.steps t).1⟩

/-- C84, C85: a Metropolis run.  The universe it returns has the topology of the one it was given. -/
theorem C84_run {G F : Type} {env : Env V G} (hl : env.Lawful) {R : Rounding} (hR : R.Lawful) {α κ Λ : ℚ} (hα : 1 / 2 < α)
    (ha : InLongDouble α) (hk : InLongDouble κ) (hL : InLongDouble Λ)
    (drawMove : G → Fin 5 × G) (drawTrial : G → LD × G)
    (htrial : ∀ g, ∃ u : ℚ, (drawTrial g).1 = .fin u ∧ 0 ≤ u ∧ u ≤ 1)
    (out : MetroOutput (Mfld V) G F) (hout : Harmless out) (s : MetroStrategy G) (m : Mfld V) (f : F)
    (hm : Fit env m)
    (hgood : ∀ k < passStart (metroEngine env R ⟨.fin α, .fin κ, .fin Λ⟩ drawMove drawTrial) (m, s.gen)
        s.cadence.passes.toNat,
      let n := (trajectory (metroEngine env R ⟨.fin α, .fin κ, .fin Λ⟩ drawMove drawTrial) k (m, s.gen)).1
      FreshCentroids env n.tri ∧ Roomy n.geometry) :
    ∃ m' s' f', s.run (metroEngine env R ⟨.fin α, .fin κ, .fin Λ⟩ drawMove drawTrial) out m f = (.ok m', s', f') ∧
      SameTopology m.tri m'.tri := by
  obtain ⟨m', s', f', h1, -, h2⟩ := C62_run_total hl hR hα ha hk hL drawMove drawTrial htrial out hout s m f hm hgood
  exact ⟨m', s', f', h1, topology_of_next hl hm h2⟩

variable {base : Host (Mfld V) S Mp T} {env : Env V (Random S)} {R : Rounding}
  {drawMove : Random S → Fin 5 × Random S} {drawTrial : Random S → LD × Random S} {value : BitVec 64 → ℚ}
  {snapshot : Tri V → T} {out : Outside (Mfld V) S} {o : Options} {cfg : SimConfig} {start : Mfld V}

/-- C84, C85: the program.  Every artifact it writes, checkpoints included, depicts a universe with
the topology of the initial one. -/
theorem C84_every_artifact (ho : Ordinary env R drawTrial o)
    (h : Launched (assembled base env R drawMove drawTrial value snapshot) out o cfg start) (hs : Fit env start)
    (ht : Tame env (assembled base env R drawMove drawTrial value snapshot) cfg start) (disk : Disk) :
    let host := assembled base env R drawMove drawTrial value snapshot
    let x := cdtMain host out (some o) disk
    ∃ done, done <+: duties cfg ∧
      List.Forall₂ (fun due a => Truthful host cfg start due a ∧
        SameTopology start.tri (stateAfter host cfg start due.1).tri) done x.2.log ∧
      (x.1 = 0 → done = duties cfg) := by
  obtain ⟨done, h1, h2, h3⟩ := C81_every_artifact ho h hs ht disk
  exact ⟨done, h1, h2.imp fun _ _ k => ⟨k.1, topology_of_next ho.lawful hs k.2⟩, h3⟩

end CDT.Props

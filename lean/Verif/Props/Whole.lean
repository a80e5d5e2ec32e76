/-
C81: the program `cdt` from the command line to its files, with the modelled components in place.
-/
import Verif.Spec.Whole
import Verif.Props.Simulation
import Verif.Props.Program
import Verif.Props.Repair
import Verif.Props.CausalVertices

namespace CDT.Props
open CDT Spec Moves

variable {V S T : Type} [LinearOrder V]

/-! ### The initial universe -/

theorem universe_parts {G : Type} {env : Env V G} {re : RepairEnv V} {ie : InsertEnv V} {F : Floats}
    {bits : LD → BitVec 64} {gen : ℕ → ℕ → V} {N T : ℤ} {I L : LD} {m : Mfld V}
    (h : buildUniverse env re ie F bits gen N T I L = .ok m) :
    m.radius = bits I ∧ m.spacing = bits L ∧ ∃ points D, makeFoliatedBall F N T I L gen = .ok points ∧
      delaunayState ie points = .ok D ∧ construct env (repairLoops env re D).tri = .ok (m.tri, m.caches) := by
  unfold buildUniverse makeTriangulation at h
  cases hp : makeFoliatedBall F N T I L gen with
  | error e => rw [hp] at h; cases h
  | ok points =>
    rw [hp] at h
    dsimp only at h
    cases hd : delaunayState ie points with
    | error e => rw [hd] at h; cases h
    | ok D =>
      rw [hd] at h
      dsimp only at h
      cases hc : construct env (repairLoops env re D).tri with
      | error e => rw [hc] at h; cases h
      | ok r =>
        obtain ⟨K, cs⟩ := r
        rw [hc] at h
        dsimp only at h
        cases h
        exact ⟨rfl, rfl, points, D, rfl, hd, hc⟩

theorem passes_inv {σ : Type} {P : σ → Prop} {fix : σ → Bool × σ} (h : ∀ s, P s → P (fix s).2) :
    ∀ (n : ℕ) (s : σ), P s → P (passes fix n s)
  | 0, _, hs => hs
  | n + 1, s, hs => by
    unfold passes
    split
    · exact passes_inv h n _ (h s hs)
    · exact h s hs

theorem wf_of_same {D : Del V} (hw : D.Wf) {K : Tri V} (hc : K.cells = D.tri.cells) (hi : K.inf = D.tri.inf) :
    Del.Wf { D with tri := K } := by
  refine ⟨?_, ?_, ?_⟩
  · show K.finiteVerts ⊆ _
    have : K.finiteVerts = D.tri.finiteVerts := by unfold Tri.finiteVerts Tri.verts; rw [hc, hi]
    rw [this]; exact hw.verts
  · show ∀ c ∈ K.cells, _
    rw [hc]; exact hw.card
  · show K.inf ∉ _
    rw [hi]; exact hw.inf

theorem repairLoops_wf {G : Type} {env : Env V G} (hl : env.Lawful) {re : RepairEnv V} (hr : re.Lawful) {D : Del V}
    (hw : D.Wf) : (repairLoops env re D).Wf := by
  have h1 : Del.Wf { D with tri := passes (fixVertices env re) maxFixPasses D.tri } := by
    have := passes_inv (P := fun K : Tri V => K.cells = D.tri.cells ∧ K.inf = D.tri.inf) (fix := fixVertices env re)
      (fun K hK => by
        obtain ⟨-, -, -, h4, h5, -⟩ := C37_fix_vertices (re := re) hl hr K
        exact ⟨h4.trans hK.1, h5.trans hK.2⟩) maxFixPasses D.tri ⟨rfl, rfl⟩
    exact wf_of_same hw this.1 this.2
  have h2 := passes_inv (P := Del.Wf) (fix := fixTimevalues env re) (fun E hE => by
    obtain ⟨a, b⟩ := C38_pass (re := re) hl hr hE
    by_cases hc : Causal E.tri.inf E.tri.time E.tri.cells
    · rw [a hc]; exact hE
    · exact (b hc).2.2.2.2) maxFixPasses _ h1
  show Del.Wf { passes (fixTimevalues env re) maxFixPasses _ with tri := _ }
  generalize passes (fixTimevalues env re) maxFixPasses _ = E at h2 ⊢
  have := passes_inv (P := fun K : Tri V => K.cells = E.tri.cells ∧ K.inf = E.tri.inf) (fix := fixCells env)
    (fun K hK => by
      obtain ⟨-, -, -, -, h4, h5, -⟩ := C37_fix_cells (K := K) hl (by rw [hK.1]; exact h2.card)
      exact ⟨h4.trans hK.1, h5.trans hK.2⟩) maxFixPasses E.tri ⟨rfl, rfl⟩
  exact wf_of_same h2 this.1 this.2

/-- The points span space: each is a corner of a finite tetrahedron. -/
def Fills (D : Del V) : Prop := ∀ v ∈ D.points, v ∈ vertices (finitePart D.tri.inf D.tri.cells)

/-- C81: the universe a program builds.  It has the requested radius and spacing; if CGAL's complex
is a closed one whose labels at infinity are quiet, the universe is in order exactly when its
tetrahedra are causal, and with at most 53 points that is the case. -/
theorem C81_initial_universe {G : Type} {env : Env V G} (hl : env.Lawful) {re : RepairEnv V} (hr : re.Lawful)
    {ie : InsertEnv V} (hi : ie.Lawful) {F : Floats} {bits : LD → BitVec 64} {gen : ℕ → ℕ → V} {N T : ℤ}
    {I L : LD} {m : Mfld V} (h : buildUniverse env re ie F bits gen N T I L = .ok m)
    (hcl : Closed m.tri.cells) (hq : QuietInfinity m.tri) :
    m.radius = bits I ∧ m.spacing = bits L ∧
    (Fit env m ↔ Causal m.tri.inf m.tri.time m.tri.cells) ∧
    ∀ points, makeFoliatedBall F N T I L gen = .ok points → Fills (ie.insert points) → points.length ≤ 53 → Fit env m := by
  obtain ⟨h1, h2, points, D, hp, hd, hc⟩ := universe_parts h
  have hD : D = ie.insert points ∧ D.points.card = points.length := by
    unfold delaunayState at hd
    dsimp only at hd
    split at hd
    · cases hd
    · rename_i hcard
      rw [not_not] at hcard
      cases hd
      exact ⟨rfl, hcard⟩
  have hw : D.Wf := by rw [hD.1]; exact hi.wf points
  have hwE := repairLoops_wf hl hr hw
  have hlab := C39_result_labels (re := re) hl hr hw
  have hsm := C39_small_partial (re := re) hl hr hw
  dsimp only at hlab hsm
  generalize repairLoops env re D = E at *
  obtain ⟨e, hb⟩ := construct_ok hc
  have hiff : Fit env m ↔ Causal m.tri.inf m.tri.time m.tri.cells := by
    constructor
    · exact fun hf => hf.sound.causal
    · intro hca
      refine ⟨⟨hcl, ?_, ?_, hq⟩, hb⟩
      · rw [e] at hcl hca ⊢
        exact makeManifold_labels (K := E.tri) hcl.1 hca
      · intro v _ hv
        rw [e] at hv ⊢
        exact makeManifold_time hv
  refine ⟨h1, h2, hiff, fun points' hp' hspan hn => hiff.2 ?_⟩
  rw [hp] at hp'
  cases hp'
  have hca := hsm (by rw [hD.2]; exact hn)
  obtain ⟨-, ht, -⟩ := hlab (by rw [hD.1]; exact hspan)
  rw [e]
  refine (causal_congr (K := E.tri.cells) (inf := E.tri.inf) (fun v hv hne => ?_)).1 hca
  rw [makeManifold_time hne]
  exact ht v (hwE.verts (mem_finiteVerts.2 ⟨hne, Cavity.mem_vertices.1 hv⟩))

/-! ### The run -/

/-- Along a trajectory of Metropolis transitions with the real components every manifold is in order
and no transition throws. -/
theorem trajectory_next {G : Type} {env : Env V G} (hl : env.Lawful) {R : Rounding} (hR : R.Lawful) {α κ Λ : ℚ}
    (hα : 1 / 2 < α) (ha : InLongDouble α) (hk : InLongDouble κ) (hL : InLongDouble Λ)
    {drawMove : G → Fin 5 × G} {drawTrial : G → LD × G}
    (htrial : ∀ g, ∃ u : ℚ, (drawTrial g).1 = .fin u ∧ 0 ≤ u ∧ u ≤ 1) {eng : MetroEngine (Mfld V) G Mp}
    (heng : eng = metroEngine env R ⟨.fin α, .fin κ, .fin Λ⟩ drawMove drawTrial) {x : Mfld V × G}
    (hm : Fit env x.1) {n : ℕ} (hgood : ∀ k < n, FreshCentroids env (trajectory eng k x).1.tri ∧
      Roomy (trajectory eng k x).1.geometry) :
    (∀ k ≤ n, Next env x.1 (trajectory eng k x).1) ∧
    ∀ k < n, ∃ r, (sampleTransition eng ⟨(trajectory eng k x).1, {}, {}, (trajectory eng k x).2⟩).1 = .ok r := by
  have hstep : ∀ w : MetroVars (Mfld V) G, Fit env w.current → FreshCentroids env w.current.tri →
      Roomy w.current.geometry → ∃ o w', sampleTransition eng w = (.ok o, w') ∧ Next env w.current w'.current := by
    intro w h1 h2 h3
    unfold sampleTransition
    have e1 : eng.drawMove = drawMove := by rw [heng]; rfl
    have e2 : eng.drawTrial = drawTrial := by rw [heng]; rfl
    rw [e1, e2]
    rcases drawMove w.gen with ⟨i, g1⟩
    dsimp only
    obtain ⟨u, hu, u0, u1⟩ := htrial g1
    rcases hd : drawTrial g1 with ⟨u', g2⟩
    rw [hd] at hu
    dsimp only at hu ⊢
    subst hu
    obtain ⟨o, w', hw, hn⟩ := C61_transition_total hl hR hα ha hk hL drawMove drawTrial (i.val : ℤ) u0 u1
      { w with gen := g2 } h1 h2 h3
    rw [← heng] at hw
    rw [hw]
    exact ⟨_, _, rfl, hn⟩
  have hfit : ∀ k ≤ n, Next env x.1 (trajectory eng k x).1 := by
    intro k
    induction k with
    | zero => intro _; exact .refl hm
    | succ k ih =>
      intro hk'
      have hn := ih (by omega)
      obtain ⟨g1, g2⟩ := hgood k (by omega)
      generalize hx : trajectory eng k x = y at *
      obtain ⟨o, w', hw, hnext⟩ := hstep ⟨y.1, {}, {}, y.2⟩ hn.fit g1 g2
      have hadv := sample_advance eng _ hw
      rw [trajectory_add eng k 1, hx]
      have : trajectory eng 1 y = (w'.current, w'.gen) := by rw [hadv]; rfl
      rw [this]
      exact hn.trans hnext
  refine ⟨hfit, fun k hk' => ?_⟩
  obtain ⟨g1, g2⟩ := hgood k hk'
  obtain ⟨o, w', hw, -⟩ := hstep ⟨(trajectory eng k x).1, {}, {}, (trajectory eng k x).2⟩ (hfit k hk'.le).fit g1 g2
  rw [hw]
  exact ⟨_, rfl⟩

theorem passStart_mono {M G P : Type} (eng : MetroEngine M G P) (x : M × G) {p q : ℕ} (h : p ≤ q) :
    passStart eng x p ≤ passStart eng x q := by
  induction q with
  | zero => have : p = 0 := by omega
            subst this; exact le_rfl
  | succ q ih =>
    rcases Nat.lt_or_ge q p with h' | h'
    · have : p = q + 1 := by omega
      subst this; exact le_rfl
    · exact (ih h').trans (Nat.le_add_right _ _)

/-- A manifold in order with counts away from the edge of the range has fewer than `2 ^ 32`
tetrahedra. -/
theorem n3_small {G : Type} {env : Env V G} (hl : env.Lawful) {m : Mfld V} (hm : Fit env m) (hr : Roomy m.geometry) :
    m.geometry.N3.toNat ≤ 2 ^ 32 := by
  have hg := geometry_census hl hm.sound.closed.1 hm.sound.correct hm.caches
  have hs := (isStructurallyCorrect_iff hl hm.caches).2 ⟨hm.sound.closed, hm.sound.correct⟩
  simp only [isStructurallyCorrect, hasConsistentStructure, Bool.and_eq_true, beq_iff_eq] at hs
  obtain ⟨_, _, hcs, _⟩ := buildCaches_ok hm.caches
  have hlen : m.caches.cells.length = m.tri.finiteCells.card := by rw [hcs, length_iter hl]
  have h1 := hr m.geometry.N3_22 (by simp)
  have h2 := hr m.geometry.N3_31_13 (by simp)
  have h3 := hs.1.1.1.1.2
  simp only [Mfld.geometry, geometryOf] at *
  omega

variable {base : Host (Mfld V) S Mp T} {env : Env V (Random S)} {R : Rounding}
  {drawMove : Random S → Fin 5 × Random S} {drawTrial : Random S → LD × Random S} {value : BitVec 64 → ℚ}
  {snapshot : Tri V → T} {out : Outside (Mfld V) S} {o : Options} {cfg : SimConfig} {start : Mfld V}

/-- What is asked of the parts of the program that are not modelled, and of the command line: the
generator draws trial values in [0, 1], the couplings are long doubles. -/
structure Ordinary (env : Env V (Random S)) (R : Rounding) (drawTrial : Random S → LD × Random S) (o : Options) : Prop where
  lawful : env.Lawful
  rounding : R.Lawful
  trial : ∀ g, ∃ u : ℚ, (drawTrial g).1 = .fin u ∧ 0 ≤ u ∧ u ≤ 1
  couplings : ∀ q : ℚ, o.alpha = some (.fin q) ∨ o.k = some (.fin q) ∨ o.lambda = some (.fin q) → InLongDouble q

theorem whole_trajectory (ho : Ordinary env R drawTrial o)
    (h : Launched (assembled base env R drawMove drawTrial value snapshot) out o cfg start) (hs : Fit env start)
    (ht : Tame env (assembled base env R drawMove drawTrial value snapshot) cfg start) :
    (∀ p, 0 ≤ p → p ≤ cfg.passes →
      Next env start (stateAfter (assembled base env R drawMove drawTrial value snapshot) cfg start p)) ∧
    (∀ j < transitionsAfter (assembled base env R drawMove drawTrial value snapshot) cfg start cfg.passes,
      let eng := engineOf (assembled base env R drawMove drawTrial value snapshot) cfg
      let x := trajectory eng j (origin (assembled base env R drawMove drawTrial value snapshot) cfg start)
      ∃ r, (sampleTransition eng ⟨x.1, {}, {}, x.2⟩).1 = .ok r) ∧
    transitionsAfter (assembled base env R drawMove drawTrial value snapshot) cfg start cfg.passes < 2 ^ 64 := by
  have hc := C66_configured_by h.config
  obtain ⟨ha1, a, ha2, ha⟩ := hc.alpha
  obtain ⟨hk1, k, hk2⟩ := hc.k
  obtain ⟨hl1, l, hl2⟩ := hc.lambda
  rw [ha2] at ha1; rw [hk2] at hk1; rw [hl2] at hl1
  generalize hh : assembled base env R drawMove drawTrial value snapshot = host at *
  have heng : engineOf host cfg = metroEngine env R ⟨.fin a, .fin k, .fin l⟩ drawMove drawTrial := by
    unfold engineOf
    rw [ha2, hk2, hl2, ← hh]
    rfl
  obtain ⟨h1, h2⟩ := trajectory_next ho.lawful ho.rounding ha (ho.couplings a (.inl ha1)) (ho.couplings k (.inr (.inl hk1)))
    (ho.couplings l (.inr (.inr hl1))) ho.trial heng (x := origin host cfg start) hs
    (n := transitionsAfter host cfg start cfg.passes) ht
  refine ⟨fun p p0 p1 => ?_, h2, ?_⟩
  · exact h1 _ (passStart_mono _ _ (by omega))
  · have key : ∀ p : ℕ, p ≤ cfg.passes.toNat → passStart (engineOf host cfg) (origin host cfg start) p ≤ p * 2 ^ 32 := by
      intro p
      induction p with
      | zero => intro _; exact Nat.zero_le _
      | succ p ih =>
        intro hp
        have hle := ih (by omega)
        show passStart (engineOf host cfg) (origin host cfg start) p + _ ≤ _
        have hmono := passStart_mono (engineOf host cfg) (origin host cfg start) (p := p + 1) (q := cfg.passes.toNat) hp
        change passStart (engineOf host cfg) (origin host cfg start) p + _ ≤ _ at hmono
        generalize hx : trajectory (engineOf host cfg) (passStart (engineOf host cfg) (origin host cfg start) p)
          (origin host cfg start) = x at *
        have hn : (engineOf host cfg).n3 x.1 = x.1.geometry.N3 := by rw [heng]; rfl
        by_cases h0 : ((engineOf host cfg).n3 x.1).toNat = 0
        · rw [h0]; rw [Nat.succ_mul]; exact hle.trans (Nat.le_add_right _ _)
        · have hlt : passStart (engineOf host cfg) (origin host cfg start) p < transitionsAfter host cfg start cfg.passes := by
            unfold transitionsAfter; omega
          have hfit := (h1 _ hlt.le).fit
          have hroom := (ht _ hlt).2
          rw [hx] at hfit hroom
          have := n3_small ho.lawful hfit hroom
          rw [hn, Nat.succ_mul]; exact Nat.add_le_add hle this
    have h3 := key cfg.passes.toNat le_rfl
    have h4 := hc.passes.2.2
    unfold transitionsAfter
    omega

omit [LinearOrder V] in
theorem duties_between (h : ConfiguredBy out o cfg) {due : ℤ × ArtifactKind} (hd : due ∈ duties cfg) :
    0 ≤ due.1 ∧ due.1 ≤ cfg.passes := by
  have hp := h.passes.2.1
  have hc := h.checkpoint.2.1
  unfold duties at hd
  split at hd
  · rw [List.mem_append] at hd
    rcases hd with hd | hd
    · unfold schedule at hd
      simp only [List.mem_map, List.mem_range] at hd
      obtain ⟨p, ⟨i, hi, rfl⟩, rfl⟩ := hd
      dsimp only
      have h1 : (i + 1) * cfg.checkpoint.toNat ≤ cfg.passes.toNat :=
        (Nat.mul_le_mul_right _ hi).trans (Nat.div_mul_le_self _ _)
      have h2 : ((i + 1 : ℕ) : ℤ) * (cfg.checkpoint.toNat : ℤ) = (((i + 1) * cfg.checkpoint.toNat : ℕ) : ℤ) := by push_cast; ring
      rw [h2]
      omega
    · simp only [List.mem_singleton] at hd
      subst hd
      exact ⟨by show 0 ≤ cfg.passes; omega, le_rfl⟩
  · cases hd

/-- C81: every artifact a run of `cdt` writes is the state after its pass, with the truth about it in
its manifest, and that state is in order: a closed complex of correctly labelled causal tetrahedra
with the boundary, the Euler characteristic, the slices, the radius and the spacing of the initial
universe.  A run that reports success has written all of them. -/
theorem C81_every_artifact (ho : Ordinary env R drawTrial o)
    (h : Launched (assembled base env R drawMove drawTrial value snapshot) out o cfg start) (hs : Fit env start)
    (ht : Tame env (assembled base env R drawMove drawTrial value snapshot) cfg start) (disk : Disk) :
    let host := assembled base env R drawMove drawTrial value snapshot
    let x := cdtMain host out (some o) disk
    ∃ done, done <+: duties cfg ∧
      List.Forall₂ (fun due a => Truthful host cfg start due a ∧ Next env start (stateAfter host cfg start due.1))
        done x.2.log ∧
      (x.1 = 0 → done = duties cfg) := by
  dsimp only
  have hw := (whole_trajectory ho h hs ht).1
  have hc := C66_configured_by h.config
  obtain ⟨done, h1, h2, h3⟩ := C64_provenance_true h disk
  refine ⟨done, h1, ?_, fun e => (h3 e).1⟩
  have hmem : ∀ due ∈ done, due ∈ duties cfg := h1.subset
  clear h1 h3
  generalize (cdtMain _ out (some o) disk).2.log = log at h2 ⊢
  induction h2 with
  | nil => exact .nil
  | cons a _ ih =>
    obtain ⟨p0, p1⟩ := duties_between hc (hmem _ (List.mem_cons_self ..))
    exact .cons ⟨a, hw _ p0 p1⟩ (ih fun d hd => hmem d (List.mem_cons_of_mem _ hd))

theorem causalFile_of {t : Stored} {K : Tri V} (hd : Depicts t K) {G : Type} {env : Env V G} (hs : Sound env K) :
    CausalFile t := by
  obtain ⟨vertex, cell, hv, -, -, hc, hcell, hvi, hci⟩ := hd
  intro c
  have hm := (hc (cell c)).1 ⟨c, rfl⟩
  rw [finitePart, Finset.mem_filter] at hm
  have h4 := hs.closed.1 _ hm.1
  have hinj : Function.Injective fun k => vertex (t.corner c k) := by
    rw [hcell c] at h4
    have := Finset.card_image_iff.1 (h4.trans (by simp : 4 = (Finset.univ : Finset (Fin 4)).card))
    exact fun a b e => this (by simp) (by simp) e
  have hcount : ∀ s : ℤ, (Finset.univ.filter fun k => t.vinfo (t.corner c k) = s).card =
      ((cell c).filter fun v => K.time v = s).card := by
    intro s
    rw [hcell c, Finset.filter_image, Finset.card_image_of_injective _ hinj]
    simp only [hvi]
  have key : ∀ n, 1 ≤ n → n ≤ 3 → HasType K.time n (4 - n) (cell c) → K.info (cell c) = 10 * (n : ℤ) + (4 - n) →
      ∃ slice n, 1 ≤ n ∧ n ≤ 3 ∧
        (Finset.univ.filter fun k => t.vinfo (t.corner c k) = slice).card = n ∧
        (Finset.univ.filter fun k => t.vinfo (t.corner c k) = slice + 1).card = 4 - n ∧
        t.cinfo c = 10 * (n : ℤ) + (4 - n) := by
    rintro n h1 h2 ⟨-, v, -, a, b⟩ e
    exact ⟨K.time v, n, h1, h2, by rw [hcount]; exact a, by rw [hcount]; exact b, by rw [hci, e]⟩
  rcases hs.labels _ hm.1 hm.2 with ⟨e, ht⟩ | ⟨e, ht⟩ | ⟨e, ht⟩
  · exact key 3 (by decide) (by decide) ht (by rw [e]; norm_num)
  · exact key 2 (by decide) (by decide) ht (by rw [e]; norm_num)
  · exact key 1 (by decide) (by decide) ht (by rw [e]; norm_num)

theorem depicted_slices {t : Stored} {K : Tri V} (hd : Depicts t K) :
    Set.range t.vinfo = (slices K.inf K.time K.cells : Set ℤ) := by
  obtain ⟨vertex, cell, hv, -, hmem, -, -, hvi, -⟩ := hd
  ext s
  simp only [slices, Set.mem_range, Finset.coe_image, Set.mem_image, Finset.mem_coe]
  constructor
  · rintro ⟨i, rfl⟩
    exact ⟨vertex i, (hmem _).1 ⟨i, rfl⟩, (hvi i).symm⟩
  · rintro ⟨v, h, rfl⟩
    obtain ⟨i, rfl⟩ := (hmem v).2 h
    exact ⟨i, hvi i⟩

/-- C81: reading any artifact of a run of `cdt` back, when the run has ended, gives a triangulation
whose tetrahedra are all causal and labelled by their type, with the slices of the initial universe. -/
theorem C81_files_causal (ho : Ordinary env R drawTrial o)
    (h : Launched (assembled base env R drawMove drawTrial value snapshot) out o cfg start) (hs : Fit env start)
    (ht : Tame env (assembled base env R drawMove drawTrial value snapshot) cfg start)
    (hf : ∀ due ∈ duties cfg,
      let K := (stateAfter (assembled base env R drawMove drawTrial value snapshot) cfg start due.1).tri
      Faithful base.codec (snapshot K) ∧ LabelsFit base.codec (snapshot K) ∧
        Depicts (base.codec.view (snapshot K)) K) (disk : Disk) :
    let host := assembled base env R drawMove drawTrial value snapshot
    let w := (cdtMain host out (some o) disk).2
    ∀ a ∈ w.log, ∃ t, readFile host.codec host.text a.path w.disk.fs = .ok t ∧ CausalFile (host.codec.view t) ∧
      Set.range (host.codec.view t).vinfo = (slices start.tri.inf start.tri.time start.tri.cells : Set ℤ) := by
  intro host w a ha
  have hw := (whole_trajectory ho h hs ht).1
  have hc := C66_configured_by h.config
  obtain ⟨due, hdue, hr⟩ := C65_artifacts_readable h disk (fun due hdue => ⟨(hf due hdue).1, (hf due hdue).2.1⟩) a ha
  obtain ⟨p0, p1⟩ := duties_between hc hdue
  have hn := hw _ p0 p1
  have hd := (hf due hdue).2.2
  refine ⟨_, hr, causalFile_of hd hn.fit.sound, ?_⟩
  rw [← hn.preserved.slices]
  exact depicted_slices hd

/-- C81: from a universe in order, `cdt` succeeds: if every state between passes can be stored and no
file operation fails, it exits with status 0 and has written every artifact due. -/
theorem C81_succeeds {isDouble isLong : LD → Prop} (hft : FloatTextLawful base.text isDouble isLong)
    (hbuild : BuildLegible base.build) (ho : Ordinary env R drawTrial o)
    (h : Launched (assembled base env R drawMove drawTrial value snapshot) out o cfg start) (hs : Fit env start)
    (ht : Tame env (assembled base env R drawMove drawTrial value snapshot) cfg start)
    (hst : ∀ p, 0 ≤ p → p ≤ cfg.passes → Storable (assembled base env R drawMove drawTrial value snapshot) isDouble
      (stateAfter (assembled base env R drawMove drawTrial value snapshot) cfg start p))
    (hcp : isLong cfg.alpha ∧ isLong cfg.k ∧ isLong cfg.lambda) {disk : Disk} (hd : NoFaults disk.fates) :
    let x := cdtMain (assembled base env R drawMove drawTrial value snapshot) out (some o) disk
    x.1 = 0 ∧ x.2.log.length = (duties cfg).length := by
  obtain ⟨h1, h2, h3⟩ := whole_trajectory ho h hs ht
  have hc := C66_configured_by h.config
  have hp := hc.passes.2.1
  have hok := C66_succeeds (host := assembled base env R drawMove drawTrial value snapshot) hft hbuild h
    ⟨h2, h3, hst, hcp, isValid_iff.2 (h1 cfg.passes (by omega) le_rfl).fit.sound.closed⟩ hd
  obtain ⟨done, k1, k2, k3⟩ := C64_provenance_true h disk
  exact ⟨hok, by rw [← k2.length_eq, (k3 hok).1]⟩

/-! ### A concrete universe and a concrete run -/

namespace WholeExample
open Fixture SimExample CausalExample

abbrev St : Type := BitVec 64 × BitVec 64

/-- The environment of the fixtures with a generator that answers by turns with the first and the
last index. -/
def plainEnv : Env ℕ (Random St) :=
  { geoFacet := Fixture.env.geoFacet, geoEdge := Fixture.env.geoEdge, centroid := Fixture.env.centroid,
    label := Fixture.env.label, iter := Fixture.env.iter, nth := Fixture.env.nth,
    index := fun n g => (if g.engine.1.toNat % 2 = 0 then 0 else n - 1, { g with engine := (g.engine.1 + 1, g.engine.2) }),
    shuffle := fun l g => (l, g) }

theorem plain_lawful : plainEnv.Lawful where
  iter_nodup K S := lawful.iter_nodup K S
  mem_iter K S v := lawful.mem_iter K S v
  index_lt n g h := by
    show (if g.engine.1.toNat % 2 = 0 then 0 else n - 1) < n
    split <;> omega
  shuffle_perm l _ := List.Perm.refl l
  nth := lawful.nth

instance {K : Tri ℕ} : Decidable (FreshCentroids plainEnv K) := by
  unfold FreshCentroids; infer_instance

/-- Four (2,2) tetrahedra around an edge of the first slice. -/
def ring : Tri ℕ := ball {{11, 21, 12, 22}, {11, 21, 22, 32}, {11, 21, 32, 42}, {11, 21, 42, 12}}

/-- The first two points of slice 1 are 11 and 21, the first four of slice 2 are 12, 22, 32 and 42. -/
def ringPoint (i j : ℕ) : ℕ := 10 * (j + 1) + i + 1

def ringPoints : List (ℕ × ℤ) := [(11, 1), (21, 1), (12, 2), (22, 2), (32, 2), (42, 2)]

theorem ring_ball : makeFoliatedBall exactFloats 2 2 (.fin 1) (.fin 1) ringPoint = .ok ringPoints := by decide +kernel

instance (D : Del ℕ) : Decidable (Fills D) := by unfold Fills; infer_instance

-- C81: the universe of the smallest command line is built and in order.
example : ∃ m, buildUniverse Fixture.env fanRepair (insertOf ring) exactFloats (fun _ => 1) ringPoint 2 2 (.fin 1) (.fin 1) =
    .ok m ∧ m.tri.cells = ring.cells ∧ Fit Fixture.env m := by
  have hi : (insertOf ring).Lawful := insertOf_lawful (by decide +kernel)
  have key : ((buildUniverse Fixture.env fanRepair (insertOf ring) exactFloats (fun _ => 1) ringPoint 2 2 (.fin 1)
      (.fin 1)).toOption.map fun m => decide (m.tri.cells = ring.cells ∧ m.tri.isValid = true ∧ QuietInfinity m.tri)) =
      some true := by decide +kernel
  cases hb : buildUniverse Fixture.env fanRepair (insertOf ring) exactFloats (fun _ => 1) ringPoint 2 2 (.fin 1) (.fin 1) with
  | error e => rw [hb] at key; simp [Except.toOption] at key
  | ok m =>
    rw [hb] at key
    simp only [Except.toOption, Option.map_some, Option.some.injEq, decide_eq_true_eq] at key
    exact ⟨m, rfl, key.1, (C81_initial_universe lawful fanLawful hi hb (isValid_iff.1 key.2.1) key.2.2).2.2.2
      ringPoints ring_ball (by decide +kernel) (by decide)⟩

/-! The run: the octahedron `k44` around a spacelike edge, flipped four times in one pass. -/

def flipAlways (g : Random St) : Fin 5 × Random St := (4, g)
def trialZero (g : Random St) : LD × Random St := (.fin 0, g)

/-- One transition in computable terms. -/
def flipOnce (x : Mfld ℕ × Random St) : Mfld ℕ × Random St :=
  match wrapMove plainEnv x.1 (Moves.propose plainEnv .fourFour x.1.tri x.2) with
  | (.ok (.ok m'), g') => (if checkMove x.1.view m'.view .fourFour then m' else x.1, g')
  | (_, g') => (x.1, g')

noncomputable abbrev flipEngine : MetroEngine (Mfld ℕ) (Random St) Mp :=
  metroEngine plainEnv .exact ⟨.fin 1, .fin 1, .fin 1⟩ flipAlways trialZero

theorem advance_once (x : Mfld ℕ × Random St) (hm : Fit plainEnv x.1)
    (hfr : FreshCentroids plainEnv x.1.tri) (hroom : Roomy x.1.geometry) :
    advance flipEngine x = flipOnce x := by
  have e : advance flipEngine x =
      ((resolve flipEngine 4 (.fin 0) ⟨x.1, {}, {}, x.2⟩).2.current,
       (resolve flipEngine 4 (.fin 0) ⟨x.1, {}, {}, x.2⟩).2.gen) := by
    unfold advance
    dsimp only
    rw [sampleTransition_snd]
    rfl
  rw [e]
  unfold resolve
  have hg : (!(LD.fin 0).isFinite || (LD.fin 0).lt (.fin 0) || (LD.fin 1).lt (.fin 0)) = false := by decide
  rw [hg]
  simp only [Bool.false_eq_true, if_false]
  have hcode : MoveType.ofCode 4 = some .fourFour := rfl
  rw [hcode]
  dsimp only
  have hp : flipEngine.propose .fourFour x.1 x.2 =
    wrapMove plainEnv x.1 (Moves.propose plainEnv .fourFour x.1.tri x.2) := rfl
  rw [hp]
  unfold flipOnce
  rcases wrapMove_cases (mv := .fourFour) plain_lawful hm hfr
    (r := Moves.propose plainEnv .fourFour x.1.tri x.2)
    (fun K' g' h => ⟨x.2, g', .inr h⟩) with ⟨f, g', e⟩ | ⟨m', g', e, hret, hb, hr, hs⟩
  · rw [e]
  · rw [e]
    dsimp only
    by_cases hc : checkMove x.1.view m'.view .fourFour = true
    · have hce : flipEngine.check x.1 m' .fourFour = true := hc
      simp only [hce, hc, Bool.not_true, Bool.false_eq_true, if_false, if_true]
      obtain ⟨c1, c2⟩ := counts_of_checked hroom hc
      obtain ⟨A, hA, hA0, -⟩ := C08_acceptance_defined plain_lawful hm.sound (fun _ => hfr) hret hm.caches hb c1 c2
        exactLawful (by norm_num) inLongDouble_one inLongDouble_one inLongDouble_one
      have hpr : flipEngine.prob (flipEngine.geometry x.1) (flipEngine.geometry m') .fourFour = .ok (.fin A) := hA
      simp only [hpr]
      have hge : flipEngine.probGe (.fin A) 0 = true := (C07_accepts_iff A 0).2 (by simpa using hA0)
      rw [if_pos hge]
    · have hce : flipEngine.check x.1 m' .fourFour = false := Bool.eq_false_iff.2 hc
      simp only [hce, hc, Bool.not_false, if_true, Bool.false_eq_true, if_false]

theorem flips {x : Mfld ℕ × Random St} (hm : Fit plainEnv x.1) : ∀ n,
    (∀ k < n, FreshCentroids plainEnv (flipOnce^[k] x).1.tri ∧ Roomy (flipOnce^[k] x).1.geometry) →
    ∀ k ≤ n, trajectory flipEngine k x = flipOnce^[k] x ∧ Next plainEnv x.1 (flipOnce^[k] x).1 := by
  intro n
  induction n with
  | zero =>
    intro _ k hk
    have : k = 0 := by omega
    subst this
    exact ⟨rfl, .refl hm⟩
  | succ n ih =>
    intro hgood k hk
    have ih' := ih fun k hk => hgood k (by omega)
    rcases Nat.lt_or_ge n k with h | h
    · have : k = n + 1 := by omega
      subst this
      have hgood' : ∀ k < n + 1, FreshCentroids plainEnv (trajectory flipEngine k x).1.tri ∧
          Roomy (trajectory flipEngine k x).1.geometry := by
        intro k hk
        rw [(ih' k (by omega)).1]
        exact hgood k hk
      have hnext := (trajectory_next plain_lawful exactLawful (by norm_num) inLongDouble_one inLongDouble_one
        inLongDouble_one (fun g => ⟨0, rfl, le_rfl, by norm_num⟩) (rfl : flipEngine = _) hm hgood').1 (n + 1) le_rfl
      have e : trajectory flipEngine (n + 1) x = flipOnce^[n + 1] x := by
        unfold trajectory
        rw [Function.iterate_succ_apply', Function.iterate_succ_apply']
        have := ih' n le_rfl
        change (advance flipEngine)^[n] x = _ ∧ _ at this
        rw [this.1]
        obtain ⟨g1, g2⟩ := hgood n (by omega)
        exact advance_once _ this.2.fit g1 g2
      exact ⟨e, e ▸ hnext⟩
    · exact ih' k h

/-- The corners of the four tetrahedra of `k44`, by position in `octaVertex`. -/
def octaCorner : Fin 4 → Fin 4 → Fin 6 := ![![0, 1, 2, 4], ![0, 1, 3, 4], ![0, 1, 2, 5], ![0, 1, 3, 5]]
def octaVertex : Fin 6 → ℕ := ![12, 22, 32, 42, 53, 61]
def octaCell (i : Fin 4) : Finset ℕ := Finset.univ.image fun k => octaVertex (octaCorner i k)

/-- The stored form of the triangulations with the tetrahedra of `k44`: the labels. -/
def octahedra : Codec ((Fin 6 → ℤ) × (Fin 4 → ℤ)) where
  render _ := ascii "octahedron"
  parse input := (stripPrefix (ascii "octahedron") input).map fun rest => ((fun _ => 0, fun _ => 0), rest)
  relabel _ info := (fun i => info.vertices.getD i 0, fun i => info.cells.getD i 0)
  view t := { nv := 6, nc := 4, key := fun i => decimal i, vinfo := t.1, corner := octaCorner, cinfo := t.2 }
  dimension _ := 3
  edges _ := 13
  facets _ := 12
  tdsValid _ := true

def octaSnapshot (K : Tri ℕ) : (Fin 6 → ℤ) × (Fin 4 → ℤ) := (fun i => K.time (octaVertex i), fun i => K.info (octaCell i))

theorem octa_faithful (t : (Fin 6 → ℤ) × (Fin 4 → ℤ)) : Faithful octahedra t where
  parse more := by
    refine ⟨(fun _ => 0, fun _ => 0), newline :: more, ?_, skipSpace_newline more, rfl, rfl, ?_⟩
    · simp only [octahedra, stripPrefix_append, Option.map_some]
    · refine Prod.ext (funext fun i => ?_) (funext fun i => ?_)
      · show (List.ofFn t.1).getD i 0 = t.1 i
        revert i; simp [Fin.forall_fin_succ]
      · show (List.ofFn t.2).getD i 0 = t.2 i
        revert i; simp [Fin.forall_fin_succ]
  valid := rfl

theorem octa_depicts {K : Tri ℕ} (hi : K.inf = k44.inf) (hc : K.cells = k44.cells) :
    Depicts (octahedra.view (octaSnapshot K)) K := by
  refine ⟨octaVertex, octaCell, ?_, ?_, ?_, ?_, fun _ => rfl, fun _ => rfl, fun _ => rfl⟩
  · show Function.Injective octaVertex
    clear hi hc K
    decide
  · show Function.Injective octaCell
    clear hi hc K
    decide +kernel
  · rw [hi, hc]
    have : (vertices k44.cells).erase k44.inf = Finset.univ.image octaVertex := by decide +kernel
    intro v
    rw [this]
    simp only [Finset.mem_image, Finset.mem_univ, true_and]
    exact Iff.rfl
  · rw [hi, hc]
    have : finitePart k44.inf k44.cells = Finset.univ.image octaCell := by decide +kernel
    intro c
    rw [this]
    simp only [Finset.mem_image, Finset.mem_univ, true_and]
    exact Iff.rfl

noncomputable def octaBase : Host (Mfld ℕ) St Mp ((Fin 6 → ℤ) × (Fin 4 → ℤ)) where
  pcg := toyPcg
  floats := exactFloats
  parallel := false
  codec := octahedra
  text := integerText
  build := sampleBuild
  snapshot m := octaSnapshot m.tri
  summary _ := ⟨0, 0, 0, 0, 0, 0, 0, 0⟩
  valid _ := false
  engine _ := flipEngine

noncomputable abbrev octaHost : Host (Mfld ℕ) St Mp ((Fin 6 → ℤ) × (Fin 4 → ℤ)) :=
  assembled octaBase plainEnv .exact flipAlways trialZero (fun b => (b.toNat : ℚ)) octaSnapshot

def octaOptions : Options :=
  { spherical := true, simplices := some 640, timeslices := some 4, alpha := some (.fin 1),
    k := some (.fin 1), lambda := some (.fin 1), passes := 1, checkpoint := 1 }

def octaConfig : SimConfig :=
  ⟨⟨.spherical, 640, 4, 3, .fin 1, .fin 1, 92, 1⟩, .fin 1, .fin 1, .fin 1, 1, 1, true⟩

def octaOutside (start : Mfld ℕ) : Outside (Mfld ℕ) St where
  entropy := 92
  now i := ⟨2026, 1, 2, 3, 4, i⟩
  construct _ _ _ _ _ := .ok start

theorem octa_vertices : ∀ i, octaVertex i ∈ vertices k44.cells ∧ octaVertex i ≠ k44.inf ∧
    -2 ^ 31 ≤ Fixture.env.label (octaVertex i) ∧ Fixture.env.label (octaVertex i) < 2 ^ 31 := by decide +kernel

theorem octa_cells : ∀ i, octaCell i ∈ k44.cells ∧ k44.inf ∉ octaCell i := by decide +kernel

theorem octa_storable {m : Mfld ℕ} (hf : Fit plainEnv m) (hi : m.tri.inf = k44.inf)
    (hc : m.tri.cells = k44.cells) (hr : m.radius = 1) (hs : m.spacing = 1) : Storable octaHost IntegralValue m where
  faithful := octa_faithful _
  labels := by
    refine ⟨⟨fun v hv => ?_, fun v hv => ?_⟩, by show 6 < 2 ^ 64; decide, by show 4 < 2 ^ 64; decide⟩
    · obtain ⟨i, rfl⟩ := (List.mem_ofFn' _ _).1 hv
      change -2 ^ 31 ≤ m.tri.time (octaVertex i) ∧ m.tri.time (octaVertex i) < 2 ^ 31
      obtain ⟨h1, h2, h3⟩ := octa_vertices i
      rw [hf.sound.times _ (by rw [hc]; exact h1) (by rw [hi]; exact h2)]
      exact h3
    · obtain ⟨i, rfl⟩ := (List.mem_ofFn' _ _).1 hv
      change -2 ^ 31 ≤ m.tri.info (octaCell i) ∧ m.tri.info (octaCell i) < 2 ^ 31
      obtain ⟨h1, h2⟩ := octa_cells i
      rcases hf.sound.labels _ (by rw [hc]; exact h1) (by rw [hi]; exact h2) with ⟨e, -⟩ | ⟨e, -⟩ | ⟨e, -⟩ <;> rw [e] <;> decide
  counts := ⟨show 6 < 2 ^ 31 by decide, show 13 < 2 ^ 31 by decide, show 12 < 2 ^ 31 by decide, show 4 < 2 ^ 31 by decide⟩
  dimension := rfl
  fingerprint := C58_defined_without_coincidence fun i j h => Fin.ext (decimal_injective h)
  radius := by
    change IntegralValue (.fin (m.radius.toNat : ℚ)) ∧ (0 : ℚ) ≤ (m.radius.toNat : ℚ)
    rw [hr]
    exact ⟨by rintro q ⟨rfl⟩; simp only [IsInt32]; decide, by decide⟩
  spacing := by
    change IntegralValue (.fin (m.spacing.toNat : ℚ)) ∧ (0 : ℚ) < (m.spacing.toNat : ℚ)
    rw [hs]
    exact ⟨by rintro q ⟨rfl⟩; simp only [IsInt32]; decide, by decide⟩

theorem octa_ordinary : Ordinary plainEnv .exact trialZero octaOptions where
  lawful := plain_lawful
  rounding := exactLawful
  trial _ := ⟨0, rfl, le_rfl, by norm_num⟩
  couplings q h := by
    have : q = 1 := by
      rcases h with h | h | h <;> (simp only [octaOptions, Option.some.injEq, LD.fin.injEq] at h; exact h.symm)
    rw [this]
    exact inLongDouble_one

-- C81: the hypotheses are met by a run that changes the complex, and it succeeds with two artifacts.
example : ∃ start, Launched octaHost (octaOutside start) octaOptions octaConfig start ∧
    Fit plainEnv start ∧ Tame plainEnv octaHost octaConfig start ∧
    (trajectory (engineOf octaHost octaConfig) 1 (origin octaHost octaConfig start)).1.tri.cells ≠ start.tri.cells ∧
    (cdtMain octaHost (octaOutside start) (some octaOptions) goodDisk).1 = 0 ∧
    (cdtMain octaHost (octaOutside start) (some octaOptions) goodDisk).2.log.length = 2 ∧
    ∀ a ∈ (cdtMain octaHost (octaOutside start) (some octaOptions) goodDisk).2.log, ∃ t,
      readFile octahedra integerText a.path (cdtMain octaHost (octaOutside start) (some octaOptions) goodDisk).2.disk.fs =
        .ok t ∧ CausalFile (octahedra.view t) := by
  have key : ((buildCaches plainEnv k44).toOption.map fun cs =>
      decide ((∀ k ∈ List.range 4,
          FreshCentroids plainEnv (flipOnce^[k] (⟨k44, cs, 1, 1⟩, Random.make toyPcg 92 1)).1.tri ∧
          Roomy (flipOnce^[k] (⟨k44, cs, 1, 1⟩, Random.make toyPcg 92 1)).1.geometry) ∧
        (Mfld.geometry ⟨k44, cs, 1, 1⟩).N3 = 4 ∧
        (flipOnce (⟨k44, cs, 1, 1⟩, Random.make toyPcg 92 1)).1.tri.cells ≠ k44.cells ∧
        (flipOnce^[4] (⟨k44, cs, 1, 1⟩, Random.make toyPcg 92 1)).1.tri.cells = k44.cells ∧
        (flipOnce^[4] (⟨k44, cs, 1, 1⟩, Random.make toyPcg 92 1)).1.tri.inf = k44.inf)) = some true := by decide +kernel
  cases hb : buildCaches plainEnv k44 with
  | error e => rw [hb] at key; simp [Except.toOption] at key
  | ok cs =>
    rw [hb] at key
    simp only [Except.toOption, Option.map_some, Option.some.injEq, decide_eq_true_eq] at key
    obtain ⟨h1, h2, h3, h4, h5⟩ := key
    simp only [List.mem_range] at h1
    have h44 : (⟨k44, cs, 1, 1⟩ : Mfld ℕ).tri = k44 := rfl
    have hsp : (⟨k44, cs, 1, 1⟩ : Mfld ℕ).radius = 1 ∧ (⟨k44, cs, 1, 1⟩ : Mfld ℕ).spacing = 1 := ⟨rfl, rfl⟩
    have hfit : Fit plainEnv ⟨k44, cs, 1, 1⟩ :=
      ⟨⟨sound44.closed, sound44.labels, sound44.times, sound44.quiet⟩, hb⟩
    generalize (⟨k44, cs, 1, 1⟩ : Mfld ℕ) = start at *
    have ho : origin octaHost octaConfig start = (start, Random.make toyPcg 92 1) := rfl
    have he : engineOf octaHost octaConfig = flipEngine := rfl
    have hfl := flips (x := (start, Random.make toyPcg 92 1)) hfit 4 h1
    have hta : transitionsAfter octaHost octaConfig start 1 = 4 := by
      have : flipEngine.n3 start = 4 := h2
      unfold transitionsAfter
      rw [he, ho]
      simp [passStart, trajectory, this]
    have ht : Tame plainEnv octaHost octaConfig start := by
      intro j hj
      have hj4 : j < 4 := by rw [← hta]; exact hj
      rw [he, ho, (hfl j (by omega)).1]
      exact h1 j hj4
    have hlaunch : Launched octaHost (octaOutside start) octaOptions octaConfig start :=
      ⟨rfl, rfl, (by decide +kernel : RuntimeConfig.makeTriangulation exactFloats false true false 640 4 3 (.fin 1) (.fin 1) 92 1 >>= (fun t => RuntimeConfig.makeSimulation t (.fin 1) (.fin 1) (.fin 1) 1 1 true) = .ok octaConfig), rfl⟩
    have hst : ∀ p, 0 ≤ p → p ≤ octaConfig.passes → (stateAfter octaHost octaConfig start p).tri.inf = k44.inf ∧
        (stateAfter octaHost octaConfig start p).tri.cells = k44.cells := by
      intro p p0 p1
      have hp1 : p ≤ 1 := p1
      have hp : p = 0 ∨ p = 1 := by omega
      rcases hp with rfl | rfl
      · exact ⟨by rw [← h44]; rfl, by rw [← h44]; rfl⟩
      · unfold stateAfter
        rw [hta, he, ho, (hfl 4 le_rfl).1]
        exact ⟨h5, h4⟩
    have hn := (whole_trajectory octa_ordinary hlaunch hfit ht).1
    have hsucc := C81_succeeds (isDouble := IntegralValue) (isLong := IntegralValue) integerText_lawful sampleBuild_legible
      octa_ordinary hlaunch hfit ht
      (fun p p0 p1 => octa_storable (hn p p0 p1).fit (hst p p0 p1).1 (hst p p0 p1).2
        ((hn p p0 p1).radius.trans hsp.1) ((hn p p0 p1).spacing.trans hsp.2))
      (by refine ⟨?_, ?_, ?_⟩ <;> (rintro q ⟨rfl⟩; simp only [IsInt32]; decide)) (disk := goodDisk) noFaults_noFaults
    refine ⟨start, hlaunch, hfit, ht, ?_, hsucc.1, hsucc.2, ?_⟩
    · rw [he, ho, (hfl 1 (by omega)).1, h44]
      exact h3
    · intro a ha
      obtain ⟨t, q1, q2, -⟩ := C81_files_causal octa_ordinary hlaunch hfit ht (fun due hdue => by
        obtain ⟨p0, p1⟩ := duties_between (C66_configured_by hlaunch.config) hdue
        have hs := octa_storable (hn _ p0 p1).fit (hst _ p0 p1).1 (hst _ p0 p1).2
          ((hn _ p0 p1).radius.trans hsp.1) ((hn _ p0 p1).spacing.trans hsp.2)
        exact ⟨hs.faithful, hs.labels, octa_depicts (hst _ p0 p1).1 (hst _ p0 p1).2⟩) goodDisk a ha
      exact ⟨t, q1, q2⟩

/-! ### An initial universe that is not causal -/

/-- As before, but every point lies on slice 1. -/
def flatEnv : Env ℕ (Random St) := { plainEnv with label := fun _ => 1, index := fun _ g => (0, g) }

theorem flat_lawful : flatEnv.Lawful where
  iter_nodup K S := lawful.iter_nodup K S
  mem_iter K S v := lawful.mem_iter K S v
  index_lt _ _ h := h
  shuffle_perm l _ := List.Perm.refl l
  nth := lawful.nth

/-- The octahedron with all vertices on one slice. -/
def flat : Tri ℕ := makeManifold flatEnv k44

noncomputable abbrev flatHost : Host (Mfld ℕ) St Mp ((Fin 6 → ℤ) × (Fin 4 → ℤ)) :=
  assembled octaBase flatEnv .exact flipAlways trialZero (fun b => (b.toNat : ℚ)) octaSnapshot

theorem flat_transition {m : Mfld ℕ} {g : Random St}
    (h : (match Moves.propose flatEnv .fourFour m.tri g with | (.error _, g') => decide (g' = g) | _ => false) = true) :
    (∃ r, (sampleTransition (engineOf flatHost octaConfig) ⟨m, {}, {}, g⟩).1 = .ok r) ∧
    advance (engineOf flatHost octaConfig) (m, g) = (m, g) := by
  rcases hp : Moves.propose flatEnv .fourFour m.tri g with ⟨r, g'⟩
  rw [hp] at h
  cases r with
  | ok K => cases h
  | error f =>
    have hg : g' = g := by simpa using h
    subst hg
    have hpr : (engineOf flatHost octaConfig).propose .fourFour m g' = (.ok (.error f), g') := by
      show wrapMove flatEnv m (Moves.propose flatEnv .fourFour m.tri g') = _
      rw [hp]; rfl
    have hres : ∃ st cm, resolve (engineOf flatHost octaConfig) 4 (.fin 0) ⟨m, {}, {}, g'⟩ =
        (.ok (outcomeFrom f), ⟨m, st, cm, g'⟩) := by
      unfold resolve
      have hg : (!(LD.fin 0).isFinite || (LD.fin 0).lt (.fin 0) || (LD.fin 1).lt (.fin 0)) = false := by decide
      rw [hg]
      simp only [Bool.false_eq_true, if_false]
      have hcode : MoveType.ofCode 4 = some .fourFour := rfl
      rw [hcode]
      dsimp only
      rw [hpr]
      exact ⟨_, _, rfl⟩
    obtain ⟨st, cm, hres⟩ := hres
    have hs : sampleTransition (engineOf flatHost octaConfig) ⟨m, {}, {}, g'⟩ = (.ok (4, outcomeFrom f), ⟨m, st, cm, g'⟩) := by
      have e1 : (engineOf flatHost octaConfig).drawMove = flipAlways := rfl
      have e2 : (engineOf flatHost octaConfig).drawTrial = trialZero := rfl
      unfold sampleTransition
      rw [e1, e2]
      simp only [flipAlways, trialZero]
      have : (((4 : Fin 5).val : ℕ) : ℤ) = 4 := rfl
      rw [this, hres]
    exact ⟨⟨_, by rw [hs]⟩, by unfold advance; dsimp only; rw [hs]⟩

theorem flat_storable {m : Mfld ℕ} (hv : ∀ i, m.tri.time (octaVertex i) = (1 : ℤ))
    (hc : ∀ i, m.tri.info (octaCell i) = (99 : ℤ)) (hr : m.radius = 1) (hs : m.spacing = 1) :
    Storable flatHost IntegralValue m where
  faithful := octa_faithful _
  labels := by
    refine ⟨⟨fun v hm => ?_, fun v hm => ?_⟩, by show 6 < 2 ^ 64; decide, by show 4 < 2 ^ 64; decide⟩
    · obtain ⟨i, rfl⟩ := (List.mem_ofFn' _ _).1 hm
      have e : (flatHost.codec.view (flatHost.snapshot m)).vinfo i = 1 := hv i
      rw [e]; decide
    · obtain ⟨i, rfl⟩ := (List.mem_ofFn' _ _).1 hm
      have e : (flatHost.codec.view (flatHost.snapshot m)).cinfo i = 99 := hc i
      rw [e]; decide
  counts := ⟨show 6 < 2 ^ 31 by decide, show 13 < 2 ^ 31 by decide, show 12 < 2 ^ 31 by decide, show 4 < 2 ^ 31 by decide⟩
  dimension := rfl
  fingerprint := C58_defined_without_coincidence fun i j h => Fin.ext (decimal_injective h)
  radius := by
    change IntegralValue (.fin (m.radius.toNat : ℚ)) ∧ (0 : ℚ) ≤ (m.radius.toNat : ℚ)
    rw [hr]
    exact ⟨by rintro q ⟨rfl⟩; simp only [IsInt32]; decide, by decide⟩
  spacing := by
    change IntegralValue (.fin (m.spacing.toNat : ℚ)) ∧ (0 : ℚ) < (m.spacing.toNat : ℚ)
    rw [hs]
    exact ⟨by rintro q ⟨rfl⟩; simp only [IsInt32]; decide, by decide⟩

end WholeExample

open WholeExample Fixture in
/-- C81, the assumption on the initial universe is needed: `cdt` does not check it.  With a universe
whose tetrahedra are all acausal (a constructor accepts it, its labels say so) it runs, exits with
status 0, and leaves artifacts that read back as acausal triangulations. -/
theorem C81_acausal_start_not_noticed : ∃ start, construct flatEnv flat = .ok (start.tri, start.caches) ∧
    Launched flatHost (octaOutside start) octaOptions octaConfig start ∧
    (cdtMain flatHost (octaOutside start) (some octaOptions) goodDisk).1 = 0 ∧
    (cdtMain flatHost (octaOutside start) (some octaOptions) goodDisk).2.log.length = 2 ∧
    ∀ a ∈ (cdtMain flatHost (octaOutside start) (some octaOptions) goodDisk).2.log, ∃ t,
      readFile octahedra integerText a.path (cdtMain flatHost (octaOutside start) (some octaOptions) goodDisk).2.disk.fs =
        .ok t ∧ ¬ CausalFile (octahedra.view t) ∧ ∀ c, (octahedra.view t).cinfo c = 99 := by
  have key : ((construct flatEnv flat).toOption.map fun r =>
      decide ((Mfld.geometry ⟨r.1, r.2, 1, 1⟩).N3 = 4 ∧ r.1.isValid = true ∧
        (∀ i, r.1.time (octaVertex i) = (1 : ℤ)) ∧ ∀ i, r.1.info (octaCell i) = (99 : ℤ)) &&
      (match Moves.propose flatEnv .fourFour r.1 (Random.make toyPcg 92 1) with
        | (.error _, g') => decide (g' = Random.make toyPcg 92 1) | _ => false)) = some true := by decide +kernel
  cases hb : construct flatEnv flat with
  | error e => rw [hb] at key; simp [Except.toOption] at key
  | ok r =>
    rw [hb] at key
    obtain ⟨K, cs⟩ := r
    simp only [Except.toOption, Option.map_some, Option.some.injEq, Bool.and_eq_true, decide_eq_true_eq] at key
    obtain ⟨⟨h1, h2, h3, h4⟩, h5⟩ := key
    obtain ⟨htr, hadv⟩ := flat_transition (m := ⟨K, cs, 1, 1⟩) (g := Random.make toyPcg 92 1) h5
    have ho : origin flatHost octaConfig ⟨K, cs, 1, 1⟩ = (⟨K, cs, 1, 1⟩, Random.make toyPcg 92 1) := rfl
    have htraj : ∀ j, trajectory (engineOf flatHost octaConfig) j (origin flatHost octaConfig ⟨K, cs, 1, 1⟩) =
        (⟨K, cs, 1, 1⟩, Random.make toyPcg 92 1) := by
      intro j
      rw [ho]
      unfold trajectory
      induction j with
      | zero => rfl
      | succ j ih => rw [Function.iterate_succ_apply, hadv, ih]
    have hstate : ∀ p, stateAfter flatHost octaConfig ⟨K, cs, 1, 1⟩ p = ⟨K, cs, 1, 1⟩ := by
      intro p
      unfold stateAfter
      rw [htraj]
    have hta : transitionsAfter flatHost octaConfig ⟨K, cs, 1, 1⟩ 1 = 4 := by
      have : (engineOf flatHost octaConfig).n3 ⟨K, cs, 1, 1⟩ = 4 := h1
      unfold transitionsAfter
      show passStart _ _ 1 = 4
      unfold passStart passStart
      rw [htraj, this]
      rfl
    have hlaunch : Launched flatHost (octaOutside ⟨K, cs, 1, 1⟩) octaOptions octaConfig ⟨K, cs, 1, 1⟩ :=
      ⟨rfl, rfl, (by decide +kernel : RuntimeConfig.makeTriangulation exactFloats false true false 640 4 3 (.fin 1) (.fin 1) 92 1 >>= (fun t => RuntimeConfig.makeSimulation t (.fin 1) (.fin 1) (.fin 1) 1 1 true) = .ok octaConfig), rfl⟩
    have hsmooth : Smooth flatHost IntegralValue IntegralValue octaConfig ⟨K, cs, 1, 1⟩ :=
      { transitions := fun j _ => by rw [htraj]; exact htr
        few := by show transitionsAfter flatHost octaConfig ⟨K, cs, 1, 1⟩ 1 < _; rw [hta]; norm_num
        states := fun p _ _ => by rw [hstate]; exact flat_storable h3 h4 rfl rfl
        couplings := by refine ⟨?_, ?_, ?_⟩ <;> (rintro q ⟨rfl⟩; simp only [IsInt32]; decide)
        valid := by rw [hstate]; exact h2 }
    have hok := C66_succeeds integerText_lawful sampleBuild_legible hlaunch hsmooth (disk := goodDisk) noFaults_noFaults
    obtain ⟨done, -, k2, k3⟩ := C64_provenance_true hlaunch goodDisk
    refine ⟨⟨K, cs, 1, 1⟩, rfl, hlaunch, hok, by rw [← k2.length_eq, (k3 hok).1]; rfl, fun a ha => ?_⟩
    have hst := flat_storable (m := ⟨K, cs, 1, 1⟩) h3 h4 rfl rfl
    obtain ⟨due, -, hr⟩ := C65_artifacts_readable hlaunch goodDisk
      (fun due _ => by rw [hstate]; exact ⟨hst.faithful, hst.labels⟩) a ha
    rw [hstate] at hr
    refine ⟨_, hr, fun hcf => ?_, h4⟩
    obtain ⟨s, n, n1, n3, -, -, e⟩ := hcf (0 : Fin 4)
    have e' : (99 : ℤ) = 10 * (n : ℤ) + (4 - n) := (h4 0).symm.trans e
    omega

end CDT.Props

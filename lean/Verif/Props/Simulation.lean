/-
C61, C62, C63: whole simulations with the real components.
-/
import Verif.Props.Preserve
import Verif.Props.Hastings
import Verif.Spec.Trajectory
import Verif.Props.Balance

namespace CDT.Props
open CDT Spec Cavity Moves

variable {V G F : Type} [LinearOrder V] {env : Env V G}

/-! ### Manifolds built by a move -/

theorem finiteVerts_of_move (hl : env.Lawful) {mv : MoveType} {K K' : Tri V} (hK : Sound env K)
    (hne : K.finiteVerts ≠ ∅) (hfr : mv = .twoSix → FreshCentroids env K) (h : MoveReturns env mv K K') :
    K'.finiteVerts ≠ ∅ := by
  by_cases hmv : mv = .twoSix
  · subst hmv
    obtain ⟨hi, ⟨x, y, z, u, d, m, hm, -, -⟩, -, -⟩ := C21_two_six_subdivision hl hK (hfr rfl) h
    refine Finset.nonempty_iff_ne_empty.1 ⟨x, Finset.mem_erase.2 ⟨?_, ?_⟩⟩
    · rw [hi]; rintro rfl
      exact hm.finite (by simp)
    · refine mem_vertices.2 ⟨{x, y, m, u}, ?_, by simp⟩
      rw [hm.cells.result]; simp [sixAround]
  · have hs := (effect_of_move hl hmv hK h).slices
    intro h0
    have e1 : slices K'.inf K'.time K'.cells = ∅ := by
      have : (vertices K'.cells).erase K'.inf = ∅ := h0
      simp [slices, this]
    rw [hs] at e1
    exact hne (Finset.image_eq_empty.1 e1)

/-- What a move function returns on a fit manifold: a structured failure, or a complete manifold
object with the parameters of its source; never an exception. -/
theorem wrapMove_cases (hl : env.Lawful) {mv : MoveType} {m : Mfld V} (hm : Fit env m)
    (hfr : FreshCentroids env m.tri) {r : Except MoveFailure (Tri V) × G}
    (hr : ∀ K' g', r = (.ok K', g') → MoveReturns env mv m.tri K') :
    (∃ f g', wrapMove env m r = (.ok (.error f), g')) ∨
    ∃ m' g', wrapMove env m r = (.ok (.ok m'), g') ∧ MoveReturns env mv m.tri m'.tri ∧
      buildCaches env m'.tri = .ok m'.caches ∧ m'.radius = m.radius ∧ m'.spacing = m.spacing := by
  obtain ⟨r, g'⟩ := r
  cases r with
  | error f => exact .inl ⟨f, g', rfl⟩
  | ok K' =>
    have hret := hr K' g' rfl
    obtain ⟨cs, hcs⟩ := buildCaches_total hl
      (finiteVerts_of_move hl hm.sound (buildCaches_ok hm.caches).1 (fun _ => hfr) hret)
    refine .inr ⟨⟨K', cs, m.radius, m.spacing⟩, g', ?_, hret, hcs, rfl, rfl⟩
    simp only [wrapMove, hcs]

/-- A manifold that a move produced and `check_move` accepted is fit again, and everything C24
promises is preserved. -/
theorem fit_of_checked (hl : env.Lawful) {mv : MoveType} {m m' : Mfld V} (hm : Fit env m)
    (hfr : FreshCentroids env m.tri) (hret : MoveReturns env mv m.tri m'.tri)
    (hb : buildCaches env m'.tri = .ok m'.caches) (hr : m'.radius = m.radius) (hs : m'.spacing = m.spacing)
    (hc : checkMove m.view m'.view mv = true) : Fit env m' ∧ Step env m.tri m'.tri ∧ Preserved m.tri m'.tri := by
  have hst : Step env m.tri m'.tri := by
    by_cases hmv : mv = .twoSix
    · subst hmv
      refine .twoSix hfr hret ⟨m.caches, m'.caches, hm.caches, hb, ?_⟩
      intro r s
      have := (C21_check_move_iff_slice hl hm.sound hfr hret hm.caches hb r s)
      refine this.2 ((C21_check_move_iff_slice hl hm.sound hfr hret hm.caches hb m.radius m.spacing).1 ?_)
      have e : m'.view = viewOf m.radius m.spacing m'.tri m'.caches := by
        unfold Mfld.view; rw [hr, hs]
      rw [← e]; exact hc
    · exact .other hmv hret
  obtain ⟨mv', he⟩ := effect_of_step hl hm.sound hst
  exact ⟨⟨he.sound, hb⟩, hst, preserved_of_effect he⟩

/-- The counts of a checked candidate of a roomy manifold still fit the 32-bit counters. -/
theorem counts_of_checked {mv : MoveType} {m m' : Mfld V} (hroom : Roomy m.geometry)
    (hc : checkMove m.view m'.view mv = true) : Counts32 m.geometry ∧ Counts32 m'.geometry := by
  have hcon := (C32_check_move_iff_contract _ _ _).1 hc
  have h0 := hcon.n0; have h1 := hcon.n1sl; have h2 := hcon.n1tl; have h3 := hcon.n13
  have h4 := hcon.n22; have h5 := hcon.n31
  simp only [Roomy, List.mem_cons, List.not_mem_nil, or_false, forall_eq_or_imp, forall_eq] at hroom
  obtain ⟨r0, r1, r2, r3, r4, r5⟩ := hroom
  simp only [Mfld.view, viewOf, Mfld.geometry, geometryOf] at *
  simp only [Counts32, InInt32]
  cases mv <;> simp only [publishedDelta] at * <;>
    refine ⟨⟨?_, ?_, ?_, ?_, ?_, ?_⟩, ?_, ?_, ?_, ?_, ?_, ?_⟩ <;> rw [abs_of_nonneg (by omega)] <;> omega

/-! ### One transition -/

/-- The state relation a simulation step maintains. -/
structure Next (env : Env V G) (m m' : Mfld V) : Prop where
  fit : Fit env m'
  preserved : Preserved m.tri m'.tri
  radius : m'.radius = m.radius
  spacing : m'.spacing = m.spacing
  steps : Relation.ReflTransGen (Step env) m.tri m'.tri

theorem Next.refl {m : Mfld V} (h : Fit env m) : Next env m m :=
  ⟨h, ⟨⟨h.sound.closed, h.sound.causal⟩, rfl, rfl, rfl⟩, rfl, rfl, .refl⟩

theorem Next.trans {a b c : Mfld V} (h : Next env a b) (k : Next env b c) : Next env a c :=
  ⟨k.fit, ⟨k.preserved.foliated, k.preserved.boundary.trans h.preserved.boundary,
    k.preserved.euler.trans h.preserved.euler, k.preserved.slices.trans h.preserved.slices⟩,
    k.radius.trans h.radius, k.spacing.trans h.spacing, h.steps.trans k.steps⟩

/-- C61.  A Metropolis transition with the real moves, check and action arithmetic, on a manifold in
order whose centroids are fresh and whose counts are not at the edge of the 32-bit range, with
accepted couplings and a trial value in [0, 1], never throws, whatever move code is requested and
whatever the generator does; the manifold afterwards is again in order, has the same foliation
parameters, and everything C24 promises is preserved. -/
theorem C61_transition_total (hl : env.Lawful) {R : Rounding} (hR : R.Lawful) {α κ Λ : ℚ} (hα : 1 / 2 < α)
    (ha : InLongDouble α) (hk : InLongDouble κ) (hL : InLongDouble Λ)
    (drawMove : G → Fin 5 × G) (drawTrial : G → LD × G) (code : ℤ) {u : ℚ} (h0 : 0 ≤ u) (h1 : u ≤ 1)
    (v : MetroVars (Mfld V) G) (hm : Fit env v.current) (hfr : FreshCentroids env v.current.tri)
    (hroom : Roomy v.current.geometry) :
    ∃ o v', resolve (metroEngine env R ⟨.fin α, .fin κ, .fin Λ⟩ drawMove drawTrial) code (.fin u) v = (.ok o, v') ∧
      Next env v.current v'.current := by
  unfold resolve
  have hg : (!(LD.fin u).isFinite || (LD.fin u).lt (.fin 0) || (LD.fin 1).lt (.fin u)) = false := by
    simp [LD.isFinite, LD.lt, h0, h1]
  rw [hg]
  simp only [Bool.false_eq_true, if_false]
  cases MoveType.ofCode code with
  | none => exact ⟨_, _, rfl, .refl hm⟩
  | some mv =>
    dsimp only
    have hp : (metroEngine env R ⟨.fin α, .fin κ, .fin Λ⟩ drawMove drawTrial).propose mv v.current v.gen =
      wrapMove env v.current (Moves.propose env mv v.current.tri v.gen) := rfl
    rw [hp]
    rcases wrapMove_cases (mv := mv) hl hm hfr (r := Moves.propose env mv v.current.tri v.gen)
      (fun K' g' h => ⟨v.gen, g', .inr h⟩) with ⟨f, g', e⟩ | ⟨m', g', e, hret, hb, hr, hs⟩
    · rw [e]; exact ⟨_, _, rfl, .refl hm⟩
    · rw [e]
      dsimp only
      by_cases hc : checkMove v.current.view m'.view mv = true
      · have hce : (metroEngine env R ⟨.fin α, .fin κ, .fin Λ⟩ drawMove drawTrial).check v.current m' mv = true := hc
        simp only [hce, Bool.not_true, Bool.false_eq_true, if_false]
        obtain ⟨c1, c2⟩ := counts_of_checked hroom hc
        obtain ⟨A, hA, -, -⟩ := C08_acceptance_defined hl hm.sound (fun _ => hfr) hret hm.caches hb c1 c2 hR hα ha hk hL
        have hpr : (metroEngine env R ⟨.fin α, .fin κ, .fin Λ⟩ drawMove drawTrial).prob
            ((metroEngine env R ⟨.fin α, .fin κ, .fin Λ⟩ drawMove drawTrial).geometry v.current)
            ((metroEngine env R ⟨.fin α, .fin κ, .fin Λ⟩ drawMove drawTrial).geometry m') mv = .ok (.fin A) := hA
        simp only [hpr]
        obtain ⟨f1, st, f2⟩ := fit_of_checked hl hm hfr hret hb hr hs hc
        split
        · exact ⟨_, _, rfl, f1, f2, hr, hs, .single st⟩
        · exact ⟨_, _, rfl, .refl hm⟩
      · have hce : (metroEngine env R ⟨.fin α, .fin κ, .fin Λ⟩ drawMove drawTrial).check v.current m' mv = false := by
          have := Bool.eq_false_iff.2 hc
          exact this
        simp only [hce, Bool.not_false, if_true]
        exact ⟨_, _, rfl, .refl hm⟩

/-! ### Whole runs -/

section Generic
variable {M P S : Type}

theorem resolve_core (eng : MetroEngine M G P) (code : ℤ) (u : LD) (v w : MetroVars M G)
    (hc : v.current = w.current) (hg : v.gen = w.gen) :
    (resolve eng code u v).1 = (resolve eng code u w).1 ∧
    (resolve eng code u v).2.current = (resolve eng code u w).2.current ∧
    (resolve eng code u v).2.gen = (resolve eng code u w).2.gen := by
  unfold resolve
  simp only [hg, hc]
  split
  · exact ⟨rfl, hc, hg⟩
  · split
    · cases MoveType.ofCode code with
      | none => exact ⟨rfl, hc, hg⟩
      | some mv =>
        simp only
        rcases eng.propose mv w.current w.gen with ⟨r, g'⟩
        match r with
        | .error e => exact ⟨rfl, rfl, rfl⟩
        | .ok (.error fl) => exact ⟨rfl, rfl, rfl⟩
        | .ok (.ok c) =>
          simp only
          cases eng.check w.current c mv with
          | false => exact ⟨rfl, rfl, rfl⟩
          | true =>
            simp only [Bool.not_true, Bool.false_eq_true, if_false]
            cases eng.prob (eng.geometry w.current) (eng.geometry c) mv with
            | error e => exact ⟨rfl, rfl, rfl⟩
            | ok p =>
              simp only
              split
              · exact ⟨rfl, rfl, rfl⟩
              · exact ⟨rfl, rfl, rfl⟩
    · exact ⟨rfl, hc, hg⟩

theorem sampleTransition_snd (eng : MetroEngine M G P) (v : MetroVars M G) :
    (sampleTransition eng v).2 = (resolve eng ((eng.drawMove v.gen).1.val : ℤ)
      (eng.drawTrial (eng.drawMove v.gen).2).1 { v with gen := (eng.drawTrial (eng.drawMove v.gen).2).2 }).2 := by
  rcases h1 : eng.drawMove v.gen with ⟨i, g1⟩
  rcases h2 : eng.drawTrial g1 with ⟨u, g2⟩
  rcases h3 : resolve eng (i.val : ℤ) u { v with gen := g2 } with ⟨r, v1⟩
  cases r <;> simp only [sampleTransition, h1, h2, h3]

theorem sample_core (eng : MetroEngine M G P) (v w : MetroVars M G)
    (hc : v.current = w.current) (hg : v.gen = w.gen) :
    (sampleTransition eng v).2.current = (sampleTransition eng w).2.current ∧
    (sampleTransition eng v).2.gen = (sampleTransition eng w).2.gen := by
  rw [sampleTransition_snd, sampleTransition_snd, hg]
  exact (resolve_core eng _ _ { v with gen := (eng.drawTrial (eng.drawMove w.gen).2).2 }
    { w with gen := (eng.drawTrial (eng.drawMove w.gen).2).2 } hc rfl).2

theorem sample_advance (eng : MetroEngine M G P) (v : MetroVars M G) {o v'}
    (h : sampleTransition eng v = (.ok o, v')) : (v'.current, v'.gen) = advance eng (v.current, v.gen) := by
  obtain ⟨e1, e2⟩ := sample_core eng v ⟨v.current, {}, {}, v.gen⟩ rfl rfl
  rw [h] at e1 e2
  exact Prod.ext e1 e2

theorem trajectory_succ (eng : MetroEngine M G P) (k : ℕ) (x : M × G) :
    trajectory eng (k + 1) x = trajectory eng k (advance eng x) := rfl

theorem trajectory_add (eng : MetroEngine M G P) (j k : ℕ) (x : M × G) :
    trajectory eng (j + k) x = trajectory eng k (trajectory eng j x) := by
  unfold trajectory
  rw [Nat.add_comm, Function.iterate_add_apply]

theorem passLoop_total (eng : MetroEngine M G P) : ∀ (n : ℕ) (v : MetroVars M G),
    (∀ k < n, ∀ w : MetroVars M G, (w.current, w.gen) = trajectory eng k (v.current, v.gen) →
      ∃ o w', sampleTransition eng w = (.ok o, w')) →
    ∃ v', passLoop eng n v = (.ok (), v') ∧ (v'.current, v'.gen) = trajectory eng n (v.current, v.gen)
  | 0, v, _ => ⟨v, rfl, rfl⟩
  | n + 1, v, h => by
    obtain ⟨o, w, hw⟩ := h 0 (by omega) v rfl
    have ha := sample_advance eng v hw
    obtain ⟨v', h1, h2⟩ := passLoop_total eng n w (by
      intro k hk w' hw'
      refine h (k + 1) (by omega) w' ?_
      rw [hw', trajectory_succ, ha])
    refine ⟨v', ?_, by rw [h2, trajectory_succ, ha]⟩
    unfold passLoop
    rw [hw]
    exact h1

/-- A run whose passes all succeed along a sequence of manifolds and generators, with outputs that
do not throw and leave the generator alone, succeeds and ends in the last of them. -/
theorem runLoop_total (ops : RunOps M S (G × F)) (cad : Cadence) (writes : Bool) (x : ℕ → M × G)
    (hr : ∀ m c s g f, ∃ f', ops.report m c s (g, f) = (.ok (), (g, f')))
    (hc : ∀ m c s n g f, ∃ f', ops.checkpoint m c s n (g, f) = (.ok (), (g, f'))) :
    ∀ (n k : ℕ),
    (∀ p, k ≤ p → p < k + n → ∀ s f, ∃ r f', ops.pass (x p).1 s (ops.n3 (x p).1) ((x p).2, f) =
      (.ok r, ((x (p + 1)).2, f')) ∧ r.manifold = (x (p + 1)).1) →
    ∀ (v : RunVars M S) (f : F), v.current = (x k).1 → ∃ v' f',
      runLoop ops cad writes n (k : ℤ) v ((x k).2, f) = (.ok v', ((x (k + n)).2, f')) ∧ v'.current = (x (k + n)).1
  | 0, k, _, v, f, hv => ⟨v, f, rfl, hv⟩
  | n + 1, k, h, v, f, hv => by
    obtain ⟨r, f1, hp, hm⟩ := h k le_rfl (by omega) v.state f
    have hstep : ∃ v1 f2, runPass ops cad writes ((k : ℤ) + 1) v ((x k).2, f) = (.ok v1, ((x (k + 1)).2, f2)) ∧
        v1.current = (x (k + 1)).1 := by
      unfold runPass
      rw [hv]
      dsimp only
      rw [hp]
      dsimp only
      split
      · obtain ⟨f2, h2⟩ := hr r.manifold (v.totals.accumulate r.commandResults) r.strategyState (x (k + 1)).2 f1
        rw [h2]
        dsimp only
        split
        · obtain ⟨f3, h3⟩ := hc r.manifold (v.totals.accumulate r.commandResults) r.strategyState ((k : ℤ) + 1)
            (x (k + 1)).2 f2
          rw [h3]
          exact ⟨_, _, rfl, hm⟩
        · exact ⟨_, _, rfl, hm⟩
      · exact ⟨_, _, rfl, hm⟩
    obtain ⟨v1, f2, h1, hv1⟩ := hstep
    obtain ⟨v', f', h2, hv'⟩ := runLoop_total ops cad writes x hr hc n (k + 1)
      (fun p h1 h2 => h p (by omega) (by omega)) v1 f2 hv1
    refine ⟨v', f', ?_, by rw [hv']; congr 2; omega⟩
    unfold runLoop
    rw [h1]
    dsimp only
    have e : k + 1 + n = k + (n + 1) := by omega
    rw [← e, ← h2]
    push_cast
    rfl

end Generic

/-- C62.  A whole Metropolis run with the real components: if its cadence is valid, its outputs do
not throw, its trial values lie in [0, 1], and every manifold it tries a transition on has fresh
centroids and counts away from the edge of the 32-bit range, then it does not throw.  It makes
exactly the scheduled transitions, each pass as many as its first manifold has tetrahedra, and
returns the last manifold of its trajectory, which is in order, has the foliation parameters of the
initial manifold, and has everything C24 promises preserved. -/
theorem C62_run_total (hl : env.Lawful) {R : Rounding} (hR : R.Lawful) {α κ Λ : ℚ} (hα : 1 / 2 < α)
    (ha : InLongDouble α) (hk : InLongDouble κ) (hL : InLongDouble Λ)
    (drawMove : G → Fin 5 × G) (drawTrial : G → LD × G)
    (htrial : ∀ g, ∃ u : ℚ, (drawTrial g).1 = .fin u ∧ 0 ≤ u ∧ u ≤ 1)
    (out : MetroOutput (Mfld V) G F) (hout : Harmless out) (s : MetroStrategy G) (m : Mfld V) (f : F)
    (hm : Fit env m)
    (hgood : ∀ k < passStart (metroEngine env R ⟨.fin α, .fin κ, .fin Λ⟩ drawMove drawTrial) (m, s.gen)
        s.cadence.passes.toNat,
      let n := (trajectory (metroEngine env R ⟨.fin α, .fin κ, .fin Λ⟩ drawMove drawTrial) k (m, s.gen)).1
      FreshCentroids env n.tri ∧ Roomy n.geometry) :
    ∃ m' s' f', s.run (metroEngine env R ⟨.fin α, .fin κ, .fin Λ⟩ drawMove drawTrial) out m f = (.ok m', s', f') ∧
      (m', s'.gen) = trajectory (metroEngine env R ⟨.fin α, .fin κ, .fin Λ⟩ drawMove drawTrial)
        (passStart (metroEngine env R ⟨.fin α, .fin κ, .fin Λ⟩ drawMove drawTrial) (m, s.gen)
          s.cadence.passes.toNat) (m, s.gen) ∧
      Next env m m' := by
  generalize heng : metroEngine env R ⟨.fin α, .fin κ, .fin Λ⟩ drawMove drawTrial = eng at *
  have hstep : ∀ w : MetroVars (Mfld V) G, Fit env w.current → FreshCentroids env w.current.tri →
      Roomy w.current.geometry → ∃ o w', sampleTransition eng w = (.ok o, w') ∧ Next env w.current w'.current := by
    intro w h1 h2 h3
    unfold sampleTransition
    have e1 : eng.drawMove = drawMove := by rw [← heng]; rfl
    have e2 : eng.drawTrial = drawTrial := by rw [← heng]; rfl
    rw [e1, e2]
    rcases drawMove w.gen with ⟨i, g1⟩
    dsimp only
    obtain ⟨u, hu, u0, u1⟩ := htrial g1
    rcases hd : drawTrial g1 with ⟨u', g2⟩
    rw [hd] at hu
    dsimp only at hu ⊢
    subst hu
    obtain ⟨o, w', hw, hn⟩ := C61_transition_total hl hR hα ha hk hL drawMove drawTrial (i.val : ℤ) u0 u1
      { w with gen := g2 } h1 h2 h3
    rw [heng] at hw
    rw [hw]
    exact ⟨_, _, rfl, hn⟩
  have hfit : ∀ k, k ≤ passStart eng (m, s.gen) s.cadence.passes.toNat →
      Next env m (trajectory eng k (m, s.gen)).1 := by
    intro k
    induction k with
    | zero => intro _; exact .refl hm
    | succ k ih =>
      intro hk'
      have hn := ih (by omega)
      obtain ⟨g1, g2⟩ := hgood k (by omega)
      generalize hx : trajectory eng k (m, s.gen) = x at *
      obtain ⟨o, w', hw, hnext⟩ := hstep ⟨x.1, {}, {}, x.2⟩ hn.fit g1 g2
      have hadv := sample_advance eng _ hw
      rw [trajectory_add eng k 1, hx]
      have : trajectory eng 1 x = (w'.current, w'.gen) := by rw [hadv]; rfl
      rw [this]
      exact hn.trans hnext
  have hmono : ∀ p q, p ≤ q → passStart eng (m, s.gen) p ≤ passStart eng (m, s.gen) q := by
    intro p q h
    induction q with
    | zero => have : p = 0 := by omega
              subst this; exact le_rfl
    | succ q ih =>
      rcases Nat.lt_or_ge q p with h' | h'
      · have : p = q + 1 := by omega
        subst this; exact le_rfl
      · exact (ih h').trans (Nat.le_add_right _ _)
  obtain ⟨v', f1, hv, hcur⟩ := runLoop_total
    { n3 := eng.n3, pass := metroPass eng, report := out.report, checkpoint := out.checkpoint }
    s.cadence s.writesFiles (fun p => trajectory eng (passStart eng (m, s.gen) p) (m, s.gen))
    hout.report hout.checkpoint s.cadence.passes.toNat 0 (by
      intro p _ hp st f
      dsimp only
      generalize hx : trajectory eng (passStart eng (m, s.gen) p) (m, s.gen) = x
      obtain ⟨w, hw1, hw2⟩ := passLoop_total eng (eng.n3 x.1).toNat ⟨x.1, {}, st, x.2⟩ (by
        intro k hk' w hw
        dsimp only at hw
        have hle : passStart eng (m, s.gen) p + k < passStart eng (m, s.gen) s.cadence.passes.toNat := by
          refine lt_of_lt_of_le ?_ (hmono (p + 1) _ (by omega))
          show _ < passStart eng (m, s.gen) p + _
          rw [hx]
          omega
        have hpt : trajectory eng (passStart eng (m, s.gen) p + k) (m, s.gen) = (w.current, w.gen) := by
          rw [hw, trajectory_add, hx]
        obtain ⟨g1, g2⟩ := hgood _ hle
        have hf := (hfit _ hle.le).fit
        rw [hpt] at g1 g2 hf
        obtain ⟨o, w', h, -⟩ := hstep w hf g1 g2
        exact ⟨o, w', h⟩)
      have hnext : trajectory eng (passStart eng (m, s.gen) (p + 1)) (m, s.gen) = (w.current, w.gen) := by
        show trajectory eng (passStart eng (m, s.gen) p + _) (m, s.gen) = _
        rw [trajectory_add, hx, hw2]
      rw [hnext]
      unfold metroPass
      dsimp only
      rw [hw1]
      exact ⟨_, f, rfl, rfl⟩) ⟨m, {}, { geometry := eng.geometry m }, 0⟩ f rfl
  simp only [Nat.zero_add, Nat.cast_zero] at hv hcur
  obtain ⟨f2, hf2⟩ := hout.report v'.current v'.totals v'.state
    (trajectory eng (passStart eng (m, s.gen) s.cadence.passes.toNat) (m, s.gen)).2 f1
  refine ⟨v'.current, { s with gen := (trajectory eng (passStart eng (m, s.gen) s.cadence.passes.toNat) (m, s.gen)).2, cmd := v'.totals, stats := v'.state, checkpointEvents := v'.events }, f2, ?_, ?_, ?_⟩
  · unfold MetroStrategy.run executeMoveRun
    dsimp only
    have h0 : trajectory eng (passStart eng (m, s.gen) 0) (m, s.gen) = (m, s.gen) := rfl
    rw [h0] at hv
    rw [hv]
    dsimp only
    rw [hf2]
  · rw [hcur]
  · rw [hcur]; exact hfit _ le_rfl

/-! ### Queued moves and the unconditional strategy -/

/-- One queued move with the real components, on a manifold in order with fresh centroids: no
exception, and the manifold is in order afterwards. -/
theorem apply_next (hl : env.Lawful) {m : Mfld V} (hm : Fit env m) (hfr : FreshCentroids env m.tri)
    (mv : MoveType) (g : G) :
    Next env m (Spec.apply (commandEngine env) mv (m, g)).1 ∧
    (∀ (c : Command (Mfld V)) (rest : List ℤ) (code : ℤ), MoveType.ofCode code = some mv → c.manifold = m →
      ∃ c', c.stepBack (commandEngine env) rest code g = (c', (Spec.apply (commandEngine env) mv (m, g)).2, none) ∧
        c'.manifold = (Spec.apply (commandEngine env) mv (m, g)).1 ∧ c'.queue = rest) := by
  have hp : (commandEngine env).applyMove mv m g = wrapMove env m (Moves.doMove env mv m.tri g) := rfl
  rcases wrapMove_cases (mv := mv) hl hm hfr (r := Moves.doMove env mv m.tri g)
    (fun K' g' h => ⟨g, g', .inl h⟩) with ⟨f, g', e⟩ | ⟨m', g', e, hret, hb, hr, hs⟩
  · rw [← hp] at e
    have ea : Spec.apply (commandEngine env) mv (m, g) = (m, g') := by simp only [Spec.apply, e]
    refine ⟨by rw [ea]; exact .refl hm, ?_⟩
    rintro c rest code hc rfl
    rw [ea]
    unfold Command.stepBack
    rw [hc]
    dsimp only
    rw [e]
    exact ⟨_, rfl, rfl, rfl⟩
  · rw [← hp] at e
    have ea : Spec.apply (commandEngine env) mv (m, g) =
        (if (commandEngine env).check m m' mv then m' else m, g') := by simp only [Spec.apply, e]
    by_cases hc : (commandEngine env).check m m' mv = true
    · rw [if_pos hc] at ea
      obtain ⟨f1, st, f2⟩ := fit_of_checked hl hm hfr hret hb hr hs hc
      refine ⟨by rw [ea]; exact ⟨f1, f2, hr, hs, .single st⟩, ?_⟩
      rintro c rest code hcode rfl
      rw [ea]
      unfold Command.stepBack
      rw [hcode]
      dsimp only
      rw [e]
      dsimp only
      rw [if_pos hc]
      exact ⟨_, rfl, rfl, rfl⟩
    · rw [if_neg hc] at ea
      refine ⟨by rw [ea]; exact .refl hm, ?_⟩
      rintro c rest code hcode rfl
      rw [ea]
      unfold Command.stepBack
      rw [hcode]
      dsimp only
      rw [e]
      dsimp only
      rw [if_neg hc]
      exact ⟨_, rfl, rfl, rfl⟩

theorem executeLoop_total (hl : env.Lawful) : ∀ (l : List MoveType) (c : Command (Mfld V)) (g : G),
    Fit env c.manifold →
    (∀ n ∈ tried (commandEngine env) l (c.manifold, g), FreshCentroids env n.tri) →
    ∃ c', Command.executeLoop (commandEngine env) (l.map fun mv => (mv.asInteger.val : ℤ)) c g =
        (c', (applyAll (commandEngine env) l (c.manifold, g)).2, .done) ∧
      c'.manifold = (applyAll (commandEngine env) l (c.manifold, g)).1 ∧
      (l ≠ [] → c'.queue = []) ∧ Next env c.manifold c'.manifold
  | [], c, g, hf, _ => ⟨c, rfl, rfl, fun h => absurd rfl h, .refl hf⟩
  | mv :: l, c, g, hf, hfr => by
    obtain ⟨hn, hstep⟩ := apply_next hl hf (hfr _ (by simp [tried])) mv g
    have hcode : MoveType.ofCode (mv.asInteger.val : ℤ) = some mv := by cases mv <;> rfl
    obtain ⟨c1, h1, h2, h3⟩ := hstep c (l.map fun mv => (mv.asInteger.val : ℤ)).reverse _ hcode rfl
    obtain ⟨c', h4, h5, h6, h7⟩ := executeLoop_total hl l c1
      (Spec.apply (commandEngine env) mv (c.manifold, g)).2 (by rw [h2]; exact hn.fit) (by
        intro n hx
        refine hfr n ?_
        rw [h2] at hx
        exact List.mem_cons_of_mem _ hx)
    rw [h2] at h4 h5 h7
    refine ⟨c', ?_, h5, fun _ => ?_, hn.trans h7⟩
    · unfold Command.executeLoop
      rw [List.map_cons]
      dsimp only
      rw [h1]
      exact h4
    · by_cases hne : l = []
      · subst hne
        simp only [List.map_nil, Command.executeLoop] at h4
        cases h4
        simpa using h3
      · exact h6 hne

/-- C63.  A batch of queued moves with the real components, on a manifold in order and with every
move tried on a manifold with fresh centroids: the batch runs to its end without an exception, the
moves are tried in the order in which they were queued, and the resulting manifold is in order, has
the same foliation parameters and has everything C24 promises preserved. -/
theorem C63_batch_total (hl : env.Lawful) (m : Mfld V) (l : List MoveType) (g : G) (hm : Fit env m)
    (hfr : ∀ n ∈ tried (commandEngine env) l (m, g), FreshCentroids env n.tri) :
    ∃ c', (l.foldl (fun (c : Command (Mfld V)) mv => c.enqueue (mv.asInteger.val : ℤ)) (Command.new m)).execute
        (commandEngine env) g = (c', (applyAll (commandEngine env) l (m, g)).2, .done) ∧
      c'.manifold = (applyAll (commandEngine env) l (m, g)).1 ∧ c'.queue = [] ∧ Next env m c'.manifold := by
  have hq : ∀ (l : List MoveType) (c : Command (Mfld V)),
      (l.foldl (fun (c : Command (Mfld V)) mv => c.enqueue (mv.asInteger.val : ℤ)) c).queue =
        (l.map fun mv => (mv.asInteger.val : ℤ)).reverse ++ c.queue ∧
      (l.foldl (fun (c : Command (Mfld V)) mv => c.enqueue (mv.asInteger.val : ℤ)) c).manifold = c.manifold := by
    intro l
    induction l with
    | nil => intro c; simp
    | cons a l ih =>
      intro c
      obtain ⟨h1, h2⟩ := ih (c.enqueue (a.asInteger.val : ℤ))
      simp only [List.foldl_cons, List.map_cons, List.reverse_cons, List.append_assoc, h1, h2]
      exact ⟨by simp [Command.enqueue], rfl⟩
  obtain ⟨h1, h2⟩ := hq l (Command.new m)
  generalize hc : l.foldl (fun (c : Command (Mfld V)) mv => c.enqueue (mv.asInteger.val : ℤ)) (Command.new m) = c at h1 h2
  have hcm : c.manifold = m := h2
  have hcq : c.queue.reverse = l.map fun mv => (mv.asInteger.val : ℤ) := by rw [h1]; simp [Command.new]
  obtain ⟨c', h4, h5, h6, h7⟩ := executeLoop_total hl l c g (by rw [hcm]; exact hm) (by rw [hcm]; exact hfr)
  rw [hcm] at h4 h5 h7
  refine ⟨c', ?_, h5, ?_, h7⟩
  · unfold Command.execute
    rw [hcq]; exact h4
  · by_cases hne : l = []
    · subst hne
      simp only [List.map_nil, Command.executeLoop] at h4
      cases h4
      simpa [Command.new] using h1
    · exact h6 hne

theorem enqueueRandom_drawn {M : Type} (draw : G → Fin 5 × G) : ∀ (n : ℕ) (c : Command M) (g : G),
    (enqueueRandom draw n c g).1.queue =
      ((drawn draw n g).1.map fun mv => (mv.asInteger.val : ℤ)).reverse ++ c.queue ∧
    (enqueueRandom draw n c g).1.manifold = c.manifold ∧ (enqueueRandom draw n c g).2 = (drawn draw n g).2
  | 0, c, g => by simp [enqueueRandom, drawn]
  | n + 1, c, g => by
    rcases h : draw g with ⟨i, g'⟩
    obtain ⟨h1, h2, h3⟩ := enqueueRandom_drawn draw n (c.enqueue (i.val : ℤ)) g'
    simp only [enqueueRandom, drawn, h]
    refine ⟨?_, by rw [h2]; rfl, h3⟩
    rw [h1]
    simp only [List.map_cons, List.reverse_cons, List.append_assoc, Command.enqueue]
    congr 1
    fin_cases i <;> rfl

/-- C63.  A whole run of the unconditional strategy with the real components, outputs that do not
throw, and every move tried on a manifold with fresh centroids: it does not throw, every pass tries
as many moves as its first manifold has tetrahedra, in the order drawn, and the returned manifold is
in order, has the foliation parameters of the initial one, and has everything C24 promises
preserved. -/
theorem C63_always_run_total (hl : env.Lawful) (drawMove : G → Fin 5 × G)
    (report : Mfld V → CommandResults → Eff (G × F) Unit)
    (checkpoint : Mfld V → CommandResults → Int → Eff (G × F) Unit)
    (hout : HarmlessAlways (alwaysEngine env drawMove report checkpoint)) (s : AlwaysStrategy G) (m : Mfld V) (f : F)
    (hm : Fit env m)
    (hfr : ∀ p < s.cadence.passes.toNat,
      ∀ n ∈ alwaysTried (alwaysEngine env drawMove report checkpoint)
        ((alwaysPass (alwaysEngine env drawMove report checkpoint))^[p] (m, s.gen)), FreshCentroids env n.tri) :
    ∃ m' s' f', s.run (alwaysEngine env drawMove report checkpoint) m f = (.ok m', s', f') ∧
      (m', s'.gen) = (alwaysPass (alwaysEngine env drawMove report checkpoint))^[s.cadence.passes.toNat] (m, s.gen) ∧
      Next env m m' := by
  generalize heng : alwaysEngine env drawMove report checkpoint = eng at *
  have hce : eng.toCommandEngine = commandEngine env := by rw [← heng]; rfl
  have hpass : ∀ (x : Mfld V × G) (st : Unit) (f : F), Fit env x.1 →
      (∀ n ∈ alwaysTried eng x, FreshCentroids env n.tri) →
      ∃ r, eng.pass x.1 st (eng.n3 x.1) (x.2, f) = (.ok r, ((alwaysPass eng x).2, f)) ∧
        r.manifold = (alwaysPass eng x).1 ∧ Next env x.1 (alwaysPass eng x).1 := by
    intro x st f hx hfx
    obtain ⟨q1, q2, q3⟩ := enqueueRandom_drawn (M := Mfld V) eng.drawMove (eng.n3 x.1).toNat (Command.new x.1) x.2
    unfold alwaysTried at hfx
    unfold alwaysPass
    rw [hce] at hfx ⊢
    generalize hd : drawn eng.drawMove (eng.n3 x.1).toNat x.2 = d at *
    obtain ⟨l, g1⟩ := d
    rcases he : enqueueRandom eng.drawMove (eng.n3 x.1).toNat (Command.new x.1) x.2 with ⟨c, g2⟩
    rw [he] at q1 q2 q3
    dsimp only at q1 q2 q3 hfx
    subst q3
    have hcm : c.manifold = x.1 := q2
    obtain ⟨c', h4, h5, -, h7⟩ := executeLoop_total hl l c g2 (by rw [hcm]; exact hx) (by rw [hcm]; exact hfx)
    rw [hcm] at h4 h5 h7
    have hex : c.execute eng.toCommandEngine g2 = (c', (applyAll (commandEngine env) l (x.1, g2)).2, .done) := by
      unfold Command.execute
      rw [q1, hce]
      simpa [Command.new] using h4
    refine ⟨⟨c'.manifold, c'.results, ()⟩, ?_, h5, by rw [← h5]; exact h7⟩
    simp only [AlwaysEngine.pass, he, hex, Command.consumeResults, Command.resetCounters]
  have hfit : ∀ p ≤ s.cadence.passes.toNat, Next env m ((alwaysPass eng)^[p] (m, s.gen)).1 := by
    intro p
    induction p with
    | zero => intro _; exact .refl hm
    | succ p ih =>
      intro hp
      have hn := ih (by omega)
      obtain ⟨r, -, -, hnext⟩ := hpass _ () f hn.fit (hfr p (by omega))
      rw [Function.iterate_succ_apply']
      exact hn.trans hnext
  obtain ⟨v', f1, hv, hcur⟩ := runLoop_total
    { n3 := eng.n3, pass := eng.pass, report := fun m c _ => eng.report m c,
      checkpoint := fun m c _ n => eng.checkpoint m c n }
    s.cadence s.writesFiles (fun p => (alwaysPass eng)^[p] (m, s.gen))
    (fun m c _ g f => hout.report m c g f) (fun m c _ n g f => hout.checkpoint m c n g f)
    s.cadence.passes.toNat 0 (by
      intro p _ hp st f
      dsimp only
      obtain ⟨r, h1, h2, -⟩ := hpass _ st f (hfit p (by omega)).fit (hfr p (by omega))
      rw [Function.iterate_succ_apply']
      exact ⟨r, f, h1, h2⟩) ⟨m, {}, (), 0⟩ f rfl
  simp only [Nat.zero_add, Nat.cast_zero] at hv hcur
  obtain ⟨f2, hf2⟩ := hout.report v'.current v'.totals ((alwaysPass eng)^[s.cadence.passes.toNat] (m, s.gen)).2 f1
  refine ⟨v'.current, { s with gen := ((alwaysPass eng)^[s.cadence.passes.toNat] (m, s.gen)).2, results := v'.totals, checkpointEvents := v'.events }, f2, ?_, ?_, ?_⟩
  · unfold AlwaysStrategy.run executeMoveRun
    dsimp only
    have h0 : ((alwaysPass eng)^[0] (m, s.gen)) = (m, s.gen) := rfl
    rw [h0] at hv
    rw [hv]
    dsimp only
    rw [hf2]
  · rw [hcur]
  · rw [hcur]; exact hfit _ le_rfl

/-! ### A concrete simulation -/

namespace SimExample
open Fixture

instance (g : Geometry) : Decidable (Roomy g) := by unfold Roomy; infer_instance

/-- Always propose a (4,4) move; always draw the trial value 0, so every candidate is accepted. -/
def alwaysFlip (g : ℕ) : Fin 5 × ℕ := (4, g)
def zeroTrial (g : ℕ) : LD × ℕ := (.fin 0, g)

/-- What one transition does in that setting, in computable terms. -/
def flipStep (x : Mfld ℕ × ℕ) : Mfld ℕ × ℕ :=
  match wrapMove Fixture.env x.1 (Moves.propose Fixture.env .fourFour x.1.tri x.2) with
  | (.ok (.ok m'), g') => (if checkMove x.1.view m'.view .fourFour then m' else x.1, g')
  | (_, g') => (x.1, g')

noncomputable abbrev exampleEngine : MetroEngine (Mfld ℕ) ℕ Mp :=
  metroEngine Fixture.env .exact ⟨.fin 1, .fin 1, .fin 1⟩ alwaysFlip zeroTrial

theorem inLongDouble_one : InLongDouble 1 := by
  unfold InLongDouble
  simp only [Rat.cast_one, abs_one]
  exact one_le_zpow₀ (by norm_num) (by norm_num)

theorem advance_flip (x : Mfld ℕ × ℕ) (hm : Fit Fixture.env x.1) (hfr : FreshCentroids Fixture.env x.1.tri)
    (hroom : Roomy x.1.geometry) : advance exampleEngine x = flipStep x := by
  have e : advance exampleEngine x =
      ((resolve exampleEngine 4 (.fin 0) ⟨x.1, {}, {}, x.2⟩).2.current,
       (resolve exampleEngine 4 (.fin 0) ⟨x.1, {}, {}, x.2⟩).2.gen) := by
    unfold advance
    dsimp only
    rw [sampleTransition_snd]
    rfl
  rw [e]
  unfold resolve
  have hg : (!(LD.fin 0).isFinite || (LD.fin 0).lt (.fin 0) || (LD.fin 1).lt (.fin 0)) = false := by decide
  rw [hg]
  simp only [Bool.false_eq_true, if_false]
  have hcode : MoveType.ofCode 4 = some .fourFour := rfl
  rw [hcode]
  dsimp only
  have hp : exampleEngine.propose .fourFour x.1 x.2 =
    wrapMove Fixture.env x.1 (Moves.propose Fixture.env .fourFour x.1.tri x.2) := rfl
  rw [hp]
  unfold flipStep
  rcases wrapMove_cases (mv := .fourFour) lawful hm hfr (r := Moves.propose Fixture.env .fourFour x.1.tri x.2)
    (fun K' g' h => ⟨x.2, g', .inr h⟩) with ⟨f, g', e⟩ | ⟨m', g', e, hret, hb, hr, hs⟩
  · rw [e]
  · rw [e]
    dsimp only
    by_cases hc : checkMove x.1.view m'.view .fourFour = true
    · have hce : exampleEngine.check x.1 m' .fourFour = true := hc
      simp only [hce, hc, Bool.not_true, Bool.false_eq_true, if_false, if_true]
      obtain ⟨c1, c2⟩ := counts_of_checked hroom hc
      obtain ⟨A, hA, hA0, -⟩ := C08_acceptance_defined lawful hm.sound (fun _ => hfr) hret hm.caches hb c1 c2
        exactLawful (by norm_num) inLongDouble_one inLongDouble_one inLongDouble_one
      have hpr : exampleEngine.prob (exampleEngine.geometry x.1) (exampleEngine.geometry m') .fourFour = .ok (.fin A) := hA
      simp only [hpr]
      have hge : exampleEngine.probGe (.fin A) 0 = true := (C07_accepts_iff A 0).2 (by simpa using hA0)
      rw [if_pos hge]
    · have hce : exampleEngine.check x.1 m' .fourFour = false := Bool.eq_false_iff.2 hc
      simp only [hce, hc, Bool.not_false, if_true, Bool.false_eq_true, if_false]

/-- The hypotheses of C61-C63 are met by a run that changes the complex: the octahedron around a
spacelike edge, flipped back and forth for one pass of four transitions. -/
example : ∃ m : Mfld ℕ, Fit Fixture.env m ∧
    (∀ k < passStart exampleEngine (m, 0) 1,
      FreshCentroids Fixture.env (trajectory exampleEngine k (m, 0)).1.tri ∧
      Roomy (trajectory exampleEngine k (m, 0)).1.geometry) ∧
    passStart exampleEngine (m, 0) 1 = 4 ∧
    (trajectory exampleEngine 1 (m, 0)).1.tri.cells ≠ m.tri.cells ∧
    (∀ n ∈ tried (commandEngine Fixture.env) [.fourFour, .twoThree, .fourFour] (m, 0), FreshCentroids Fixture.env n.tri) ∧
    (applyAll (commandEngine Fixture.env) [.fourFour, .twoThree] (m, 0)).1.tri.cells ≠ m.tri.cells := by
  have key : ((buildCaches Fixture.env k44).toOption.map fun cs =>
      decide ((∀ k ∈ List.range 4, FreshCentroids Fixture.env (flipStep^[k] (⟨k44, cs, 0, 0⟩, 0)).1.tri ∧
          Roomy (flipStep^[k] (⟨k44, cs, 0, 0⟩, 0)).1.geometry) ∧
        (Mfld.geometry ⟨k44, cs, 0, 0⟩).N3 = 4 ∧ (flipStep (⟨k44, cs, 0, 0⟩, 0)).1.tri.cells ≠ k44.cells ∧
        (∀ n ∈ tried (commandEngine Fixture.env) [.fourFour, .twoThree, .fourFour] (⟨k44, cs, 0, 0⟩, 0),
          FreshCentroids Fixture.env n.tri) ∧
        (applyAll (commandEngine Fixture.env) [.fourFour, .twoThree] (⟨k44, cs, 0, 0⟩, 0)).1.tri.cells ≠ k44.cells)) =
      some true := by decide +kernel
  cases hb : buildCaches Fixture.env k44 with
  | error e => rw [hb] at key; simp [Except.toOption] at key
  | ok cs =>
    rw [hb] at key
    simp only [Except.toOption, Option.map_some, Option.some.injEq, decide_eq_true_eq] at key
    obtain ⟨h1, h2, h3, h4, h5⟩ := key
    simp only [List.mem_range] at h1
    generalize hm : (⟨k44, cs, 0, 0⟩ : Mfld ℕ) = m at *
    have ht : m.tri = k44 := by rw [← hm]
    have hfit : Fit Fixture.env m := by rw [← hm]; exact ⟨sound44, hb⟩
    have htr : ∀ k, k ≤ 4 → trajectory exampleEngine k (m, 0) = flipStep^[k] (m, 0) ∧
        Next Fixture.env m (trajectory exampleEngine k (m, 0)).1 := by
      intro k
      induction k with
      | zero => intro _; exact ⟨rfl, .refl hfit⟩
      | succ k ih =>
        intro hk
        obtain ⟨e, hn⟩ := ih (by omega)
        obtain ⟨g1, g2⟩ := h1 k (by omega)
        rw [← e] at g1 g2
        have ha := advance_flip _ hn.fit g1 g2
        have e' : trajectory exampleEngine (k + 1) (m, 0) = advance exampleEngine (trajectory exampleEngine k (m, 0)) := by
          unfold trajectory; rw [Function.iterate_succ_apply']
        refine ⟨by rw [e', ha, e, Function.iterate_succ_apply'], ?_⟩
        obtain ⟨o, v', hv, hnext⟩ := C61_transition_total (R := .exact) (α := 1) (κ := 1) (Λ := 1) lawful exactLawful
          (by norm_num) inLongDouble_one inLongDouble_one inLongDouble_one alwaysFlip zeroTrial 4 (u := 0) le_rfl (by norm_num)
          ⟨(trajectory exampleEngine k (m, 0)).1, {}, {}, (trajectory exampleEngine k (m, 0)).2⟩ hn.fit g1 g2
        have ecur : (advance exampleEngine (trajectory exampleEngine k (m, 0))).1 = v'.current := by
          unfold advance
          dsimp only
          rw [sampleTransition_snd]
          have : v' = (resolve exampleEngine 4 (.fin 0)
            ⟨(trajectory exampleEngine k (m, 0)).1, {}, {}, (trajectory exampleEngine k (m, 0)).2⟩).2 := by rw [hv]
          rw [this]
          rfl
        rw [e', ecur]
        exact hn.trans hnext
    have hps : passStart exampleEngine (m, 0) 1 = 4 := by
      have : exampleEngine.n3 m = 4 := h2
      simp [passStart, trajectory, this]
    refine ⟨m, hfit, ?_, hps, ?_, h4, by rw [ht]; exact h5⟩
    · intro k hk
      rw [hps] at hk
      rw [(htr k (by omega)).1]
      exact h1 k hk
    · rw [(htr 1 (by omega)).1, ht]
      exact h3

end SimExample

end CDT.Props

import Verif.Lemmas.Transcript
/-
The whole main path of the programs, with their output.
-/
namespace CDT
open Spec
variable {M S P T : Type} {voice : Voice M S} {faults : PrintFaults} (host : Host M S P T) (out : Outside M S)
  (cfg : SimConfig) (start : M)

/-- Every artifact was announced. -/
def AllAnnounced (w : Machine) (t : Bytes) : Prop := ∀ a ∈ w.log, fileText a.path <:+: t

theorem AllAnnounced.grow {w : Machine} {t : Bytes} (h : AllAnnounced w t) (u : Bytes) : AllAnnounced w (t ++ u) :=
  fun a ha => (h a ha).trans (List.prefix_append _ _).isInfix

theorem writeArtifactAloud_announced {m : M} {md : Metadata} {w : Machine} {c : Console} (h : AllAnnounced w c.text) :
    AllAnnounced (writeArtifactAloud faults host out m md (w, c)).2.1
      (writeArtifactAloud faults host out m md (w, c)).2.2.text := by
  rcases writeArtifactAloud_tells (faults := faults) host out m md w c with
    ⟨w', c', a, e, h1, h2⟩ | ⟨x, w', c', path, t, e, h1, h2, h3⟩
  · rw [e]
    intro b hb
    simp only at hb ⊢
    rw [h1, List.mem_append, List.mem_singleton] at hb
    rcases hb with hb | rfl
    · rw [h2]; exact h.grow _ b hb
    · rw [h2]; exact (List.suffix_append _ _).isInfix
  · rw [e]
    intro b hb
    simp only at hb ⊢
    rw [h1] at hb
    rw [h2]; exact h.grow _ b hb

theorem samplerAloud_announced (sampler : Sampler S) {w : Machine} {c : Console} (h : AllAnnounced w c.text) :
    AllAnnounced (sampler.runAloud faults host out start w c).2.2.1
      (sampler.runAloud faults host out start w c).2.2.2.text := by
  have L : Lasting faults (W := Random S × Machine)
      { n3 := (host.engine sampler.parameters).n3, pass := fun m st n => besideConsole (metroPass (host.engine sampler.parameters) m st n),
        report := fun _ cmd st => onConsole (sayAll faults (metroResultLines cmd st)),
        checkpoint := Sampler.checkpointAloud faults host out sampler.reproducibility }
      metroResultLines (fun w t => AllAnnounced w.2 t) := by
    refine ⟨fun u h => h.grow u, ?_, fun _ _ _ => rfl, ?_⟩
    · rintro m s n ⟨g, w⟩ c h
      have hk := metroPass_keeps (host.engine sampler.parameters) m s n g w
      show AllAnnounced (metroPass (host.engine sampler.parameters) m s n (g, w)).2.2 c.text
      rw [hk]
      exact h
    · rintro m cmd s n ⟨g, w⟩ c h
      unfold Sampler.checkpointAloud
      dsimp only
      rcases Sampler.metadata host sampler.reproducibility m .checkpoint n s with e | md
      · exact h
      · dsimp only
        have h1 := writeArtifactAloud_announced (faults := faults) host out (m := m) (md := md) h
        rcases he : writeArtifactAloud faults host out m md (w, c) with ⟨r, w', c'⟩
        rw [he] at h1
        cases r <;> exact h1
  have key := executeMoveRunAloud_lasting (cad := sampler.strategy.cadence) (writes := sampler.strategy.writesFiles) L
    ⟨ascii "Metropolis-Hastings", sampler.strategy.gen.seed, sampler.strategy.gen.stream⟩ start
    { geometry := (host.engine sampler.parameters).geometry start } (w := (sampler.strategy.gen, w)) h
  unfold Sampler.runAloud MetroStrategy.runAloud
  dsimp only
  rcases he : executeMoveRunAloud faults (W := Random S × Machine)
      { n3 := (host.engine sampler.parameters).n3, pass := fun m st n => besideConsole (metroPass (host.engine sampler.parameters) m st n),
        report := fun _ cmd st => onConsole (sayAll faults (metroResultLines cmd st)),
        checkpoint := Sampler.checkpointAloud faults host out sampler.reproducibility }
      sampler.strategy.cadence ⟨ascii "Metropolis-Hastings", sampler.strategy.gen.seed, sampler.strategy.gen.stream⟩
      sampler.strategy.writesFiles start { geometry := (host.engine sampler.parameters).geometry start }
      ((sampler.strategy.gen, w), c) with ⟨r, ⟨g', w'⟩, c'⟩
  rw [he] at key
  cases r <;> exact key

/-- A run with output of the sampler of `cdt`: what it prints and logs. -/
theorem samplerAloud_text {sampler : Sampler S} (s1 : sampler.parameters = ⟨cfg.alpha, cfg.k, cfg.lambda⟩)
    (s2 : sampler.strategy = { cadence := ⟨cfg.passes, cfg.checkpoint⟩, writesFiles := cfg.writeFiles, gen := Random.make host.pcg cfg.triangulation.seed 1 })
    (hc : 1 ≤ cfg.checkpoint) (d0 : Disk) (c : Console) :
    (∃ result sampler' w' c', ∃ nm : ℕ → Path, sampler.runAloud faults host out start ⟨d0, []⟩ c = (.ok result, sampler', w', c') ∧
      c'.text = c.text ++ runText reportText (openingText "Metropolis-Hastings" cfg.triangulation.seed 1) cfg.checkpoint
        cfg.writeFiles (fun p => fileText (nm p)) (runHistory host cfg start cfg.passes.toNat) ∧
      w'.log.map (·.path) = (dueUpTo cfg cfg.passes.toNat).map fun x => nm x.1.toNat) ∨
    ∃ e sampler' w' c' t, ∃ n : ℕ, ∃ nm : ℕ → Path, ∃ d : ℕ, sampler.runAloud faults host out start ⟨d0, []⟩ c = (.error e, sampler', w', c') ∧
      n ≤ cfg.passes.toNat ∧ c'.text = c.text ++ t ∧
      t <+: begunText reportText (openingText "Metropolis-Hastings" cfg.triangulation.seed 1) cfg.checkpoint
        cfg.writeFiles (fun p => fileText (nm p)) cfg.passes.toNat (runHistory host cfg start n) ∧
      d ≤ n ∧ w'.log.map (·.path) = (dueUpTo cfg d).map fun x => nm x.1.toNat := by
  have paths : ∀ (w' : Machine) (nm : ℕ → Path) (g g' : Random S) (n : ℕ),
      Announced (g, (⟨d0, []⟩ : Machine)) (dueNotes cfg.checkpoint cfg.writeFiles (fun p => fileText (nm p)) n 0) (g', w') →
      w'.log.map (·.path) = (dueUpTo cfg n).map fun x => nm x.1.toNat := by
    rintro w' nm g g' n ⟨as, h1, h2⟩
    rw [dueNotes_dueUpTo cfg hc] at h2
    simp only [List.nil_append] at h1
    have h3 : ((dueUpTo cfg n).map fun x => nm x.1.toNat).map fileText = (w'.log.map (·.path)).map fileText := by
      rw [List.map_map, List.map_map, h1]
      exact h2
    exact (fileText_injective.list_map h3).symm
  have key := metroRunAloud_tells (faults := faults) (seed := fun r : Random S => r.seed) (stream := fun r => r.stream)
    (host.engine sampler.parameters) _ (checkpointAloud_tells (faults := faults) host out sampler.reproducibility) sampler.strategy start
    (⟨d0, []⟩ : Machine) c
  unfold Sampler.runAloud
  rw [s1, s2] at key ⊢
  dsimp only at key ⊢
  rcases key with ⟨m', s', f', c', note, e, _, _, _, ht, hL, hN⟩ |
    ⟨x, s', f', c', t, n, note, e, _, _, _, hn, _, ht, hpre, ⟨d, hd, _, hL⟩, hN⟩
  · choose nm hnm using hN
    obtain rfl : note = fun p => fileText (nm p) := funext hnm
    rw [e]
    exact .inl ⟨_, _, _, _, nm, rfl, ht, paths _ _ _ _ _ hL⟩
  · choose nm hnm using hN
    obtain rfl : note = fun p => fileText (nm p) := funext hnm
    rw [e]
    exact .inr ⟨_, _, _, _, t, n, nm, d, rfl, hn, ht, hpre, hd, paths _ _ _ _ _ hL⟩

/-- The file names of the due artifacts, from those of the checkpoints and of the last one. -/
def nameOf (nm : ℕ → Path) (last : Path) : ℤ × ArtifactKind → Path
  | (p, .checkpoint) => nm p.toNat
  | _ => last

theorem nameOf_checkpoint (nm : ℕ → Path) (last : Path) :
    (fun p : ℕ => fileText (nameOf nm last ((p : ℤ), .checkpoint))) = fun p => fileText (nm p) := by
  funext p; simp [nameOf]

theorem dueUpTo_nameOf (hc : 1 ≤ cfg.checkpoint) (nm : ℕ → Path) (last : Path) (n : ℕ) :
    ((dueUpTo cfg n).map fun x => nm x.1.toNat) = (dueUpTo cfg n).map (nameOf nm last) := by
  apply List.map_congr_left
  rintro ⟨p, k⟩ hx
  obtain rfl : k = .checkpoint := (dueUpTo_old cfg hc n _ hx).1
  rfl

/-- The main path of `cdt` after the universe was built. -/
theorem cdtRunAloud_cases {root : Random S} (hroot : root = Random.make host.pcg cfg.triangulation.seed 0)
    (htop : cfg.triangulation.topology = .spherical) (hdim : cfg.triangulation.dimensions = 3)
    (hN : cfg.triangulation.simplices ≠ 0) (hT : cfg.triangulation.timeslices ≠ 0) (hc : 1 ≤ cfg.checkpoint)
    (hP : 1 ≤ cfg.passes)
    (hstart : out.construct cfg.triangulation.simplices cfg.triangulation.timeslices
      (Random.make host.pcg cfg.triangulation.seed 0) cfg.triangulation.initialRadius
      cfg.triangulation.foliationSpacing = .ok start) (d0 : Disk) :
    (∃ w c name, cdtRunAloud voice faults host out root cfg (⟨d0, []⟩, {}) = (.ok (), (w, c)) ∧
      LogOk host cfg start d0 (duties cfg) w ∧ host.valid (stateAfter host cfg start cfg.passes) = true ∧
      AllAnnounced w c.text ∧
      w.log.map (·.path) = (duties cfg).map name ∧ c.text = cdtTranscript host voice cfg start name) ∨
    ∃ e w c done name, cdtRunAloud voice faults host out root cfg (⟨d0, []⟩, {}) = (.error e, (w, c)) ∧
      done <+: duties cfg ∧ LogOk host cfg start d0 done w ∧ AllAnnounced w c.text ∧
      w.log.map (·.path) = done.map name ∧
      ((∃ n, n ≤ cfg.passes.toNat ∧ c.text <+: cdtBegun host voice cfg start name n) ∨
        c.text <+: cdtTranscript host voice cfg start name) := by
  have h0 : LogOk host cfg start d0 [] ⟨d0, []⟩ := ⟨.nil, by simp, fun _ _ => rfl⟩
  have a0 : ∀ t, AllAnnounced ⟨d0, []⟩ t := fun t a ha => by simp at ha
  have hlast : cfg.writeFiles = true → duties cfg = dueUpTo cfg cfg.passes.toNat ++ [(cfg.passes, .finalTriangulation)] := by
    intro hw; unfold duties dueUpTo; rw [if_pos hw, if_pos hw]
  have hnone : ¬ cfg.writeFiles = true → duties cfg = [] ∧ dueUpTo cfg cfg.passes.toNat = [] := by
    intro hw; unfold duties dueUpTo; rw [if_neg hw, if_neg hw]; exact ⟨rfl, rfl⟩
  have hpre : dueUpTo cfg cfg.passes.toNat <+: duties cfg := by
    by_cases hw : cfg.writeFiles = true
    · rw [hlast hw]; exact List.prefix_append _ _
    · rw [(hnone hw).1, (hnone hw).2]
  have head : (cdtParameterLines voice cfg ++ voice.building cfg.triangulation.simplices cfg.triangulation.timeslices
      (Random.make host.pcg cfg.triangulation.seed 0) cfg.triangulation.initialRadius
      cfg.triangulation.foliationSpacing).flatten = cdtHeading voice cfg ++ constructionText host voice cfg.triangulation := by
    rw [List.flatten_append, cdtHeading_eq voice htop hdim]; rfl
  unfold cdtRunAloud
  dsimp only
  rw [show root.split host.pcg initializationStream = Random.make host.pcg cfg.triangulation.seed 0 by rw [hroot]; rfl]
  have toBegun : ∀ t, t <+: cdtPreface host voice cfg start →
      t <+: cdtBegun host voice cfg start (nameOf (fun _ => []) []) 0 := fun t h =>
    h.trans (by unfold cdtBegun; exact List.prefix_append _ _)
  rcases hs1 : sayAll faults (cdtParameterLines voice cfg ++ voice.building cfg.triangulation.simplices
      cfg.triangulation.timeslices (Random.make host.pcg cfg.triangulation.seed 0) cfg.triangulation.initialRadius
      cfg.triangulation.foliationSpacing) {} with ⟨r, c1⟩
  cases r with
  | error e =>
    obtain ⟨u, h1, h2⟩ := sayAll_text faults (cdtParameterLines voice cfg ++ voice.building cfg.triangulation.simplices
      cfg.triangulation.timeslices (Random.make host.pcg cfg.triangulation.seed 0) cfg.triangulation.initialRadius
      cfg.triangulation.foliationSpacing) {}
    rw [hs1] at h1
    rw [head] at h2
    refine .inr ⟨e, _, c1, [], _, rfl, List.nil_prefix, h0, a0 _, rfl, .inl ⟨0, by omega, toBegun _ ?_⟩⟩
    simp only [List.nil_append] at h1
    rw [h1]
    exact h2.trans (List.prefix_append _ _)
  | ok _ =>
    have t1 := sayAll_ok hs1
    rw [head] at t1
    simp only [List.nil_append] at t1
    simp only [hstart]
    rcases hs : cdtSampler host root cfg start with e | sampler
    · refine .inr ⟨e, _, c1, [], _, rfl, List.nil_prefix, h0, a0 _, rfl, .inl ⟨0, by omega, toBegun _ ?_⟩⟩
      rw [t1]
      exact List.prefix_append _ _
    · obtain ⟨s1, s2, hrec⟩ := cdtSampler_ok host (by rw [hroot]; rfl) hN hT hs
      have hrec : GoodRecord host cfg sampler.reproducibility := hrec
      dsimp only
      obtain ⟨u, h1, h2⟩ := sayAll_text faults (voice.look start) c1
      rcases hs2 : sayAll faults (voice.look start) c1 with ⟨r, c2⟩
      rw [hs2] at h1
      rw [look_eq] at h2
      cases r with
      | error e =>
        refine .inr ⟨e, _, c2, [], _, rfl, List.nil_prefix, h0, a0 _, rfl, .inl ⟨0, by omega, toBegun _ ?_⟩⟩
        dsimp only at h1
        rw [h1, t1]
        unfold cdtPreface
        rw [List.prefix_append_right_inj]
        exact h2
      | ok _ =>
        have t2 := sayAll_ok hs2
        rw [look_eq, t1] at t2
        have t2 : c2.text = cdtPreface host voice cfg start := t2
        dsimp only
        have ann := samplerAloud_announced (faults := faults) host out start sampler (a0 c2.text)
        rcases samplerAloud_text (faults := faults) host out cfg start s1 s2 hc d0 c2 with
          ⟨result, sampler', w', c3, nm, e, t3, hp⟩ | ⟨x, sampler', w', c3, t, n, nm, d, e, hn, t3, ht, hd, hp⟩
        swap
        · rcases samplerAloud_log (faults := faults) host out cfg start s1 s2 hrec hc hP d0 c2 with
            ⟨r', sm', w1, c1', e1, _⟩ | ⟨x1, sm', w1, c1', done, e1, hdone, hl⟩
          · rw [e] at e1; cases e1
          rw [e] at e1; cases e1
          rw [e] at ann ⊢
          dsimp only at ann
          have hlen : done = dueUpTo cfg d := by
            have l1 : done.length = (dueUpTo cfg d).length := by
              rw [hl.truthful.length_eq, ← List.length_map (f := (·.path)), hp, List.length_map]
            exact List.prefix_or_prefix_of_prefix hdone (dueUpTo_prefix cfg hc (hd.trans hn)) |>.elim
              (fun h => h.eq_of_length l1) (fun h => (h.eq_of_length l1.symm).symm)
          refine .inr ⟨x, w', c3, done, nameOf nm [], rfl, hdone.trans hpre, hl, ann, ?_, .inl ⟨n, hn, ?_⟩⟩
          · rw [hp, hlen]; exact dueUpTo_nameOf cfg hc nm [] d
          · unfold cdtBegun
            rw [t3, t2, List.prefix_append_right_inj, nameOf_checkpoint]
            exact ht
        · rcases samplerAloud_log (faults := faults) host out cfg start s1 s2 hrec hc hP d0 c2 with
            ⟨r', sm', w1, c1', e1, hrep, hres, hst, hlen, hl⟩ | ⟨x1, sm', w1, c1', done, e1, hdone, hl⟩
          swap
          · rw [e] at e1; cases e1
          rw [e] at e1; cases e1
          rw [e] at ann ⊢
          dsimp only at ann ⊢
          rw [t2] at t3
          subst hres
          rw [hrep]
          -- the transcript, in the order of printing
          have T : ∀ last : Path, cdtTranscript host voice cfg start (nameOf nm last) = c3.text ++
              ((shortfallLines (host.summary (stateAfter host cfg start cfg.passes)).maxTime cfg.triangulation.timeslices).flatten ++
              ((cdtResultLines voice (stateAfter host cfg start cfg.passes)).flatten ++
              (if cfg.writeFiles then fileText last else []))) := fun last => by
            unfold cdtTranscript
            rw [nameOf_checkpoint, t3, shortfall_eq, cdtResult_eq]
            simp only [List.append_assoc]
            rfl
          have hp' : ∀ last, w'.log.map (·.path) = (dueUpTo cfg cfg.passes.toNat).map (nameOf nm last) := fun last => by
            rw [hp]; exact dueUpTo_nameOf cfg hc nm last _
          obtain ⟨u, h1, h2⟩ := sayAll_text faults (shortfallLines
            (host.summary (stateAfter host cfg start cfg.passes)).maxTime cfg.triangulation.timeslices) c3
          rcases hs3 : sayAll faults (shortfallLines
            (host.summary (stateAfter host cfg start cfg.passes)).maxTime cfg.triangulation.timeslices) c3 with ⟨r, c4⟩
          rw [hs3] at h1
          dsimp only at h1
          cases r with
          | error e =>
            refine .inr ⟨e, _, c4, _, nameOf nm [], rfl, hpre, hl, by rw [h1]; exact ann.grow _, hp' [], .inr ?_⟩
            rw [T, h1, List.prefix_append_right_inj]
            exact h2.trans (List.prefix_append _ _)
          | ok _ =>
            have t4 := sayAll_ok hs3
            dsimp only
            by_cases hval : host.valid (stateAfter host cfg start cfg.passes) = true
            swap
            · rw [if_pos (by simp [hval])]
              refine .inr ⟨_, _, c4, _, nameOf nm [], rfl, hpre, hl, by rw [h1]; exact ann.grow _, hp' [], .inr ?_⟩
              rw [T, t4, List.prefix_append_right_inj]
              exact List.prefix_append _ _
            simp only [hval, Bool.not_true, Bool.false_eq_true, if_false]
            obtain ⟨u5, h5, h6⟩ := sayAll_text faults (cdtResultLines voice (stateAfter host cfg start cfg.passes)) c4
            rcases hs4 : sayAll faults (cdtResultLines voice (stateAfter host cfg start cfg.passes)) c4 with ⟨r, c5⟩
            rw [hs4] at h5
            dsimp only at h5
            have ann4 : AllAnnounced w' c4.text := by rw [h1]; exact ann.grow _
            have ann5 : AllAnnounced w' c5.text := by rw [h5]; exact ann4.grow _
            cases r with
            | error e =>
              refine .inr ⟨e, _, c5, _, nameOf nm [], rfl, hpre, hl, ann5, hp' [], .inr ?_⟩
              rw [T, h5, t4, List.append_assoc, List.prefix_append_right_inj, List.prefix_append_right_inj]
              exact h6.trans (List.prefix_append _ _)
            | ok _ =>
              have t5 := sayAll_ok hs4
              rw [t4] at t5
              dsimp only
              by_cases hw : cfg.writeFiles = true
              · rw [if_pos hw]
                rcases hmd : Sampler.metadata host sampler.reproducibility (stateAfter host cfg start cfg.passes)
                  .finalTriangulation cfg.passes sampler'.strategy.stats with e | md
                · refine .inr ⟨e, _, c5, _, nameOf nm [], rfl, hpre, hl, ann5, hp' [], .inr ?_⟩
                  rw [T, t5, List.append_assoc, List.prefix_append_right_inj, List.prefix_append_right_inj]
                  exact List.prefix_append _ _
                · dsimp only
                  have ann6 := writeArtifactAloud_announced (faults := faults) host out
                    (m := stateAfter host cfg start cfg.passes) (md := md) ann5
                  have hdue := writeDue host out cfg start hrec (due := (cfg.passes, .finalTriangulation)) hl
                    (fun x hx => ⟨(dueUpTo_old cfg hc _ x hx).1, fun e => by
                      have := (dueUpTo_old cfg hc _ x hx).1
                      rw [e] at this; cases this⟩) hst hlen hmd
                  have her := writeArtifactAloud_erases (faults := faults) host out
                    (stateAfter host cfg start cfg.passes) md w' c5
                  rcases writeArtifactAloud_tells (faults := faults) host out (stateAfter host cfg start cfg.passes) md w' c5 with
                    ⟨w6, c6, a, e6, l6, t6⟩ | ⟨x, w6, c6, path, t, e6, l6, t6, p6⟩
                  · have her := her (.inr ⟨(), by rw [e6]⟩)
                    rw [e6] at her ann6 ⊢
                    dsimp only at her
                    rcases hdue with ⟨w7, hw7, hl7⟩ | ⟨e7, w7, hw7, hl7⟩
                    swap
                    · rw [hw7] at her; cases her
                    rw [hw7] at her
                    cases her
                    refine .inl ⟨w6, c6, nameOf nm a.path, rfl, by rw [hlast hw]; exact hl7, trivial, ann6, ?_, ?_⟩
                    · rw [l6, List.map_append, hp' a.path, hlast hw, List.map_append]; rfl
                    · rw [T, t6, t5, if_pos hw]; simp only [List.append_assoc]
                  · rw [e6] at ann6 ⊢
                    have hl6 : LogOk host cfg start d0 (dueUpTo cfg cfg.passes.toNat) w6 := by
                      rcases writeArtifactAloud_error host out e6 with rfl | hsil
                      · exact hl
                      · rcases hdue with ⟨w7, hw7, hl7⟩ | ⟨e7, w7, hw7, hl7⟩
                        · rw [hsil] at hw7; cases hw7
                        · rw [hsil] at hw7; cases hw7; exact hl7
                    refine .inr ⟨x, w6, c6, _, nameOf nm path, rfl, hpre, hl6, ann6, by rw [l6]; exact hp' path, .inr ?_⟩
                    rw [T, t6, t5, if_pos hw, List.append_assoc, List.append_assoc, List.prefix_append_right_inj,
                      List.prefix_append_right_inj, List.prefix_append_right_inj]
                    exact p6
              · rw [if_neg hw]
                refine .inl ⟨w', c5, nameOf nm [], rfl, by rw [(hnone hw).1, ← (hnone hw).2]; exact hl, trivial, ann5, ?_, ?_⟩
                · rw [hp' [], (hnone hw).1, (hnone hw).2]
                · rw [T, t5, if_neg hw]; simp

end CDT

import Verif.Lemmas.MetroRun
import Verif.Spec.Calls

namespace CDT
open Spec
variable {M G P F : Type}

theorem reported_attempt (cur : M) (code : Int) (o : MoveOutcome) :
    reported ⟨cur, .ok (some (code, o))⟩ = entryOf (code, o) := rfl

theorem countMove_total (h : List (MoveType × MoveOutcome)) :
    countMove h .twoThree + countMove h .threeTwo + countMove h .twoSix + countMove h .sixTwo +
      countMove h .fourFour = h.length := by
  induction h with
  | nil => rfl
  | cons x xs ih =>
    have e : ∀ m, countMove (x :: xs) m = countMove [x] m + countMove xs m :=
      fun m => countMove_append [x] xs m
    obtain ⟨a, o⟩ := x
    simp only [e, countMove_single, List.length_cons]
    cases a <;> simp <;> omega

theorem describes_total {cmd st h} (d : Describes cmd st h) :
    (st.count : Int) = st.proposed.total := by
  rw [Tracker.total_eq, d.2.proposed, d.2.proposed, d.2.proposed, d.2.proposed, d.2.proposed,
    d.2.count, countMove_total]

theorem describes_weak {cmd st h} (d : Describes cmd st h) : Weak cmd st := by
  have b := describes_balanced d
  have t := describes_total d
  refine ⟨fun m => (b m).2.2.1, fun m => by have := b m; omega, fun m => by have := b m; omega,
    fun m => by have := b m; omega, fun m => by have := b m; omega, ?_⟩
  rw [t, Tracker.total_eq, Tracker.total_eq, Tracker.total_eq]
  have a0 := b .twoThree; have a1 := b .threeTwo; have a2 := b .twoSix
  have a3 := b .sixTwo; have a4 := b .fourFour
  omega

theorem weak_resolved {eng : MetroEngine M G P} {code : Int} {trial : LD} {v v' : MetroVars M G}
    {r} (hr : Resolved eng code trial v r v') (w : Weak v.cmd v.stats) : Weak v'.cmd v'.stats := by
  have tot : ∀ (t : Tracker) (m : MoveType), (t.inc m).total = t.total + 1 := by
    intro t m
    simp only [Tracker.total_eq, Tracker.get_inc]
    cases m <;> simp <;> omega
  obtain ⟨w1, w2, w3, w4, w5, w6⟩ := w
  cases hr with
  | illegal _ => exact ⟨w1, w2, w3, w4, w5, w6⟩
  | unknown _ hc => exact ⟨w1, w2, w3, w4, w5, w6⟩
  | threw mv =>
    refine ⟨fun m => ?_, fun m => ?_, fun m => ?_, w4, w5, w6⟩ <;>
      have := w1 m <;> have := w2 m <;> have := w3 m <;>
      simp only [Tracker.get_inc] <;> split <;> omega
  | probThrew mv =>
    refine ⟨fun m => ?_, fun m => ?_, fun m => ?_, fun m => ?_, w5, w6⟩ <;>
      have := w1 m <;> have := w2 m <;> have := w3 m <;> have := w4 m <;>
      simp only [Tracker.get_inc] <;> split <;> omega
  | failed mv o g' hl hc ho' hp =>
    refine ⟨fun m => ?_, fun m => ?_, fun m => ?_, fun m => ?_, fun m => ?_, ?_⟩
    rotate_right
    · simp only [RunStats.record, tot]; push_cast; omega
    all_goals
      have := w1 m; have := w2 m; have := w3 m; have := w4 m; have := w5 m
      simp only [RunStats.record, Tracker.get_inc]
      (try split) <;> omega
  | accepted mv u p c g' hl hu hc hp hk he hge =>
    refine ⟨fun m => ?_, fun m => ?_, fun m => ?_, fun m => ?_, fun m => ?_, ?_⟩
    rotate_right
    · simp only [RunStats.record, tot]; push_cast; omega
    all_goals
      have := w1 m; have := w2 m; have := w3 m; have := w4 m; have := w5 m
      simp only [RunStats.record, Tracker.get_inc]
      (try split) <;> omega
  | rejected mv u p c g' hl hu hc hp hk he hge =>
    refine ⟨fun m => ?_, fun m => ?_, fun m => ?_, fun m => ?_, fun m => ?_, ?_⟩
    rotate_right
    · simp only [RunStats.record, tot]; push_cast; omega
    all_goals
      have := w1 m; have := w2 m; have := w3 m; have := w4 m; have := w5 m
      simp only [RunStats.record, Tracker.get_inc]
      (try split) <;> omega

theorem metro_run_describes {eng : MetroEngine M G P} {out : MetroOutput M G F} {s : MetroStrategy G}
    {m m' : M} {f f' : F} {s' : MetroStrategy G}
    (e : s.run eng out m f = (.ok m', s', f')) :
    ∃ h, Describes s'.cmd s'.stats h := by
  rcases metro_run_cases eng out s m f with ⟨x, g', f'', hr⟩ | ⟨r, g', f'', hx, hr⟩
  · rw [hr] at e; cases e
  · rw [hr] at e; cases e
    obtain ⟨v, w1, hl, _, rfl⟩ := executeMoveRun_ok hx
    have := runLoop_ind (metroOps eng out) s.cadence s.writesFiles
      (fun k v _ => ∃ h : List (MoveType × MoveOutcome), Describes v.totals v.state h)
      (by
        rintro k v w v' w' ⟨h0, hd⟩ hp
        obtain ⟨p, w1, hpass, h1, h2, h3, h4⟩ := runPass_ok hp
        obtain ⟨h, hn, dc, ds, he, hgeo⟩ := metroPass_ok hpass
        exact ⟨h0 ++ h, by rw [h2, h3]; exact ⟨describesCmd_accumulate hd.1 dc, ds _ hd.2⟩⟩)
      s.cadence.passes.toNat 0 ⟨m, {}, { geometry := eng.geometry m }, 0⟩ (s.gen, f) v w1
      ⟨[], ⟨describesCmd_nil, describesStats_nil _⟩⟩ hl
    exact this

theorem call_attempt (eng : MetroEngine M G P) (out : MetroOutput M G F) (s : MetroStrategy G) (f : F)
    (cur : M) (code : Int) (u : LD) :
    ∃ r v, Resolved eng code u ⟨cur, s.cmd, s.stats, s.gen⟩ r v ∧
      s.call eng out f (.attempt cur code u) =
        (⟨v.current, r.map (fun o => some (code, o))⟩,
          { s with cmd := v.cmd, stats := v.stats, gen := v.gen }, f) := by
  have h := resolve_resolved eng code u ⟨cur, s.cmd, s.stats, s.gen⟩
  exact ⟨_, _, h, rfl⟩

/-- Sampling is an attempt with the drawn move and trial, from the generator after the
two draws. -/
theorem call_sample (eng : MetroEngine M G P) (out : MetroOutput M G F) (s : MetroStrategy G) (f : F)
    (cur : M) :
    s.call eng out f (.sample cur) =
      MetroStrategy.call eng out { s with gen := (eng.drawTrial (eng.drawMove s.gen).2).2 } f
        (.attempt cur ((eng.drawMove s.gen).1.val : Int) (eng.drawTrial (eng.drawMove s.gen).2).1) := by
  unfold MetroStrategy.call sampleTransition
  simp only
  rcases resolve eng ((eng.drawMove s.gen).1.val : Int) (eng.drawTrial (eng.drawMove s.gen).2).1
    ⟨cur, s.cmd, s.stats, (eng.drawTrial (eng.drawMove s.gen).2).2⟩ with ⟨r, v⟩
  cases r <;> rfl

theorem call_run_ok {eng : MetroEngine M G P} {out : MetroOutput M G F} {s s' : MetroStrategy G}
    {f f' : F} {m m' : M} (h : s.run eng out m f = (.ok m', s', f')) :
    s.call eng out f (.run m) = (⟨m', .ok none⟩, s', f') := by
  simp [MetroStrategy.call, h]

theorem call_run_error {eng : MetroEngine M G P} {out : MetroOutput M G F} {s s' : MetroStrategy G}
    {f f' : F} {m : M} {e : Exc} (h : s.run eng out m f = (.error e, s', f')) :
    s.call eng out f (.run m) = (⟨m, .error e⟩, s', f') := by
  simp [MetroStrategy.call, h]

theorem attempt_describes {eng : MetroEngine M G P} {out : MetroOutput M G F} {s : MetroStrategy G}
    {f : F} {cur : M} {code : Int} {u : LD} {h} (d : Describes s.cmd s.stats h)
    (hc : (∃ r, (s.call eng out f (.attempt cur code u)).1.report = .ok r) ∨ ¬ LegalTrial u) :
    Describes (s.call eng out f (.attempt cur code u)).2.1.cmd
      (s.call eng out f (.attempt cur code u)).2.1.stats
      (h ++ reported (s.call eng out f (.attempt cur code u)).1) := by
  obtain ⟨r, v, hr, e⟩ := call_attempt eng out s f cur code u
  rw [e] at hc ⊢
  simp only at hc ⊢
  cases r with
  | ok o =>
    have := describes_of_resolved hr (o := o) rfl
    exact ⟨this.1 h d.1, this.2 h d.2⟩
  | error x =>
    rcases hc with ⟨r, hc⟩ | hc
    · cases hc
    · cases hr with
      | illegal => simpa [reported, Except.map] using d
      | threw _ _ _ hl => exact absurd hl hc
      | probThrew _ _ _ _ hl => exact absurd hl hc

theorem call_describes {eng : MetroEngine M G P} {out : MetroOutput M G F} {s : MetroStrategy G}
    {f : F} {c : MetroCall M} {h} (d : Describes s.cmd s.stats h)
    (hc : Clean (c, (s.call eng out f c).1)) :
    ∃ h', Describes (s.call eng out f c).2.1.cmd (s.call eng out f c).2.1.stats h' := by
  cases c with
  | attempt cur code u =>
    refine ⟨_, attempt_describes d ?_⟩
    rcases hc with hc | ⟨m, hm⟩ | ⟨cur', code', u', e, hu⟩
    · exact .inl hc
    · cases hm
    · cases e; exact .inr hu
  | sample cur =>
    have hr : ∃ r, (s.call eng out f (.sample cur)).1.report = .ok r := by
      rcases hc with hc | ⟨m, hm⟩ | ⟨cur', code', u', e, hu⟩
      · exact hc
      · cases hm
      · cases e
    rw [call_sample] at hr ⊢
    exact ⟨_, attempt_describes (h := h) (s := { s with gen := _ }) d (.inl hr)⟩
  | «initialize» m => exact ⟨h, d.1, describesStats_geometry _ d.2⟩
  | run m =>
    rcases hr : s.run eng out m f with ⟨r, s', f'⟩
    cases r with
    | ok m' => rw [call_run_ok hr]; exact metro_run_describes hr
    | error e =>
      rw [call_run_error hr]
      rcases metro_run_cases eng out s m f with ⟨x, g', f'', hr'⟩ | ⟨r, g', f'', hx, hr'⟩
      · rw [hr'] at hr; cases hr; exact ⟨h, d⟩
      · rw [hr'] at hr; cases hr

theorem calls_describes {eng : MetroEngine M G P} {out : MetroOutput M G F} :
    ∀ (cs : List (MetroCall M)) (s : MetroStrategy G) (f : F) (h),
      Describes s.cmd s.stats h →
      (∀ p ∈ cs.zip (MetroStrategy.calls eng out cs s f).1, Clean p) →
      ∃ h', Describes (MetroStrategy.calls eng out cs s f).2.1.cmd
        (MetroStrategy.calls eng out cs s f).2.1.stats h'
  | [], s, f, h, d, _ => ⟨h, d⟩
  | c :: cs, s, f, h, d, hc => by
    unfold MetroStrategy.calls at hc ⊢
    rcases h1 : s.call eng out f c with ⟨r, s1, f1⟩
    simp only [h1, List.zip_cons_cons, List.mem_cons, forall_eq_or_imp] at hc ⊢
    obtain ⟨h', d'⟩ := call_describes (eng := eng) (out := out) (f := f) (c := c) d (by rw [h1]; exact hc.1)
    rw [h1] at d'
    exact calls_describes cs s1 f1 h' d' hc.2

theorem call_weak {eng : MetroEngine M G P} {out : MetroOutput M G F} {s : MetroStrategy G}
    {f : F} {c : MetroCall M} (d : Weak s.cmd s.stats) :
    Weak (s.call eng out f c).2.1.cmd (s.call eng out f c).2.1.stats := by
  cases c with
  | attempt cur code u =>
    obtain ⟨r, v, hr, e⟩ := call_attempt eng out s f cur code u
    rw [e]
    exact weak_resolved hr d
  | sample cur =>
    rw [call_sample]
    obtain ⟨r, v, hr, e⟩ := call_attempt eng out
      { s with gen := (eng.drawTrial (eng.drawMove s.gen).2).2 } f cur
      ((eng.drawMove s.gen).1.val : Int) (eng.drawTrial (eng.drawMove s.gen).2).1
    rw [e]
    exact weak_resolved hr d
  | «initialize» m => exact ⟨d.1, d.2, d.3, d.4, d.5, d.6⟩
  | run m =>
    rcases hr : s.run eng out m f with ⟨r, s', f'⟩
    cases r with
    | ok m' =>
      rw [call_run_ok hr]
      obtain ⟨h, d⟩ := metro_run_describes hr
      exact describes_weak d
    | error e =>
      rw [call_run_error hr]
      rcases metro_run_cases eng out s m f with ⟨x, g', f'', hr'⟩ | ⟨r, g', f'', hx, hr'⟩
      · rw [hr'] at hr; cases hr; exact d
      · rw [hr'] at hr; cases hr

theorem calls_weak {eng : MetroEngine M G P} {out : MetroOutput M G F} :
    ∀ (cs : List (MetroCall M)) (s : MetroStrategy G) (f : F), Weak s.cmd s.stats →
      Weak (MetroStrategy.calls eng out cs s f).2.1.cmd (MetroStrategy.calls eng out cs s f).2.1.stats
  | [], s, f, d => d
  | c :: cs, s, f, d => by
    unfold MetroStrategy.calls
    have := call_weak (eng := eng) (out := out) (f := f) (c := c) d
    rcases h1 : s.call eng out f c with ⟨r, s1, f1⟩
    rw [h1] at this
    exact calls_weak cs s1 f1 this

end CDT

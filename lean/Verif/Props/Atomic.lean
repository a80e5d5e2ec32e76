import Verif.Lemmas.Atomic
import Verif.Props.Values
/-
C26: failed moves are atomic.
-/
namespace CDT.Props
open CDT Spec Moves Val Atomic

variable {V G : Type} [LinearOrder V] {S : Setting V G} {w : World V}

/-- At every moment of every call, whatever its outcome and wherever an exception may strike, all
objects other than the result and all storage that existed before are exactly as before. -/
theorem C26_no_existing_storage_written (hS : Val.Lawful S) (hw : History S w) (m : MoveCall V G)
    (ha : m.Allowed w) : ∀ u ∈ (m.run S w).2.moments, Untouched w u m.slot :=
  (call_done hS (history_inv hS hw) m ha.1).untouched (history_inv hS hw)

/-- So nothing observable of the source manifold, or of any other existing manifold, is different at
any moment: topology, labels, parameters, caches, counts and geometry. -/
theorem C26_source_unchanged (hS : Val.Lawful S) (hw : History S w) (m : MoveCall V G)
    (ha : m.Allowed w) : ∀ u ∈ (m.run S w).2.moments,
      seen u m.src = seen w m.src ∧ ∀ a, a ≠ m.slot → seen u a = seen w a := by
  intro u hu
  have hi := history_inv hS hw
  have h := C26_no_existing_storage_written hS hw m ha u hu
  have key : ∀ a, a ≠ m.slot → seen u a = seen w a := by
    intro a hne
    apply Frame.seen
    refine ⟨h.objects a hne, fun x b hx hb => h.storage b ?_⟩
    obtain ⟨K, hK⟩ := (hi.good a x b hx hb).content
    rw [hK]; simp
  refine ⟨key _ ?_, key⟩
  rintro e
  obtain ⟨x, b, hx, -⟩ := ha.1
  rw [e, ha.2] at hx
  cases hx

/-- A call that fails or throws leaves nothing behind: the objects are as before at every moment and
in the end every storage body is as before, including those that did not exist. -/
theorem C26_failure_leaves_nothing (hS : Val.Lawful S) (hw : History S w) (m : MoveCall V G)
    (ha : m.Allowed w) (hf : (m.run S w).1 ≠ .moved) :
    (∀ u ∈ (m.run S w).2.moments, u.obj = w.obj) ∧ (m.run S w).2.world.body = w.body :=
  (call_done hS (history_inv hS hw) m ha.1).failed hf

/-- The result is never seen half-built: before it is complete there is nothing in its slot. -/
theorem C26_no_partial_result (hS : Val.Lawful S) (hw : History S w) (m : MoveCall V G)
    (ha : m.Allowed w) (hm : (m.run S w).1 = .moved) : ∀ u ∈ (m.run S w).2.moments,
      u.obj m.slot = none ∨ seen u m.slot = seen (m.run S w).2.world m.slot := by
  intro u hu
  rcases (call_done hS (history_inv hS hw) m ha.1).complete hm u hu with h | h
  · exact .inl (h.trans ha.2)
  · exact .inr h.2

/-- A successful call leaves nothing behind but the storage of its result. -/
theorem C26_success_leaves_only_result (hS : Val.Lawful S) (hw : History S w) (m : MoveCall V G)
    (ha : m.Allowed w) (hm : (m.run S w).1 = .moved) :
    ∀ b, w.body b = none → (m.run S w).2.world.body b ≠ none →
      ∃ x, (m.run S w).2.world.obj m.slot = some x ∧ x.tri.body = some b := by
  intro b hb hne
  have hd := call_done hS (history_inv hS hw) m ha.1
  refine hd.kept hm b ?_ hne
  by_contra hc
  exact hne ((hd.old _ (List.mem_cons_self ..) b (by omega)).trans hb)

/-- The search functions, run on storage, deliver exactly what their pure description says of the
source's value, including the failure category and the caller's generator. -/
theorem C26_do_move_refines (hS : Val.Lawful S) (hw : History S w) {src slot : ℕ} (mv : MoveType)
    (g : G) (ha : Intact w src) {y : Seen V} (hy : seen w src = some y) (d : ℕ) :
    let res := Atomic.doMove S (fun _ => true) mv src slot w g
    let pure := Moves.doMove (S.env d y.radius y.spacing) mv y.tri g
    res.2.gen = pure.2 ∧
    match pure.1 with
    | .error e => res.1 = .failed e
    | .ok K => (K.finiteVerts = ∅ ∧ res.1 = .threw .invalidArgument) ∨
        (K.finiteVerts ≠ ∅ ∧ res.1 = .moved ∧ ∃ z, seen res.2.world slot = some z ∧
          z.tri = K ∧ z.radius = y.radius ∧ z.spacing = y.spacing) := by
  obtain ⟨x, b, K, hx, hb, hK⟩ := intact_body (history_inv hS hw) ha
  have hs := doMove_spec (slot := slot) hS (history_inv hS hw) (fun _ => true) mv hx hb hK g d
  have hy' : y = ⟨K, x.tri.radius, x.tri.spacing, x.tri.caches, x.geometry⟩ := by
    unfold seen at hy; simp only [hx, hb, Option.bind_some, hK, Option.some.injEq] at hy; exact hy.symm
  subst hy'
  intro res pure
  have hp := pureLoop_doMove (S.env d x.tri.radius x.tri.spacing) mv K g
  dsimp only at hp hs
  have hpure : pure = _ := hp
  rw [hpure]
  refine ⟨hs.2.2, ?_⟩
  have h2 := hs.2.1
  unfold Returns at h2
  revert h2
  generalize (pureLoop _ _ _ _ K _ _ _).1 = q
  cases q with
  | error e => exact id
  | ok K1 =>
    rintro (⟨h3, h4⟩ | ⟨h3, h4, z, h5, h6, h7, h8⟩)
    · exact .inl ⟨h3, h4⟩
    · exact .inr ⟨h3, h4, z, h5, h6 d, h7, h8⟩

/-- The same for the single-site proposals. -/
theorem C26_propose_refines (hS : Val.Lawful S) (hw : History S w) {src slot : ℕ} (mv : MoveType)
    (g : G) (ha : Intact w src) {y : Seen V} (hy : seen w src = some y) (d : ℕ) :
    let res := Atomic.propose S (fun _ => true) mv src slot w g
    let pure := Moves.propose (S.env d y.radius y.spacing) mv y.tri g
    res.2.gen = pure.2 ∧
    match pure.1 with
    | .error e => res.1 = .failed e
    | .ok K => (K.finiteVerts = ∅ ∧ res.1 = .threw .invalidArgument) ∨
        (K.finiteVerts ≠ ∅ ∧ res.1 = .moved ∧ ∃ z, seen res.2.world slot = some z ∧
          z.tri = K ∧ z.radius = y.radius ∧ z.spacing = y.spacing) := by
  obtain ⟨x, b, K, hx, hb, hK⟩ := intact_body (history_inv hS hw) ha
  have hs := propose_spec (slot := slot) hS (history_inv hS hw) (fun _ => true) mv hx hb hK g d
  have hy' : y = ⟨K, x.tri.radius, x.tri.spacing, x.tri.caches, x.geometry⟩ := by
    unfold seen at hy; simp only [hx, hb, Option.bind_some, hK, Option.some.injEq] at hy; exact hy.symm
  subst hy'
  intro res pure
  have hpure : pure = _ := purePropose_propose (S.env d x.tri.radius x.tri.spacing) mv K g
  dsimp only at hs
  rw [hpure]
  refine ⟨hs.2.2, ?_⟩
  have h2 := hs.2.1
  unfold Returns at h2
  revert h2
  generalize (purePropose _ _ _ K _).1 = q
  cases q with
  | error e => exact id
  | ok K1 =>
    rintro (⟨h3, h4⟩ | ⟨h3, h4, z, h5, h6, h7, h8⟩)
    · exact .inl ⟨h3, h4⟩
    · exact .inr ⟨h3, h4, z, h5, h6 d, h7, h8⟩

/-- One construction. -/
theorem history_construct (hS : Val.Lawful S) (K : Tri V) (hK : K.finiteVerts ≠ ∅) (r s : BitVec 64) :
    ∃ w, constructObject S World.initial 0 K r s = .ok w ∧ History S w ∧ Intact w 0 ∧
      w.obj 1 = none := by
  obtain ⟨w, cs, e, -, ho, -, -, -⟩ := constructObject_spec hS inv_initial 0 K r s hK
  refine ⟨w, e, .op (o := .construct 0 K r s) .start rfl e, ⟨_, _, by rw [ho]; exact Function.update_self _ _ _, rfl⟩, ?_⟩
  rw [ho, Function.update_of_ne (by simp)]
  rfl

open ValuesExample in
/-- A (2,6) search whose validator rejects fails after two mutations of the working copy; four worlds
are observable after the original one. -/
example : ∃ w, History setting w ∧ ∃ m : MoveCall ℕ ℕ, m.Allowed w ∧
    (m.run setting w).1 = .failed .invariantViolation ∧ (m.run setting w).2.past.length = 4 := by
  obtain ⟨w, hc, hw, hi, hn⟩ := history_construct lawful Fixture.k26 (by decide +kernel) 7 8
  refine ⟨w, hw, ⟨false, fun _ => false, .twoSix, 0, 1, 0⟩, ⟨hi, hn⟩, ?_⟩
  have h : ((constructObject setting World.initial 0 Fixture.k26 7 8).toOption.map fun w =>
      (((⟨false, fun _ => false, .twoSix, 0, 1, 0⟩ : MoveCall ℕ ℕ).run setting w).1,
       ((⟨false, fun _ => false, .twoSix, 0, 1, 0⟩ : MoveCall ℕ ℕ).run setting w).2.past.length)) =
      some (.failed .invariantViolation, 4) := by decide +kernel
  rw [hc] at h
  simpa [Except.toOption] using h

open ValuesExample in
/-- A (6,2) search succeeds, leaving the source with six cells and the
result with two. -/
example : ∃ w, History setting w ∧ ∃ m : MoveCall ℕ ℕ, m.Allowed w ∧ (m.run setting w).1 = .moved ∧
    (seen (m.run setting w).2.world 0).map (fun x => x.geometry.N3) = some 6 ∧
    (seen (m.run setting w).2.world 1).map (fun x => x.geometry.N3) = some 2 := by
  obtain ⟨w, hc, hw, hi, hn⟩ := history_construct lawful Fixture.k62 (by decide +kernel) 7 8
  refine ⟨w, hw, ⟨false, fun _ => true, .sixTwo, 0, 1, 0⟩, ⟨hi, hn⟩, ?_⟩
  have h : ((constructObject setting World.initial 0 Fixture.k62 7 8).toOption.map fun w =>
      (((⟨false, fun _ => true, .sixTwo, 0, 1, 0⟩ : MoveCall ℕ ℕ).run setting w).1,
       (seen ((⟨false, fun _ => true, .sixTwo, 0, 1, 0⟩ : MoveCall ℕ ℕ).run setting w).2.world 0).map
         (fun x => x.geometry.N3),
       (seen ((⟨false, fun _ => true, .sixTwo, 0, 1, 0⟩ : MoveCall ℕ ℕ).run setting w).2.world 1).map
         (fun x => x.geometry.N3))) =
      some (.moved, some 6, some 2) := by decide +kernel
  rw [hc] at h
  simpa [Except.toOption] using h

end CDT.Props

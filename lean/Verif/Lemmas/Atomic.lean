import Verif.Spec.Atomic
import Verif.Lemmas.Values
import Verif.Lemmas.Canonical
/-
Invariants of the move functions as storage programs, for C26.
-/
set_option linter.unusedSectionVars false

namespace CDT.Atomic
open CDT Spec Moves Val

variable {V G : Type} [LinearOrder V] {S : Setting V G} {w0 : World V} {σ : St V G}
  {L : Finset ℕ} {r s : BitVec 64}

/-- The call has so far only worked on bodies of its own; those still alive are in `L`. -/
structure Track (w0 : World V) (L : Finset ℕ) (σ : St V G) : Prop where
  obj : ∀ w ∈ σ.moments, w.obj = w0.obj
  old : ∀ w ∈ σ.moments, ∀ b, b < w0.next → w.body b = w0.body b
  le : w0.next ≤ σ.world.next
  fresh : ∀ b, σ.world.next ≤ b → σ.world.body b = none
  only : ∀ b, w0.next ≤ b → b ∉ L → σ.world.body b = none
  lt : ∀ b ∈ L, b < σ.world.next

theorem Track.gen (h : Track w0 L σ) (g : G) : Track w0 L { σ with gen := g } :=
  ⟨h.obj, h.old, h.le, h.fresh, h.only, h.lt⟩

theorem Track.put (h : Track w0 L σ) {w : World V} (ho : w.obj = w0.obj)
    (hb : ∀ b, b < w0.next → w.body b = w0.body b) {L' : Finset ℕ}
    (hle : w0.next ≤ w.next) (hf : ∀ b, w.next ≤ b → w.body b = none)
    (hon : ∀ b, w0.next ≤ b → b ∉ L' → w.body b = none) (hlt : ∀ b ∈ L', b < w.next) :
    Track w0 L' (σ.put w) := by
  refine ⟨?_, ?_, hle, hf, hon, hlt⟩
  · intro u hu
    rcases List.mem_cons.1 hu with rfl | hu
    · exact ho
    · exact h.obj u hu
  · intro u hu
    rcases List.mem_cons.1 hu with rfl | hu
    · exact hb
    · exact h.old u hu

theorem Track.now (h : Track w0 L σ) : σ.world.obj = w0.obj := h.obj _ (List.mem_cons_self ..)
theorem Track.nowOld (h : Track w0 L σ) : ∀ b, b < w0.next → σ.world.body b = w0.body b :=
  h.old _ (List.mem_cons_self ..)

theorem Track.write (h : Track w0 L σ) {b : ℕ} (hb : b ∈ L) (hn : w0.next ≤ b) (K : Tri V) :
    Track w0 L (σ.write b K) := by
  have hl := h.lt b hb
  refine h.put (w := { σ.world with body := Function.update σ.world.body b (some K) }) h.now ?_ h.le ?_ ?_ h.lt
  · intro d hd
    dsimp only
    rw [Function.update_of_ne (by omega)]
    exact h.nowOld d hd
  · intro d hd
    dsimp only at hd ⊢
    rw [Function.update_of_ne (by omega)]
    exact h.fresh d hd
  · intro d hd hdL
    dsimp only
    rw [Function.update_of_ne (by rintro rfl; exact hdL hb)]
    exact h.only d hd hdL

theorem Track.alloc (h : Track w0 L σ) (K : Tri V) :
    Track w0 (insert σ.world.next L) (σ.alloc K) := by
  have hle := h.le
  refine h.put (w := { σ.world with
    body := Function.update σ.world.body σ.world.next (some K), next := σ.world.next + 1 }) h.now ?_ ?_ ?_ ?_ ?_
  · intro d hd
    dsimp only
    rw [Function.update_of_ne (by omega)]
    exact h.nowOld d hd
  · dsimp only; omega
  · intro d hd
    dsimp only at hd ⊢
    rw [Function.update_of_ne (by omega)]
    exact h.fresh d (by omega)
  · intro d hd hdL
    rw [Finset.mem_insert, not_or] at hdL
    dsimp only
    rw [Function.update_of_ne hdL.1]
    exact h.only d hd hdL.2
  · intro d hd
    dsimp only
    rcases Finset.mem_insert.1 hd with rfl | hd
    · omega
    · have := h.lt d hd; omega

theorem Track.free (h : Track w0 L σ) {b : ℕ} (hn : w0.next ≤ b) :
    Track w0 (L.erase b) (σ.free b) := by
  refine h.put (w := { σ.world with body := Function.update σ.world.body b none }) h.now ?_ h.le ?_ ?_ ?_
  · intro d hd
    dsimp only
    rw [Function.update_of_ne (by omega)]
    exact h.nowOld d hd
  · intro d hd
    dsimp only at hd ⊢
    rw [Function.update_apply]
    split_ifs
    · rfl
    · exact h.fresh d hd
  · intro d hd hdL
    dsimp only
    rw [Function.update_apply]
    split_ifs with hdb
    · rfl
    · exact h.only d hd (fun hc => hdL (Finset.mem_erase.2 ⟨hdb, hc⟩))
  · intro d hd
    exact h.lt d (Finset.mem_of_mem_erase hd)

theorem Track.mono (h : Track w0 L σ) {L' : Finset ℕ} (hL : L ⊆ L')
    (hlt : ∀ b ∈ L', b < σ.world.next) : Track w0 L' σ :=
  ⟨h.obj, h.old, h.le, h.fresh, fun b hb hbL => h.only b hb (fun hc => hbL (hL hc)), hlt⟩

/-- The same triangulation up to the labels of finite cells. -/
structure Alike (K K' : Tri V) : Prop where
  inf : K.inf = K'.inf
  cells : K.cells = K'.cells
  time : K.time = K'.time
  info : ∀ c, K'.inf ∈ c → K.info c = K'.info c

theorem Alike.refl (K : Tri V) : Alike K K := ⟨rfl, rfl, rfl, fun _ _ => rfl⟩

theorem Alike.relabel (K : Tri V) : Alike K (relabel K) :=
  ⟨rfl, rfl, rfl, fun c hc => by
    simp only [Moves.relabel] at hc ⊢
    rw [if_pos hc]⟩

theorem Alike.trans {K K' K'' : Tri V} (h : Alike K K') (h' : Alike K' K'') : Alike K K'' :=
  ⟨h.inf.trans h'.inf, h.cells.trans h'.cells, h.time.trans h'.time, fun c hc => by
    rw [h.info c (by rw [h'.inf]; exact hc), h'.info c hc]⟩

theorem Alike.makeManifold {K K' : Tri V} (h : Alike K K') (env : Env V G) :
    makeManifold env K = makeManifold env K' := by
  obtain ⟨i, c, t, f⟩ := K
  obtain ⟨i', c', t', f'⟩ := K'
  obtain ⟨h1, h2, h3, h4⟩ := h
  dsimp only at h1 h2 h3 h4
  subst h1 h2 h3
  unfold Moves.makeManifold Moves.relabel
  simp only [Tri.mk.injEq, true_and]
  funext c
  split_ifs with hc
  · exact h4 c hc
  · rfl

theorem Alike.expectedType {K K' : Tri V} (h : Alike K K') (c : Finset V) :
    K.expectedType c = K'.expectedType c := by
  unfold Tri.expectedType Tri.cellTimes
  rw [h.time]

theorem body_write (b : ℕ) (K : Tri V) : (σ.write b K).world.body b = some K :=
  Function.update_self _ _ _

theorem labelLoop_spec (strict : Bool) {p : ℕ} {K : Tri V} (hp : w0.next ≤ p) (hL : p ∈ L)
    (cs : List (Finset V)) : ∀ (σ : St V G) (K' : Tri V), Track w0 L σ →
    σ.world.body p = some K' → Alike K' K → (∀ c ∈ cs, K.inf ∉ c) →
    ∃ σ', labelLoop strict p cs σ = (decide (¬ (strict = true ∧ ∃ c ∈ cs,
        K.expectedType c = .acausal ∨ K.expectedType c = .unclassified)), σ') ∧
      Track w0 L σ' ∧ σ'.gen = σ.gen ∧ (∃ K'', σ'.world.body p = some K'' ∧ Alike K'' K) ∧
      (∀ c, c ∉ L → σ'.world.body c = σ.world.body c) ∧
      (∀ c, c ≠ p → σ'.world.body c = σ.world.body c) := by
  induction cs with
  | nil =>
    intro σ K' ht hb ha _
    refine ⟨σ, ?_, ht, rfl, ⟨K', hb, ha⟩, fun _ _ => rfl, fun _ _ => rfl⟩
    simp [labelLoop]
  | cons c cs ih =>
    intro σ K' ht hb ha hc
    have hcin := hc c (List.mem_cons_self ..)
    unfold labelLoop
    simp only [hb, ha.expectedType c]
    split_ifs with hbad
    · refine ⟨σ, ?_, ht, rfl, ⟨K', hb, ha⟩, fun _ _ => rfl, fun _ _ => rfl⟩
      rw [decide_eq_false]
      rw [not_not]
      exact ⟨hbad.1, c, List.mem_cons_self .., hbad.2⟩
    · have ha' : Alike { K' with info := Function.update K'.info c (K.expectedType c).code } K :=
        ⟨ha.inf, ha.cells, ha.time, fun d hd => by
          dsimp only
          rw [Function.update_of_ne (by rintro rfl; exact hcin hd)]
          exact ha.info d hd⟩
      obtain ⟨σ', e, ht', hg, hK, ho, ho'⟩ := ih (σ.write p _) _ (ht.write hL hp _) (body_write p _) ha'
        (fun d hd => hc d (List.mem_cons_of_mem _ hd))
      refine ⟨σ', ?_, ht', hg, hK, ?_, ?_⟩
      · rw [e]
        congr 1
        rw [decide_eq_decide]
        simp only [List.mem_cons, exists_eq_or_imp]
        exact ⟨fun h k => k.2.elim (fun q => hbad ⟨k.1, q⟩) (fun q => h ⟨k.1, q⟩),
          fun h k => h ⟨k.1, .inr k.2⟩⟩
      · intro d hd
        rw [ho d hd]
        exact Function.update_of_ne (by rintro rfl; exact hd hL) _ _
      · intro d hd
        rw [ho' d hd]
        exact Function.update_of_ne hd _ _

theorem flipLoop_spec {v : V} {p : ℕ} {K : Tri V} (hp : w0.next ≤ p) (hL : p ∈ L)
    (es : List (Finset V)) : Track w0 L σ → σ.world.body p = some K →
    match flipFirst K v es with
    | none => flipLoop v p es σ = (false, σ)
    | some K' => flipLoop v p es σ = (true, σ.write p K') := by
  intro ht hb
  induction es with
  | nil => rfl
  | cons e es ih =>
    unfold flipFirst flipLoop
    simp only [hb]
    cases (canonicalPoints (e.erase v)).head? with
    | none => exact ih
    | some x =>
      dsimp only
      split_ifs with htl
      · cases K.flipEdge v x with
        | none => exact ih
        | some K' => rfl
      · exact ih

/-- The results of the `execute` overloads with an arbitrary validator. -/
def pureExecute (env : Env V G) (validator : Tri V → Bool) (K : Tri V) (q : Prepared V) (g : G) :
    Except MoveFailure (Tri V) × G :=
  match q with
  | .twoThree m => (executeTwoThree env K m, g)
  | .threeTwo m => (executeThreeTwo env K m, g)
  | .twoSix m => (executeTwoSix env validator K m, g)
  | .sixTwo v => executeSixTwo env validator K v g
  | .fourFour m => (executeFourFour validator K m, g)

theorem pureExecute_true (env : Env V G) (K : Tri V) (q : Prepared V) (g : G) :
    pureExecute env (fun _ => true) K q g = Moves.execute env K q g := by
  cases q <;> rfl

/-- What an execution on the working copy `c` with content `K` delivers, against the pure result. -/
def Matches (w0 : World V) (c : ℕ) (K : Tri V) (stop : Prop)
    (pure : Except MoveFailure (Tri V) × G) (imp : Except MoveFailure ℕ × St V G) : Prop :=
  imp.2.gen = pure.2 ∧
  match pure.1, imp.1 with
  | .error e, .error e' => e = e' ∧ Track w0 {c} imp.2 ∧ (stop ∨ imp.2.world.body c = some K)
  | .ok K', .ok b => w0.next ≤ b ∧ Track w0 {c, b} imp.2 ∧
      ∃ K'', imp.2.world.body b = some K'' ∧ Alike K'' K'
  | _, _ => False

theorem execute23_spec {c : ℕ} {K : Tri V} {env env' : Env V G} (he : env.geoFacet = env'.geoFacet)
    (hc : w0.next ≤ c) (ht : Track w0 {c} σ) (hb : σ.world.body c = some K) (m : Finset V × V) :
    Matches w0 c K False (executeTwoThree env' K m, σ.gen) (execute23 env c m σ) := by
  unfold executeTwoThree execute23
  have hf : checkedFlipFacet env K m.1 m.2 = checkedFlipFacet env' K m.1 m.2 := by
    unfold checkedFlipFacet; rw [he]
  simp only [hb, hf]
  split_ifs with h1
  · exact ⟨rfl, rfl, ht, .inr hb⟩
  · cases checkedFlipFacet env' K m.1 m.2 with
    | none => exact ⟨rfl, rfl, ht, .inr hb⟩
    | some K' =>
      refine ⟨rfl, hc, ?_, K', body_write c K', .refl _⟩
      simpa using ht.write (Finset.mem_singleton_self c) hc K'

theorem execute32_spec {c : ℕ} {K : Tri V} {env env' : Env V G} (he : env.geoEdge = env'.geoEdge)
    (hc : w0.next ≤ c) (ht : Track w0 {c} σ) (hb : σ.world.body c = some K) (m : V × V) :
    Matches w0 c K False (executeThreeTwo env' K m, σ.gen) (execute32 env c m σ) := by
  unfold executeThreeTwo execute32
  have hf : checkedFlipEdge env K m.1 m.2 = checkedFlipEdge env' K m.1 m.2 := by
    unfold checkedFlipEdge; rw [he]
  simp only [hb, hf]
  split_ifs with h1
  · exact ⟨rfl, rfl, ht, .inr hb⟩
  · cases checkedFlipEdge env' K m.1 m.2 with
    | none => exact ⟨rfl, rfl, ht, .inr hb⟩
    | some K' =>
      refine ⟨rfl, hc, ?_, K', body_write c K', .refl _⟩
      simpa using ht.write (Finset.mem_singleton_self c) hc K'

theorem execute26_spec {c : ℕ} {K : Tri V} {env env' : Env V G} (he : env.centroid = env'.centroid)
    (validator : Tri V → Bool) (hc : w0.next ≤ c) (ht : Track w0 {c} σ)
    (hb : σ.world.body c = some K) (m : Finset V × V) :
    Matches w0 c K True (executeTwoSix env' validator K m, σ.gen)
      (execute26 env validator c m σ) := by
  unfold executeTwoSix execute26
  simp only [hb, he]
  split_ifs with h1
  · exact ⟨rfl, rfl, ht, .inr hb⟩
  · cases K.insertInFacet m.1 m.2 (env'.centroid (m.1.erase m.2)) with
    | none => exact ⟨rfl, rfl, ht, .inr hb⟩
    | some K1 =>
      have t1 := ht.write (Finset.mem_singleton_self c) hc K1
      dsimp only
      by_cases h2 : (K1.vertexCells (env'.centroid (m.1.erase m.2))).card ≠ 6
      · simp only [if_pos h2]
        exact ⟨rfl, rfl, t1, .inl trivial⟩
      · simp only [if_neg h2]
        generalize ({ inf := K1.inf, cells := K1.cells, time := _, info := K1.info } : Tri V) = K2
        cases validator K2 with
        | false => exact ⟨rfl, rfl, t1.write (Finset.mem_singleton_self c) hc _, .inl trivial⟩
        | true =>
          refine ⟨rfl, hc, ?_, _, body_write c _, .refl _⟩
          simpa using t1.write (Finset.mem_singleton_self c) hc _

theorem finite_iter (hS : Val.Lawful S) (b : ℕ) (K : Tri V) :
    ∀ c ∈ (S.env b r s).iter K K.finiteCells, K.inf ∉ c := by
  intro c hc
  rw [(hS.env b r s).mem_iter] at hc
  exact (Finset.mem_filter.1 hc).2

theorem iter_perm (hS : Val.Lawful S) (b d : ℕ) (r s : BitVec 64) (K : Tri V) (T : Finset (Finset V)) :
    ((S.env b r s).iter K T).Perm ((S.env d r s).iter K T) := by
  rw [List.perm_ext_iff_of_nodup ((hS.env b r s).iter_nodup K T) ((hS.env d r s).iter_nodup K T)]
  intro a
  rw [(hS.env b r s).mem_iter, (hS.env d r s).mem_iter]

theorem rawSites_perm (hS : Val.Lawful S) (b d : ℕ) (r s : BitVec 64) (K : Tri V) (mv : MoveType) :
    (rawSites (S.env b r s) K mv).Perm (rawSites (S.env d r s) K mv) := by
  cases mv with
  | twoThree => exact (iter_perm hS b d r s K _).filter _
  | threeTwo => exact (iter_perm hS b d r s K _).filter _
  | twoSix => exact (iter_perm hS b d r s K _).filter _
  | sixTwo => exact iter_perm hS b d r s K _
  | fourFour => exact (iter_perm hS b d r s K _).filter _

/-- Releasing the private copy. -/
theorem drop_private {c : ℕ} {K : Tri V} {stop : Prop} {g : G} {e : MoveFailure} {p : ℕ}
    (hp : w0.next ≤ p) (hpc : c ≠ p) (ht : Track w0 {p, c} σ) (hb : σ.world.body c = some K)
    (hg : σ.gen = g) : Matches w0 c K stop (.error e, g) (.error e, σ.free p) := by
  refine ⟨hg, rfl, ?_, .inr ?_⟩
  · have := ht.free hp
    rwa [show ({p, c} : Finset ℕ).erase p = {c} by
      ext x; simp only [Finset.mem_erase, Finset.mem_insert, Finset.mem_singleton]; omega] at this
  · show Function.update σ.world.body p none c = _
    rw [Function.update_of_ne hpc, hb]

theorem execute62_spec (hS : Val.Lawful S) {c d : ℕ} {K : Tri V} (validator : Tri V → Bool)
    (hc : w0.next ≤ c) (ht : Track w0 {c} σ) (hb : σ.world.body c = some K) (v : V) :
    Matches w0 c K False (executeSixTwo (S.env d r s) validator K v σ.gen)
      (execute62 S r s validator c v σ) := by
  have hcn : c < σ.world.next := ht.lt c (Finset.mem_singleton_self c)
  have hp : w0.next ≤ σ.world.next := ht.le
  have hne : c ≠ σ.world.next := by omega
  have t1 := ht.alloc K
  have b1 : (σ.alloc K).world.body c = some K := by
    show Function.update _ _ _ c = _
    rw [Function.update_of_ne hne, hb]
  have b2 : (σ.alloc K).world.body σ.world.next = some K := Function.update_self _ _ _
  have hpm : σ.world.next ∈ ({σ.world.next, c} : Finset ℕ) := Finset.mem_insert_self ..
  unfold executeSixTwo execute62
  rw [hb]
  by_cases h1 : v ∉ K.finiteVerts
  · simp only [if_pos h1]
    exact drop_private hp hne t1 b1 rfl
  · rw [if_neg h1]
    rcases hsh : (S.env d r s).shuffle (canonicalize ((S.env d r s).iter K (incidentEdges K v))) σ.gen
      with ⟨edges, g⟩
    have hsh' : (S.env σ.world.next r s).shuffle (canonicalize ((S.env σ.world.next r s).iter K
        (incidentEdges K v))) (σ.alloc K).gen = (edges, g) := by
      rw [canonicalize_congr (iter_perm hS σ.world.next d r s K (incidentEdges K v))]
      exact hsh
    show Matches w0 c K False _ (if v ∉ K.finiteVerts then _ else
      match (S.env σ.world.next r s).shuffle (canonicalize ((S.env σ.world.next r s).iter K
        (incidentEdges K v))) (σ.alloc K).gen with
      | (edges, g) => match flipLoop v σ.world.next edges { σ.alloc K with gen := g } with
        | (false, τ) => (.error .executionFailure, τ.free σ.world.next)
        | (true, τ) => finish62 S r s validator v σ.world.next K τ)
    rw [if_neg h1, hsh']
    dsimp only
    have hfl := flipLoop_spec (σ := { σ.alloc K with gen := g }) (v := v) hp hpm edges (t1.gen g) b2
    cases hff : flipFirst K v edges with
    | none =>
      rw [hff] at hfl
      dsimp only at hfl
      rw [hfl]
      exact drop_private hp hne (t1.gen g) b1 rfl
    | some K1 =>
      rw [hff] at hfl
      dsimp only at hfl
      rw [hfl]
      have t2 := (t1.gen g).write hpm hp K1
      have bp2 := body_write (σ := { σ.alloc K with gen := g }) σ.world.next K1
      have bc2 : (St.write { σ.alloc K with gen := g } σ.world.next K1).world.body c = some K := by
        show Function.update _ _ _ c = _
        rw [Function.update_of_ne hne]
        exact b1
      have g2 : (St.write { σ.alloc K with gen := g } σ.world.next K1).gen = g := rfl
      generalize St.write { σ.alloc K with gen := g } σ.world.next K1 = τ at t2 bp2 bc2 g2
      show Matches w0 c K False _ (finish62 S r s validator v σ.world.next K τ)
      unfold finish62
      simp only [bp2]
      by_cases h2 : (decide (K1.degree v ≠ 4) || !K1.isValid) = true
      · simp only [if_pos h2]
        exact drop_private hp hne t2 bc2 g2
      · simp only [if_neg h2]
        have t3 := t2.write hpm hp (K1.removeVertex v)
        have bp3 := body_write (σ := τ) σ.world.next (K1.removeVertex v)
        have bc3 : (τ.write σ.world.next (K1.removeVertex v)).world.body c = some K := by
          show Function.update _ _ _ c = _
          rw [Function.update_of_ne hne]
          exact bc2
        have g3 : (τ.write σ.world.next (K1.removeVertex v)).gen = g := g2
        generalize τ.write σ.world.next (K1.removeVertex v) = υ at t3 bp3 bc3 g3
        generalize K1.removeVertex v = K2 at bp3
        by_cases h3 : (!validator K2 || !K2.isValid || decide (K2.finiteCells.card + 4 ≠ K.finiteCells.card)
          || decide (K2.finiteVerts.card + 1 ≠ K.finiteVerts.card)) = true
        · simp only [if_pos h3]
          exact drop_private hp hne t3 bc3 g3
        · simp only [if_neg h3]
          obtain ⟨υ', e, t4, g4, ⟨K3, bp4, a4⟩, _, bc4⟩ := labelLoop_spec true hp hpm
            ((S.env σ.world.next r s).iter K2 K2.finiteCells) υ K2 t3 bp3 (.refl _)
            (finite_iter hS _ K2)
          rw [e]
          by_cases h4 : ∃ c ∈ K2.finiteCells, K2.expectedType c = .acausal ∨
            K2.expectedType c = .unclassified
          · rw [if_pos h4, decide_eq_false (by
              rw [not_not]
              simpa only [(hS.env σ.world.next r s).mem_iter, true_and] using h4)]
            exact drop_private hp hne t4 ((bc4 c hne).trans bc3) (g4.trans g3)
          · rw [if_neg h4, decide_eq_true (by
              simpa only [(hS.env σ.world.next r s).mem_iter, true_and] using h4)]
            refine ⟨g4.trans g3, hp, ?_, K3, bp4, a4.trans (.relabel K2)⟩
            rwa [Finset.pair_comm] at t4

theorem execute44_spec (hS : Val.Lawful S) {c : ℕ} {K : Tri V} (validator : Tri V → Bool)
    (hc : w0.next ≤ c) (ht : Track w0 {c} σ) (hb : σ.world.body c = some K) (m : FourFour V) :
    Matches w0 c K False (executeFourFour validator K m, σ.gen)
      (execute44 S r s validator c m σ) := by
  have hcn : c < σ.world.next := ht.lt c (Finset.mem_singleton_self c)
  have hp : w0.next ≤ σ.world.next := ht.le
  have hne : c ≠ σ.world.next := by omega
  have t1 := ht.alloc K
  have b1 : (σ.alloc K).world.body c = some K := by
    show Function.update _ _ _ c = _
    rw [Function.update_of_ne hne, hb]
  have hpm : σ.world.next ∈ ({σ.world.next, c} : Finset ℕ) := Finset.mem_insert_self ..
  have g1 : (σ.alloc K).gen = σ.gen := rfl
  unfold executeFourFour execute44
  simp only [hb]
  generalize σ.alloc K = τ at t1 b1 g1
  by_cases h1 : (!K.isEdge m.a m.b) = true ∨ m.top ∉ K.finiteVerts ∨ m.bottom ∉ K.finiteVerts
  · simp only [if_pos h1]
    exact drop_private hp hne t1 b1 g1
  · simp only [if_neg h1]
    generalize (K.verts.filter (fun x => x ∉ ({m.a, m.b, m.bottom} : Finset V) ∧
      insert x ({m.a, m.b, m.bottom} : Finset V) ∈ K.cells)).min = x
    cases x with
    | top => exact drop_private hp hne t1 b1 g1
    | coe x =>
      dsimp only
      cases K.flipFacet (insert x {m.a, m.b, m.bottom}) x with
      | none => exact drop_private hp hne t1 b1 g1
      | some K1 =>
        dsimp only
        have t2 := t1.write hpm hp K1
        have bc2 : (τ.write σ.world.next K1).world.body c = some K := by
          show Function.update _ _ _ c = _
          rw [Function.update_of_ne hne]
          exact b1
        have g2 : (τ.write σ.world.next K1).gen = σ.gen := g1
        generalize τ.write σ.world.next K1 = υ at t2 bc2 g2
        by_cases h2 : (!K1.isEdge m.a m.b) = true
        · simp only [if_pos h2]
          exact drop_private hp hne t2 bc2 g2
        · simp only [if_neg h2]
          cases K1.flipEdge m.a m.b with
          | none => exact drop_private hp hne t2 bc2 g2
          | some K2 =>
            dsimp only
            have t3 := t2.write hpm hp K2
            have bp3 := body_write (σ := υ) σ.world.next K2
            have bc3 : (υ.write σ.world.next K2).world.body c = some K := by
              show Function.update _ _ _ c = _
              rw [Function.update_of_ne hne]
              exact bc2
            have g3 : (υ.write σ.world.next K2).gen = σ.gen := g2
            generalize υ.write σ.world.next K2 = φ at t3 bp3 bc3 g3
            by_cases h3 : (!validator K2 || !K2.isValid) = true
            · simp only [if_pos h3]
              exact drop_private hp hne t3 bc3 g3
            · simp only [if_neg h3]
              obtain ⟨φ', e, t4, g4, ⟨K3, bp4, a4⟩, _, bc4⟩ := labelLoop_spec false hp hpm
                ((S.env σ.world.next r s).iter K2 K2.finiteCells) φ K2 t3 bp3 (.refl _)
                (finite_iter hS _ K2)
              rw [e, decide_eq_true (by simp)]
              refine ⟨g4.trans g3, hp, ?_, K3, bp4, a4.trans (.relabel K2)⟩
              rwa [Finset.pair_comm] at t4

/-- Only the (2,6) execution may fail after mutating the working copy. -/
def Spoils : Prepared V → Prop
  | .twoSix _ => True
  | _ => False

theorem execute_spec (hS : Val.Lawful S) {c d : ℕ} {K : Tri V} (validator : Tri V → Bool)
    (hc : w0.next ≤ c) (ht : Track w0 {c} σ) (hb : σ.world.body c = some K) (q : Prepared V) :
    Matches w0 c K (Spoils q) (pureExecute (S.env d r s) validator K q σ.gen)
      (execute S r s validator c q σ) := by
  cases q with
  | twoThree m => exact execute23_spec rfl hc ht hb m
  | threeTwo m => exact execute32_spec rfl hc ht hb m
  | twoSix m => exact execute26_spec rfl validator hc ht hb m
  | sixTwo v => exact execute62_spec hS validator hc ht hb v
  | fourFour m => exact execute44_spec hS validator hc ht hb m

theorem spoils_prepare {K : Tri V} {mv : MoveType} {x : Finset V} {q : Prepared V}
    (h : prepare K mv x = .ok q) : Spoils q → mv = .twoSix := by
  cases mv with
  | twoSix => intro _; rfl
  | twoThree =>
    unfold prepare at h
    cases hh : prepareTwoThree K x with
    | error e => rw [hh] at h; cases h
    | ok m => rw [hh] at h; cases h; exact False.elim
  | threeTwo =>
    simp only [prepare] at h
    split at h
    · rename_i a b _
      cases hh : prepareThreeTwo K a b with
      | error e => rw [hh] at h; cases h
      | ok m => rw [hh] at h; cases h; exact False.elim
    · cases h
  | sixTwo =>
    simp only [prepare] at h
    split at h
    · rename_i v _
      cases hh : prepareSixTwo K v with
      | error e => rw [hh] at h; cases h
      | ok m => rw [hh] at h; cases h; exact False.elim
    · cases h
  | fourFour =>
    simp only [prepare] at h
    split at h
    · rename_i a b _
      cases hh : prepareFourFour K a b with
      | error e => rw [hh] at h; cases h
      | ok m => rw [hh] at h; cases h; exact False.elim
    · cases h

/-- The pure site loop. -/
def pureLoop (env : Env V G) (validator : Tri V → Bool) (mv : MoveType) (stop : Bool) (K : Tri V)
    (sites : List (Finset V)) (last : MoveFailure) (g : G) : Except MoveFailure (Tri V) × G :=
  if stop then searchSites26 (prepare K mv) (pureExecute env validator K) sites last g
  else searchSites (prepare K mv) (pureExecute env validator K) sites last g

theorem siteLoop_spec (hS : Val.Lawful S) {c d : ℕ} {K : Tri V} (validator : Tri V → Bool)
    (mv : MoveType) (stop : Bool) (hstop : mv = .twoSix → stop = true) (hc : w0.next ≤ c)
    (sites : List (Finset V)) : ∀ (σ : St V G) (last : MoveFailure), Track w0 {c} σ →
    σ.world.body c = some K →
    Matches w0 c K True (pureLoop (S.env d r s) validator mv stop K sites last σ.gen)
      (siteLoop S r s validator mv stop c sites last σ) := by
  induction sites with
  | nil =>
    intro σ last ht hb
    unfold pureLoop
    cases stop <;> exact ⟨rfl, rfl, ht, .inr hb⟩
  | cons x xs ih =>
    intro σ last ht hb
    unfold siteLoop
    simp only [hb]
    cases hq : prepare K mv x with
    | error e =>
      have := ih σ e ht hb
      revert this
      unfold pureLoop
      cases stop <;> simp [searchSites, searchSites26, hq]
    | ok q =>
      have hx := execute_spec (d := d) (r := r) (s := s) hS validator hc ht hb q
      have hs := spoils_prepare hq
      dsimp only
      rcases hp : pureExecute (S.env d r s) validator K q σ.gen with ⟨rp, gp⟩
      rcases hi : execute S r s validator c q σ with ⟨ri, τ⟩
      rw [hp, hi] at hx
      cases rp with
      | error e =>
        cases ri with
        | ok b => exact hx.2.elim
        | error e' =>
          obtain ⟨hg, rfl, ht', hb'⟩ := hx
          dsimp only at hg ht' hb'
          cases stop with
          | true =>
            simp only [pureLoop, searchSites26, hq, hp, if_true]
            exact ⟨hg, rfl, ht', .inl trivial⟩
          | false =>
            have hKb : τ.world.body c = some K := by
              rcases hb' with h | h
              · exact absurd (hstop (hs h)) (by simp)
              · exact h
            have := ih τ e ht' hKb
            rw [hg] at this
            simpa [pureLoop, searchSites, hq, hp] using this
      | ok K' =>
        cases ri with
        | error e => exact hx.2.elim
        | ok b =>
          have e1 : pureLoop (S.env d r s) validator mv stop K (x :: xs) last σ.gen = (.ok K', gp) := by
            cases stop <;> simp [pureLoop, searchSites, searchSites26, hq, hp]
          rw [e1]
          exact hx

theorem Track.inv (h : Track w0 L σ) (hi : Inv S w0) : Inv S σ.world := by
  refine ⟨h.fresh, ?_, ?_⟩
  · rw [h.now]; exact hi.uniq
  · intro a x b hx hb
    rw [h.now] at hx
    rw [h.nowOld b (hi.lt hx hb)]
    exact hi.good a x b hx hb

/-- What is known when a call returns. -/
structure Done (S : Setting V G) (w0 : World V) (slot : ℕ) (out : Outcome) (σ : St V G) : Prop where
  others : ∀ w ∈ σ.moments, ∀ p, p ≠ slot → w.obj p = w0.obj p
  old : ∀ w ∈ σ.moments, ∀ b, b < w0.next → w.body b = w0.body b
  inv : Inv S σ.world
  failed : out ≠ .moved → (∀ w ∈ σ.moments, w.obj = w0.obj) ∧ σ.world.body = w0.body
  complete : out = .moved → ∀ w ∈ σ.moments, w.obj slot = w0.obj slot ∨
    w.obj slot = σ.world.obj slot ∧ seen w slot = seen σ.world slot
  kept : out = .moved → ∀ b, w0.next ≤ b → σ.world.body b ≠ none →
    ∃ x, σ.world.obj slot = some x ∧ x.tri.body = some b

theorem Track.done (h : Track w0 ∅ σ) (hi : Inv S w0) {slot : ℕ} {out : Outcome}
    (ho : out ≠ .moved) : Done S w0 slot out σ := by
  refine ⟨fun w hw p _ => by rw [h.obj w hw], h.old, h.inv hi, fun _ => ⟨h.obj, ?_⟩,
    fun e => absurd e ho, fun e => absurd e ho⟩
  funext b
  rcases lt_or_ge b w0.next with hb | hb
  · exact h.nowOld b hb
  · rw [h.only b hb (by simp), hi.fresh b hb]

/-- The end of a call against the pure result `K'`. -/
def Returns (S : Setting V G) (slot : ℕ) (r s : BitVec 64) (pure : Except MoveFailure (Tri V))
    (res : Outcome × St V G) : Prop :=
  match pure with
  | .error e => res.1 = .failed e
  | .ok K' =>
    (K'.finiteVerts = ∅ ∧ res.1 = .threw .invalidArgument) ∨
    (K'.finiteVerts ≠ ∅ ∧ res.1 = .moved ∧ ∃ y, seen res.2.world slot = some y ∧
      (∀ d, y.tri = makeManifold (S.env d r s) K') ∧ y.radius = r ∧ y.spacing = s)

theorem deliver_spec (hS : Val.Lawful S) (hi : Inv S w0) {slot c b : ℕ} {K' K'' : Tri V}
    (hc : w0.next ≤ c) (hbn : w0.next ≤ b) (ht : Track w0 {c, b} σ)
    (hb : σ.world.body b = some K'') (ha : Alike K'' K') :
    Done S w0 slot (deliver S r s slot c b σ).1 (deliver S r s slot c b σ).2 ∧
    Returns S slot r s (.ok K') (deliver S r s slot c b σ) ∧
    (deliver S r s slot c b σ).2.gen = σ.gen := by
  have hiσ := ht.inv hi
  have hfv : K''.finiteVerts = K'.finiteVerts := by
    unfold Tri.finiteVerts Tri.verts; rw [ha.cells, ha.inf]
  have hbl : b < σ.world.next := ht.lt b (by simp)
  have hcl : c < σ.world.next := ht.lt c (by simp)
  by_cases hK : K''.finiteVerts = ∅
  · have hcon : constructObject S σ.world slot K'' r s = .error .invalidArgument := by
      have h1 : buildCaches (S.env σ.world.next r s) (makeManifold (S.env σ.world.next r s) K'') =
          .error .invalidArgument := by unfold buildCaches; rw [if_pos]; exact hK
      unfold constructObject buildMembers construct
      simp only [Function.update_self, h1]
    have e : deliver S r s slot c b σ = (.threw .invalidArgument, (σ.free b).free c) := by
      unfold deliver; simp only [hb, hcon]
    rw [e]
    have t := (ht.free hbn).free hc
    rw [show (({c, b} : Finset ℕ).erase b).erase c = ∅ by ext x; simp; tauto] at t
    exact ⟨t.done hi (by simp), .inl ⟨hfv ▸ hK, rfl⟩, rfl⟩
  · obtain ⟨w', cs, hcon, hn, ho, hcs, hbo, hf⟩ := constructObject_spec hS hiσ slot K'' r s hK
    have e : deliver S r s slot c b σ = (.moved, ((σ.put w').free b).free c) := by
      unfold deliver; simp only [hb, hcon]
    rw [e]
    obtain ⟨hinv, hfr⟩ := construct_spec hS hiσ slot K'' r s hcon
    have hn1 : w0.next ≤ σ.world.next := ht.le
    have bodyN : ∀ body : ℕ → Option (Tri V), Function.update (Function.update body b none) c none
        σ.world.next = body σ.world.next := by
      intro body
      rw [Function.update_of_ne (by omega), Function.update_of_ne (by omega)]
    have bodyN1 : ∀ body : ℕ → Option (Tri V), Function.update body b none
        σ.world.next = body σ.world.next := by
      intro body
      rw [Function.update_of_ne (by omega)]
    have hslot : ∀ (u : World V), u.obj = w'.obj → u.body σ.world.next = w'.body σ.world.next →
        seen u slot = seen w' slot := by
      intro u h1 h2
      apply Frame.seen
      refine ⟨by rw [h1], ?_⟩
      intro x d hx hd
      rw [ho, Function.update_self] at hx
      cases hx
      cases hd
      exact h2
    have mom : ∀ u ∈ (((σ.put w').free b).free c).moments,
        u ∈ σ.moments ∨ (u.obj = w'.obj ∧ u.body σ.world.next = w'.body σ.world.next ∧
          ∀ d, d < w0.next → u.body d = w'.body d) := by
      intro u hu
      simp only [St.moments, St.free, St.put, List.mem_cons] at hu
      rcases hu with rfl | rfl | rfl | hu
      · refine .inr ⟨rfl, bodyN _, fun d hd => ?_⟩
        dsimp only
        rw [Function.update_of_ne (by omega), Function.update_of_ne (by omega)]
      · refine .inr ⟨rfl, bodyN1 _, fun d hd => ?_⟩
        dsimp only
        rw [Function.update_of_ne (by omega)]
      · exact .inr ⟨rfl, rfl, fun _ _ => rfl⟩
      · exact .inl (by simpa [St.moments] using hu)
    have hwold : ∀ d, d < w0.next → w'.body d = w0.body d := by
      intro d hd
      rw [hbo, Function.update_of_ne (by omega)]
      exact ht.nowOld d hd
    have hfin : seen (((σ.put w').free b).free c).world slot = seen w' slot :=
      hslot _ rfl (bodyN _)
    refine ⟨⟨?_, ?_, ?_, fun h => absurd rfl h, ?_, ?_⟩, ?_, rfl⟩
    · intro u hu p hp
      rcases mom u hu with h | ⟨h, -⟩
      · rw [ht.obj u h]
      · rw [h, ho, Function.update_of_ne hp, ht.now]
    · intro u hu d hd
      rcases mom u hu with h | ⟨-, -, h⟩
      · exact ht.old u h d hd
      · rw [h d hd, hwold d hd]
    · have hle' : σ.world.next ≤ w'.next := hn
      refine ⟨?_, hinv.uniq, ?_⟩
      · intro d hd
        have hd' : w'.next ≤ d := hd
        show Function.update (Function.update w'.body b none) c none d = none
        rw [Function.update_of_ne (by omega), Function.update_of_ne (by omega)]
        exact hf d hd'
      · intro a x d hx hd
        have hx' : w'.obj a = some x := hx
        show Good S (Function.update (Function.update w'.body b none) c none d) d x
        have hdd : d < w0.next ∨ d = σ.world.next := by
          rw [ho, Function.update_apply] at hx'
          split_ifs at hx' with h1
          · cases hx'; cases hd; exact .inr rfl
          · rw [ht.now] at hx'; exact .inl (hi.lt hx' hd)
        rw [Function.update_of_ne (by omega), Function.update_of_ne (by omega)]
        exact hinv.good a x d hx' hd
    · intro _ u hu
      rcases mom u hu with h | ⟨h1, h2, -⟩
      · exact .inl (by rw [ht.obj u h])
      · exact .inr ⟨by rw [h1]; rfl, by rw [hfin]; exact hslot u h1 h2⟩
    · intro _ d hd hne
      refine ⟨_, show w'.obj slot = _ by rw [ho, Function.update_self], ?_⟩
      show some σ.world.next = some d
      congr 1
      by_contra hdn
      apply hne
      show Function.update (Function.update w'.body b none) c none d = none
      rw [Function.update_apply, Function.update_apply]
      split_ifs with h1 h2
      · rfl
      · rfl
      · rw [hbo, Function.update_of_ne (by omega)]
        exact ht.only d hd (by simp; tauto)
    · refine .inr ⟨hfv ▸ hK, rfl, ?_⟩
      rw [hfin]
      refine ⟨⟨makeManifold (S.env σ.world.next r s) K'', r, s, cs,
        geometryOf (makeManifold (S.env σ.world.next r s) K'') cs⟩, ?_, fun d => ?_, rfl, rfl⟩
      · unfold seen
        rw [ho, Function.update_self]
        simp only [tagged, Option.bind_some, hbo, Function.update_self]
        simp only [Option.some.injEq, Seen.mk.injEq, true_and, and_true]
        exact tagged_caches _ r s cs
      · exact ha.makeManifold (S.env σ.world.next r s)

theorem finish_spec (hS : Val.Lawful S) (hi : Inv S w0) {slot c : ℕ} {K : Tri V} {stop : Prop}
    (hc : w0.next ≤ c) {pure : Except MoveFailure (Tri V) × G} {imp : Except MoveFailure ℕ × St V G}
    (h : Matches w0 c K stop pure imp) :
    Done S w0 slot (finish S r s slot c imp).1 (finish S r s slot c imp).2 ∧
    Returns S slot r s pure.1 (finish S r s slot c imp) ∧
    (finish S r s slot c imp).2.gen = pure.2 := by
  rcases imp with ⟨ri, τ⟩
  rcases pure with ⟨rp, gp⟩
  cases rp with
  | error e =>
    cases ri with
    | ok b => exact h.2.elim
    | error e' =>
      obtain ⟨hg, rfl, ht, -⟩ := h
      have t := ht.free hc
      rw [show ({c} : Finset ℕ).erase c = ∅ by simp] at t
      exact ⟨t.done hi (by simp [finish]), rfl, hg⟩
  | ok K' =>
    cases ri with
    | error e => exact h.2.elim
    | ok b =>
      obtain ⟨hg, hbn, ht, K'', hb, ha⟩ := h
      obtain ⟨h1, h2, h3⟩ := deliver_spec (r := r) (s := s) (slot := slot) hS hi hc hbn ht hb ha
      exact ⟨h1, h2, h3.trans hg⟩

theorem Track.start (hi : Inv S w0) (g : G) : Track w0 ∅ (⟨w0, g, []⟩ : St V G) :=
  ⟨by simp [St.moments], by simp [St.moments], le_rfl, hi.fresh, fun b hb _ => hi.fresh b hb, by simp⟩

/-- Everything about one `do_*_move` call. -/
theorem doMove_spec (hS : Val.Lawful S) (hi : Inv S w0) (validator : Tri V → Bool) (mv : MoveType)
    {src slot : ℕ} {x : Object V} {b : ℕ} {K : Tri V} (hx : w0.obj src = some x)
    (hb : x.tri.body = some b) (hK : w0.body b = some K) (g : G) (d : ℕ) :
    let e := S.env d x.tri.radius x.tri.spacing
    let sites := e.shuffle (canonicalize (rawSites e K mv)) g
    let pure := pureLoop e validator mv (mv = .twoSix) K sites.1 .noCandidate sites.2
    let res := doMove S validator mv src slot w0 g
    Done S w0 slot res.1 res.2 ∧ Returns S slot x.tri.radius x.tri.spacing pure.1 res ∧
      res.2.gen = pure.2 := by
  intro e sites pure res
  have t1 := (Track.start hi g).alloc K
  have b1 : (St.alloc (⟨w0, g, []⟩ : St V G) K).world.body w0.next = some K := Function.update_self _ _ _
  have hsites : (S.env w0.next x.tri.radius x.tri.spacing).shuffle (canonicalize
      (rawSites (S.env w0.next x.tri.radius x.tri.spacing) K mv))
      (St.alloc (⟨w0, g, []⟩ : St V G) K).gen = sites := by
    rw [canonicalize_congr (rawSites_perm hS w0.next d x.tri.radius x.tri.spacing K mv)]
    rfl
  have hres : res = finish S x.tri.radius x.tri.spacing slot w0.next
      (siteLoop S x.tri.radius x.tri.spacing validator mv (mv = .twoSix) w0.next sites.1 .noCandidate
        { St.alloc (⟨w0, g, []⟩ : St V G) K with gen := sites.2 }) := by
    show doMove S validator mv src slot w0 g = _
    unfold doMove
    rw [hx]
    dsimp only
    rw [hb, Option.bind_some, hK]
    show finish S x.tri.radius x.tri.spacing slot w0.next _ = _
    rw [← hsites]
  rw [hres]
  exact finish_spec hS hi le_rfl (siteLoop_spec (d := d) hS validator mv (decide (mv = .twoSix)) (by simp) le_rfl
    sites.1 { St.alloc (⟨w0, g, []⟩ : St V G) K with gen := sites.2 } .noCandidate (t1.gen _) b1)

theorem canonicalRandomElement_congr (hS : Val.Lawful S) (b d : ℕ) (r s : BitVec 64)
    {l l' : List (Finset V)} (h : l.Perm l') (g : G) :
    canonicalRandomElement (S.env b r s) l g = canonicalRandomElement (S.env d r s) l' g := by
  unfold canonicalRandomElement
  have he : l.isEmpty = l'.isEmpty := by
    rw [Bool.eq_iff_iff, List.isEmpty_iff, List.isEmpty_iff]
    constructor
    · rintro rfl; exact h.symm.eq_nil
    · rintro rfl; exact h.eq_nil
  rw [he, h.length_eq]
  by_cases h0 : l'.isEmpty
  · rw [if_pos h0, if_pos h0]
  · rw [if_neg h0, if_neg h0]
    have hi : (S.env b r s).index l'.length g = (S.env d r s).index l'.length g := rfl
    rw [hi]
    rcases (S.env d r s).index l'.length g with ⟨i, g1⟩
    dsimp only
    rw [nth_eq_sorted ((hS.env b r s).nth siteLe l i siteLe_total (fun _ _ _ => siteLe_trans)),
      nth_eq_sorted ((hS.env d r s).nth siteLe l' i siteLe_total (fun _ _ _ => siteLe_trans)),
      canonicalize_congr h]

/-- The pure proposal with an arbitrary validator, before `make_manifold`. -/
def purePropose (env : Env V G) (validator : Tri V → Bool) (mv : MoveType) (K : Tri V) (g : G) :
    Except MoveFailure (Tri V) × G :=
  match canonicalRandomElement env (rawSites env K mv) g with
  | (none, g1) => (.error .noCandidate, g1)
  | (some x, g1) => pureLoop env validator mv true K [x] .noCandidate g1

/-- Everything about one `propose_*_move` call. -/
theorem propose_spec (hS : Val.Lawful S) (hi : Inv S w0) (validator : Tri V → Bool) (mv : MoveType)
    {src slot : ℕ} {x : Object V} {b : ℕ} {K : Tri V} (hx : w0.obj src = some x)
    (hb : x.tri.body = some b) (hK : w0.body b = some K) (g : G) (d : ℕ) :
    let pure := purePropose (S.env d x.tri.radius x.tri.spacing) validator mv K g
    let res := propose S validator mv src slot w0 g
    Done S w0 slot res.1 res.2 ∧ Returns S slot x.tri.radius x.tri.spacing pure.1 res ∧
      res.2.gen = pure.2 := by
  intro pure res
  have t1 := (Track.start hi g).alloc K
  have b1 : (St.alloc (⟨w0, g, []⟩ : St V G) K).world.body w0.next = some K := Function.update_self _ _ _
  have hsel := canonicalRandomElement_congr hS w0.next d x.tri.radius x.tri.spacing
    (rawSites_perm hS w0.next d x.tri.radius x.tri.spacing K mv) g
  have hres : res = (match canonicalRandomElement (S.env d x.tri.radius x.tri.spacing)
        (rawSites (S.env d x.tri.radius x.tri.spacing) K mv) g with
      | (none, g1) => finish S x.tri.radius x.tri.spacing slot w0.next
          (.error .noCandidate, { St.alloc (⟨w0, g, []⟩ : St V G) K with gen := g1 })
      | (some y, g1) => finish S x.tri.radius x.tri.spacing slot w0.next
          (siteLoop S x.tri.radius x.tri.spacing validator mv true w0.next [y] .noCandidate
            { St.alloc (⟨w0, g, []⟩ : St V G) K with gen := g1 })) := by
    show propose S validator mv src slot w0 g = _
    unfold propose
    rw [hx]
    dsimp only
    rw [hb, Option.bind_some, hK]
    dsimp only
    rw [← hsel]
    rfl
  have hpure : pure = (match canonicalRandomElement (S.env d x.tri.radius x.tri.spacing)
        (rawSites (S.env d x.tri.radius x.tri.spacing) K mv) g with
      | (none, g1) => (.error .noCandidate, g1)
      | (some y, g1) => pureLoop (S.env d x.tri.radius x.tri.spacing) validator mv true K [y]
          .noCandidate g1) := rfl
  rw [hres, hpure]
  rcases canonicalRandomElement (S.env d x.tri.radius x.tri.spacing)
        (rawSites (S.env d x.tri.radius x.tri.spacing) K mv) g with ⟨_ | y, g1⟩
  · exact finish_spec (K := K) (stop := True) hS hi le_rfl ⟨rfl, rfl, by simpa using t1.gen g1, .inl trivial⟩
  · exact finish_spec hS hi le_rfl (siteLoop_spec (d := d) hS validator mv true (fun _ => rfl) le_rfl
      [y] { St.alloc (⟨w0, g, []⟩ : St V G) K with gen := g1 } .noCandidate (t1.gen _) b1)

theorem Done.untouched {slot : ℕ} {out : Outcome} (hi : Inv S w0) (h : Done S w0 slot out σ) :
    ∀ w ∈ σ.moments, Untouched w0 w slot := by
  intro w hw
  refine ⟨h.others w hw, fun b hb => h.old w hw b ?_⟩
  by_contra hc
  exact hb (hi.fresh b (by omega))

theorem call_done (hS : Val.Lawful S) {w : World V} (hi : Inv S w) (m : MoveCall V G)
    (h : Intact w m.src) : Done S w m.slot (m.run S w).1 (m.run S w).2 := by
  obtain ⟨x, b, K, hx, hb, hK⟩ := intact_body hi h
  unfold MoveCall.run
  split_ifs
  · exact (propose_spec hS hi m.validator m.move hx hb hK m.gen 0).1
  · exact (doMove_spec hS hi m.validator m.move hx hb hK m.gen 0).1

theorem history_inv (hS : Val.Lawful S) {w : World V} (h : History S w) : Inv S w := by
  induction h with
  | start => exact inv_initial
  | op _ hp hs ih => exact (step_spec hS ih hp hs).1
  | move m _ ha ih => exact (call_done hS ih m ha.1).inv

/-- With the public validator the pure loop is the pure move. -/
theorem pureLoop_doMove (env : Env V G) (mv : MoveType) (K : Tri V) (g : G) :
    let sites := env.shuffle (canonicalize (rawSites env K mv)) g
    let p := pureLoop env (fun _ => true) mv (mv = .twoSix) K sites.1 .noCandidate sites.2
    Moves.doMove env mv K g = (p.1.map (makeManifold env), p.2) := by
  have he : pureExecute env (fun _ => true) K = Moves.execute env K := by
    funext q g; exact pureExecute_true env K q g
  intro sites p
  have hp : p = pureLoop env (fun _ => true) mv (mv = .twoSix) K sites.1 .noCandidate sites.2 := rfl
  rw [hp]
  unfold Moves.doMove pureLoop
  rw [he]
  cases mv <;> rfl

theorem purePropose_propose (env : Env V G) (mv : MoveType) (K : Tri V) (g : G) :
    Moves.propose env mv K g =
      ((purePropose env (fun _ => true) mv K g).1.map (makeManifold env),
        (purePropose env (fun _ => true) mv K g).2) := by
  unfold Moves.propose purePropose
  rcases canonicalRandomElement env (rawSites env K mv) g with ⟨_ | y, g1⟩
  · rfl
  · simp only [pureLoop, if_true, searchSites26]
    cases prepare K mv y with
    | error e => rfl
    | ok q =>
      dsimp only
      rw [pureExecute_true]
      rcases Moves.execute env K q g1 with ⟨_ | _, g2⟩ <;> rfl

end CDT.Atomic

import Verif.Lemmas.Values
import Verif.Fixture.Complexes
/-
C43: manifolds are values.
-/
namespace CDT.Props
open CDT Spec Val Moves

variable {V G : Type} [LinearOrder V] {S : Setting V G} {w w' : World V}

/-- Two manifolds never share a triangulation. -/
theorem C43_no_shared_storage (hS : Val.Lawful S) (h : Reached S w) {a a' : ℕ} {x x' : Object V}
    (ha : w.obj a = some x) (ha' : w.obj a' = some x') (hne : a ≠ a') {b : ℕ}
    (hb : x.tri.body = some b) : x'.tri.body ≠ some b :=
  fun hb' => hne ((reached_inv hS h).uniq a a' x x' b ha ha' hb hb')

/-- Every handle a manifold stores points into its own triangulation, which exists. -/
theorem C43_handles_are_own (hS : Val.Lawful S) (h : Reached S w) {a : ℕ} {x : Object V}
    (ha : w.obj a = some x) {b : ℕ} (hb : x.tri.body = some b) :
    w.body b ≠ none ∧ ∀ u ∈ handles x.tri, u.1 = b := by
  have hg := (reached_inv hS h).good a x b ha hb
  refine ⟨fun e => ?_, ?_⟩
  · obtain ⟨K, hK⟩ := hg.content
    rw [e] at hK; cases hK
  · rcases hg with ⟨_, _, r, s, e⟩ | ⟨_, cs, r, s, _, _, _, e, _⟩
    · rw [e]; simp [handles, defaultMembers]
    · rw [e]; exact tagged_handles b r s cs

/-- A moved-from manifold stores no handle. -/
theorem C43_moved_from_has_no_handles (h : Reached S w) :
    ∀ {a : ℕ} {x : Object V}, w.obj a = some x → x.tri.body = none → handles x.tri = [] := by
  have key : ∀ {w : World V}, Reached S w → ∀ a x, w.obj a = some x → x.tri.body = none →
      handles x.tri = [] := by
    intro w h
    induction h with
    | start => intro a x hx; exact absurd hx (by simp [World.initial])
    | @next w w' o hr hp hs ih =>
      have hcons : ∀ {p K r s} {w2 : World V}, constructObject S w p K r s = .ok w2 → ∀ a x,
          w2.obj a = some x → x.tri.body = none → handles x.tri = [] := by
        intro p K r s w2 hc a x hx hb
        unfold constructObject buildMembers at hc
        simp only [Function.update_self] at hc
        cases hcn : construct (S.env w.next r s) K with
        | error e => rw [hcn] at hc; cases hc
        | ok q =>
          rw [hcn] at hc
          simp only [Function.update_self] at hc
          cases hc
          simp only [World.set, Function.update_apply] at hx
          split_ifs at hx
          · cases hx; cases hb
          · exact ih a x hx hb
      have hcopy : ∀ {m : Members V} {w2 : World V} {t : Members V},
          copyMembers S w m = .ok (w2, t) → w2.obj = w.obj ∧ t.body ≠ none := by
        intro m w2 t hc
        unfold copyMembers at hc
        cases hK : m.body.bind w.body with
        | none => rw [hK] at hc; cases hc
        | some K =>
          rw [hK] at hc
          dsimp only at hc
          split_ifs at hc
          · cases hc; exact ⟨rfl, by simp [defaultMembers]⟩
          · unfold buildMembers at hc
            simp only [Function.update_self] at hc
            cases hcn : construct (S.env (w.next + 1) m.radius m.spacing) K with
            | error e => rw [hcn] at hc; cases hc
            | ok q => rw [hcn] at hc; cases hc; exact ⟨rfl, by simp [swapMembers]⟩
      have hswap : ∀ p q a x, (swapObjects w p q).obj a = some x → x.tri.body = none →
          handles x.tri = [] := by
        intro p q a x hx hb
        unfold swapObjects at hx
        split at hx
        · rename_i u v hu hv
          simp only [World.set, swapMembers_eq, swapGeometry_eq, Function.update_apply] at hx
          split_ifs at hx
          · cases hx; exact ih p u hu hb
          · cases hx; exact ih q v hv hb
          · exact ih a x hx hb
        · exact ih a x hx hb
      intro a x hx hb
      cases o with
      | default p =>
        cases hs
        simp only [defaultObject, World.set, Function.update_apply] at hx
        split_ifs at hx
        · cases hx; cases hb
        · exact ih a x hx hb
      | construct p K r s => exact hcons hs a x hx hb
      | copy p q =>
        simp only [step] at hs
        cases hq : w.obj q with
        | none => rw [hq] at hs; cases hs; exact ih a x hx hb
        | some y =>
          rw [hq] at hs
          dsimp only at hs
          cases hc : copyMembers S w y.tri with
          | error e => rw [hc] at hs; cases hs
          | ok r =>
            obtain ⟨w2, t⟩ := r
            rw [hc] at hs
            cases hs
            obtain ⟨e1, e2⟩ := hcopy hc
            simp only [World.set, Function.update_apply] at hx
            split_ifs at hx
            · cases hx; exact absurd hb e2
            · rw [e1] at hx; exact ih a x hx hb
      | move p q =>
        simp only [step] at hs
        cases hq : w.obj q with
        | none => rw [hq] at hs; cases hs; exact ih a x hx hb
        | some y =>
          rw [hq] at hs
          cases hs
          simp only [World.set, Function.update_apply] at hx
          split_ifs at hx
          · cases hx; rfl
          · cases hx; exact ih q y hq hb
          · exact ih a x hx hb
      | copyAssign p q =>
        simp only [step] at hs
        cases hpo : w.obj p with
        | none => rw [hpo] at hs; cases hs; exact ih a x hx hb
        | some u =>
        cases hq : w.obj q with
        | none => rw [hpo, hq] at hs; cases hs; exact ih a x hx hb
        | some y =>
          rw [hpo, hq] at hs
          dsimp only at hs
          split_ifs at hs
          · cases hs; exact ih a x hx hb
          · cases hc : copyMembers S w y.tri with
            | error e => rw [hc] at hs; cases hs
            | ok r =>
              obtain ⟨w2, t⟩ := r
              rw [hc] at hs
              cases hs
              obtain ⟨e1, e2⟩ := hcopy hc
              simp only [World.set, swapMembers_eq, Function.update_apply] at hx
              split_ifs at hx
              · cases hx; exact absurd hb e2
              · rw [e1] at hx; exact ih a x hx hb
      | moveAssign p q =>
        simp only [step] at hs
        cases hs
        split_ifs at hx
        · exact ih a x hx hb
        · exact hswap _ _ a x hx hb
      | swap p q => cases hs; exact hswap _ _ a x hx hb
      | updated p q =>
        simp only [step] at hs
        cases hq : w.obj q with
        | none => rw [hq] at hs; cases hs; exact ih a x hx hb
        | some y =>
          rw [hq] at hs
          dsimp only at hs
          cases hK : y.tri.body.bind w.body with
          | none => rw [hK] at hs; cases hs
          | some K =>
            rw [hK] at hs
            dsimp only at hs
            split_ifs at hs
            · cases hs
              simp only [defaultObject, World.set, Function.update_apply] at hx
              split_ifs at hx
              · cases hx; cases hb
              · exact ih a x hx hb
            · exact hcons hs a x hx hb
      | destroy p =>
        simp only [step] at hs
        cases hq : w.obj p with
        | none => rw [hq] at hs; cases hs; exact ih a x hx hb
        | some y =>
          rw [hq] at hs
          cases hs
          simp only [World.set, Function.update_apply] at hx
          split_ifs at hx
          exact ih a x hx hb
  intro a x ha hb
  exact key h a x ha hb

/-- Independence: an operation changes nothing that is observed of any manifold other than the ones
it is told to write.  In particular the source of a copy, an assignment or `updated()` stays as it
was, and later changes or the destruction of the source do not reach the copy. -/
theorem C43_independent (hS : Val.Lawful S) (h : Reached S w) {o : Op V} (hp : Permitted w o)
    (hs : step S w o = .ok w') {a : ℕ} (ha : a ∉ written o) : seen w' a = seen w a :=
  ((step_spec hS (reached_inv hS h) hp hs).2 a ha).seen

/-- Copy construction succeeds and yields an equal value. -/
theorem C43_copy (hS : Val.Lawful S) (h : Reached S w) {a b : ℕ} (hp : Permitted w (.copy a b)) :
    ∃ w' x y, step S w (.copy a b) = .ok w' ∧ seen w b = some y ∧ seen w' a = some x ∧
      SameValue x y ∧ seen w' b = some y := by
  have hi := reached_inv hS h
  obtain ⟨y, d, K, hy, hd, hK⟩ := intact_body hi hp.2
  obtain ⟨w2, t, c, e, ho, hn, hlow, hf, hc, hcn, hg, hcK, hsv⟩ := copyMembers_spec hS hi hy hd hK
  have hs : step S w (.copy a b) = .ok (w2.set a (some ⟨t, y.geometry⟩)) := by
    simp only [step, hy, e]
  have hab : b ∉ written (Op.copy (V := V) a b) := by
    simp only [written, Finset.mem_singleton]
    rintro rfl
    rw [hp.1] at hy; cases hy
  have hb : seen w b = some ⟨K, y.tri.radius, y.tri.spacing, y.tri.caches, y.geometry⟩ := by
    simp [seen, hy, hd, hK]
  refine ⟨_, _, _, hs, hb, ?_, hsv, ?_⟩
  · simp [seen, World.set, hc, hcK]
  · rw [C43_independent hS h hp hs hab, hb]

/-- Copy assignment succeeds and yields an equal value; self-assignment changes nothing. -/
theorem C43_copy_assign (hS : Val.Lawful S) (h : Reached S w) {a b : ℕ}
    (hp : Permitted w (.copyAssign a b)) :
    ∃ w' x y, step S w (.copyAssign a b) = .ok w' ∧ seen w b = some y ∧ seen w' a = some x ∧
      SameValue x y ∧ seen w' b = some y ∧ (a = b → w' = w) := by
  have hi := reached_inv hS h
  obtain ⟨y, d, K, hy, hd, hK⟩ := intact_body hi hp.2
  obtain ⟨x, hx⟩ := Option.ne_none_iff_exists'.1 hp.1
  obtain ⟨w2, t, c, e, ho, hn, hlow, hf, hc, hcn, hg, hcK, hsv⟩ := copyMembers_spec hS hi hy hd hK
  have hb : seen w b = some ⟨K, y.tri.radius, y.tri.spacing, y.tri.caches, y.geometry⟩ := by
    simp [seen, hy, hd, hK]
  by_cases hab : a = b
  · subst hab
    refine ⟨w, _, _, ?_, hb, hb, sameValue_refl _, hb, fun _ => rfl⟩
    simp [step, hy]
  · have hs : step S w (.copyAssign a b) =
        .ok ({ w2 with body := freeBody w2.body x.tri.body }.set a (some ⟨t, y.geometry⟩)) := by
      simp only [step, hx, hy, if_neg hab, e, swapMembers_eq]
    refine ⟨_, _, _, hs, hb, ?_, hsv, ?_, fun e => absurd e hab⟩
    · have : freeBody w2.body x.tri.body c = some K := by
        rw [freeBody_apply, if_neg, hcK]
        intro hxb
        exact absurd (hi.lt hx hxb) (by omega)
      simp [seen, World.set, hc, this]
    · rw [C43_independent hS h hp hs (by simpa [written] using fun e => hab e.symm), hb]

/-- Moving transfers everything that was observed, unchanged in every respect. -/
theorem C43_move {a b : ℕ} (hp : Permitted w (.move a b)) :
    ∃ w', step S w (.move a b) = .ok w' ∧ seen w' a = seen w b ∧ seen w' b = none := by
  obtain ⟨ha, y, d, hy, hd⟩ := hp
  have hab : a ≠ b := fun e => by rw [e, hy] at ha; cases ha
  refine ⟨(w.set a (some ⟨(moveMembers y.tri).1, y.geometry⟩)).set b
    (some ⟨(moveMembers y.tri).2, y.geometry⟩), by simp only [step, hy], ?_, ?_⟩
  · simp [seen, World.set, hab, hy, moveMembers, Members.caches]
  · simp [seen, World.set, moveMembers]

/-- Swapping exchanges everything that is observed, also with a moved-from manifold. -/
theorem C43_swap {a b : ℕ} (hp : Permitted w (.swap a b)) :
    ∃ w', step S w (.swap a b) = .ok w' ∧ seen w' a = seen w b ∧ seen w' b = seen w a := by
  obtain ⟨ha, hb⟩ := hp
  obtain ⟨x, hx⟩ := Option.ne_none_iff_exists'.1 ha
  obtain ⟨y, hy⟩ := Option.ne_none_iff_exists'.1 hb
  refine ⟨_, rfl, ?_, ?_⟩
  · rw [swapObjects_eq hx hy]
    by_cases hab : a = b
    · subst hab; rw [hx] at hy; cases hy; simp [seen, hx]
    · simp [seen, Function.update_of_ne hab, hy]
  · rw [swapObjects_eq hx hy]
    simp [seen, hx]

/-- Move assignment gives the target what was observed of the source; self-assignment changes
nothing. -/
theorem C43_move_assign {a b : ℕ} (hp : Permitted w (.moveAssign a b)) :
    ∃ w', step S w (.moveAssign a b) = .ok w' ∧ seen w' a = seen w b ∧ (a = b → w' = w) := by
  by_cases hab : a = b
  · subst hab
    exact ⟨w, by simp [step], rfl, fun _ => rfl⟩
  · obtain ⟨ha, hb⟩ := hp
    obtain ⟨x, hx⟩ := Option.ne_none_iff_exists'.1 ha
    obtain ⟨y, hy⟩ := Option.ne_none_iff_exists'.1 hb
    refine ⟨swapObjects w b a, by simp [step, hab], ?_, fun e => absurd e hab⟩
    rw [swapObjects_eq hy hx]
    simp [seen, hy]

/-- `updated()` of a manifold with vertices succeeds and recomputes the same value. -/
theorem C43_updated (hS : Val.Lawful S) (h : Reached S w) {a b : ℕ}
    (hp : Permitted w (.updated a b)) {y : Seen V} (hy : seen w b = some y)
    (hne : y.tri.finiteVerts ≠ ∅) :
    ∃ w' x, step S w (.updated a b) = .ok w' ∧ seen w' a = some x ∧ SameValue x y ∧
      seen w' b = some y := by
  have hi := reached_inv hS h
  obtain ⟨o, d, K, ho, hd, hK⟩ := intact_body hi hp.2
  have hb : seen w b = some ⟨K, o.tri.radius, o.tri.spacing, o.tri.caches, o.geometry⟩ := by
    simp [seen, ho, hd, hK]
  rw [hb] at hy
  cases hy
  dsimp only at hne
  rcases hi.good b o d ho hd with ⟨hc, _⟩ | ⟨K', cs, r, s, hc, hm, hbc, e, hg⟩
  · rw [hK] at hc; cases hc; exact absurd hS.empty hne
  · rw [hK] at hc; cases hc
    have er : o.tri.radius = r := by rw [e]; rfl
    have es : o.tri.spacing = s := by rw [e]; rfl
    obtain ⟨w2, cs', e2, hn, hobj, hcs', hbody, _⟩ := constructObject_spec hS hi a K r s hne
    have hm' : makeManifold (S.env w.next r s) K = K := by
      rw [← hm]; exact makeManifold_idem _ _ rfl K
    rw [hm'] at hcs' hbody hobj
    have hs : step S w (.updated a b) = .ok w2 := by
      simp only [step, ho, hd, Option.bind_some, hK]
      rw [if_neg (by simpa using hne), er, es, e2]
    have hab : b ∉ written (Op.updated (V := V) a b) := by
      simp only [written, Finset.mem_singleton]
      rintro rfl
      rw [hp.1] at ho; cases ho
    refine ⟨w2, ⟨K, r, s, cs', geometryOf K cs'⟩, hs, ?_, ?_, ?_⟩
    · have e4 : (tagged w.next r s cs').body.bind w2.body = some K := by
        rw [hbody]; exact Function.update_self _ _ _
      simp only [seen, hobj, Function.update_self, e4, tagged_caches]
      rfl
    · refine sameValue_of_caches hS hbc hcs' rfl ?_
      rw [e, hg, tagged_caches]; rfl
    · rw [C43_independent hS h hp hs hab, hb]

/-- `updated()` of a manifold without vertices yields a default manifold: custom foliation
parameters of the source are not kept. -/
theorem C43_updated_empty (hS : Val.Lawful S) (h : Reached S w) {a b : ℕ}
    (hp : Permitted w (.updated a b)) {y : Seen V} (hy : seen w b = some y)
    (hne : y.tri.finiteVerts = ∅) :
    ∃ w' x, step S w (.updated a b) = .ok w' ∧ seen w' a = some x ∧
      x.radius = S.defaultRadius ∧ x.spacing = S.defaultSpacing ∧ x.tri = y.tri ∧
      x.caches = y.caches ∧ x.geometry = y.geometry := by
  have hi := reached_inv hS h
  obtain ⟨o, d, K, ho, hd, hK⟩ := intact_body hi hp.2
  have hb : seen w b = some ⟨K, o.tri.radius, o.tri.spacing, o.tri.caches, o.geometry⟩ := by
    simp [seen, ho, hd, hK]
  rw [hb] at hy
  cases hy
  dsimp only at hne
  rcases hi.good b o d ho hd with ⟨hc, hg, r, s, e⟩ | ⟨K', cs, r, s, hc, hm, hbc, e, hg⟩
  · rw [hK] at hc; cases hc
    refine ⟨defaultObject S w a, ⟨S.empty, S.defaultRadius, S.defaultSpacing,
      (defaultMembers S w.next).caches, {}⟩, ?_, ?_, rfl, rfl, rfl, ?_, hg.symm⟩
    · simp only [step, ho, hd, Option.bind_some, hK]
      rw [if_pos (by rw [hne]; rfl)]
    · simp [seen, defaultObject, World.set, defaultMembers]
    · rw [e]; rfl
  · rw [hK] at hc; cases hc
    exact absurd hne (buildCaches_ok hbc).1

/-- Whatever a program has done to it, the derived data and the geometry of a manifold with vertices
are the ones computed from its triangulation, and its labels are the ones the constructor assigns. -/
theorem C43_always_consistent (hS : Val.Lawful S) (h : Reached S w) {a : ℕ} {y : Seen V}
    (hy : seen w a = some y) (hne : y.tri.finiteVerts ≠ ∅) :
    ∃ b, makeManifold (S.env b y.radius y.spacing) y.tri = y.tri ∧
      buildCaches (S.env b y.radius y.spacing) y.tri = .ok y.caches ∧
      y.geometry = geometryOf y.tri y.caches := by
  have hi := reached_inv hS h
  unfold seen at hy
  cases ho : w.obj a with
  | none => rw [ho] at hy; cases hy
  | some o =>
    rw [ho] at hy
    dsimp only at hy
    cases hd : o.tri.body with
    | none => rw [hd] at hy; cases hy
    | some d =>
      rcases hi.good a o d ho hd with ⟨hc, hg, r, s, e⟩ | ⟨K, cs, r, s, hc, hm, hbc, e, hg⟩
      · rw [hd, Option.bind_some, hc] at hy
        cases hy
        exact absurd hS.empty hne
      · rw [hd, Option.bind_some, hc] at hy
        cases hy
        have hcs : o.tri.caches = cs := by rw [e, tagged_caches]
        dsimp only
        rw [hcs]
        rw [e]
        exact ⟨d, hm, hbc, hg⟩

/-- Moves aside, a construction from a non-empty triangulation always succeeds. -/
theorem C43_construct (hS : Val.Lawful S) (h : Reached S w) {a : ℕ} {K : Tri V} (r s : BitVec 64)
    (hK : K.finiteVerts ≠ ∅) :
    ∃ w' x, step S w (.construct a K r s) = .ok w' ∧ seen w' a = some x ∧
      x.tri.cells = K.cells ∧ x.radius = r ∧ x.spacing = s := by
  obtain ⟨w2, cs, e, hn, hobj, hcs, hbody, _⟩ :=
    constructObject_spec hS (reached_inv hS h) a K r s hK
  have e4 : (tagged w.next r s cs).body.bind w2.body =
      some (makeManifold (S.env w.next r s) K) := by
    rw [hbody]; exact Function.update_self _ _ _
  refine ⟨w2, ⟨makeManifold (S.env w.next r s) K, r, s, (tagged w.next r s cs).caches,
    geometryOf (makeManifold (S.env w.next r s) K) cs⟩, e, ?_, ?_⟩
  · simp only [seen, hobj, Function.update_self, e4]
    rfl
  · exact ⟨rfl, rfl, rfl⟩

namespace ValuesExample

theorem intact_of_seen {w : World V} {a : ℕ} {x : Seen V} (h : seen w a = some x) : Intact w a := by
  unfold seen at h
  cases ho : w.obj a with
  | none => rw [ho] at h; cases h
  | some o =>
    rw [ho] at h
    dsimp only at h
    cases hb : o.tri.body with
    | none => rw [hb] at h; cases h
    | some b => exact ⟨o, b, ho, hb⟩

/-- Bodies with an even number are traversed backwards. -/
def setting : Setting ℕ ℕ where
  base := Fixture.env
  order b _ X := if b % 2 = 0 then (canonSites X).reverse else canonSites X
  label _ _ := Fixture.env.label
  defaultRadius := 1
  defaultSpacing := 2
  empty := { inf := 0, cells := ∅, time := fun _ => 0, info := fun _ => 0 }

theorem lawful : Val.Lawful setting where
  env b r s := by
    have h := Fixture.lawful
    refine ⟨fun K X => ?_, fun K X z => ?_, h.nth, h.index_lt, h.shuffle_perm⟩
    · simp only [Setting.env, setting]
      split_ifs
      · exact List.nodup_reverse.2 (nodup_canonSites X)
      · exact nodup_canonSites X
    · simp only [Setting.env, setting]
      split_ifs
      · rw [List.mem_reverse]; exact mem_canonSites
      · exact mem_canonSites
  empty := by decide

end ValuesExample

open ValuesExample in
/-- A reachable program: construct, copy, update, swap with a default manifold; the copy is made in
another order than the original and outlives it. -/
example : ∃ w : World ℕ, Reached setting w ∧
    (seen w 1).map (fun x => (x.tri.finiteVerts.card, x.radius, x.geometry.N3)) = some (5, 7, 2) ∧
    (seen w 3).map (fun x => (x.tri.finiteVerts.card, x.radius, x.geometry.N3)) = some (0, 1, 0) ∧
    (w.obj 0).isNone := by
  have c0 : Reached setting (World.initial : World ℕ) := .start
  obtain ⟨w1, x1, s1, v1, e1, e2, e3⟩ :=
    C43_construct lawful c0 (a := 0) (K := Fixture.k23) 7 8 (by decide +kernel)
  have c1 := Reached.next (o := .construct 0 Fixture.k23 7 8) c0 (by simp [Permitted, World.initial]) s1
  have run : ∀ {w : World ℕ}, ((((step setting World.initial (.construct 0 Fixture.k23 7 8)).bind
      fun w => step setting w (.copy 1 0)).bind fun w => step setting w (.default 3)).bind
      fun w => step setting w (.destroy 0)) = .ok w → Reached setting w := by
    intro w hw
    rw [s1] at hw
    simp only [Except.bind] at hw
    cases h2 : step setting w1 (.copy 1 0) with
    | error e => rw [h2] at hw; cases hw
    | ok w2 =>
      rw [h2] at hw
      simp only [step] at hw
      have ho1 : w1.obj 0 ≠ none := by intro e; simp [seen, e] at v1
      have p2 : Permitted w1 (Op.copy 1 0) := by
        have h5 : constructObject setting World.initial 0 Fixture.k23 7 8 = .ok w1 := s1
        have := (construct_spec lawful (reached_inv lawful c0) 0 Fixture.k23 7 8 h5).2 1 (by simp)
        exact ⟨by rw [this.1]; rfl, intact_of_seen v1⟩
      have c2 := Reached.next c1 p2 h2
      have fr := C43_independent lawful c1 p2 h2 (a := 0) (by simp [written])
      have p3 : w2.obj 3 = none := by
        have := (step_spec lawful (reached_inv lawful c1) p2 h2).2 3 (by simp [written])
        rw [this.1]
        have h5 : constructObject setting World.initial 0 Fixture.k23 7 8 = .ok w1 := s1
        have := (construct_spec lawful (reached_inv lawful c0) 0 Fixture.k23 7 8 h5).2 3 (by simp)
        rw [this.1]; rfl
      have c3 := Reached.next (o := .default 3) c2 p3 rfl
      refine Reached.next (o := .destroy 0) c3 ?_ hw
      have := (default_spec (reached_inv lawful c2) 3).2 0 (by simp)
      show (defaultObject setting w2 3).obj 0 ≠ none
      rw [this.1]
      have := (step_spec lawful (reached_inv lawful c1) p2 h2).2 0 (by simp [written])
      rw [this.1]
      exact ho1
  have big : ∃ w, ((((step setting World.initial (.construct 0 Fixture.k23 7 8)).bind
      fun w => step setting w (.copy 1 0)).bind fun w => step setting w (.default 3)).bind
      fun w => step setting w (.destroy 0)) = .ok w ∧
      (seen w 1).map (fun x => (x.tri.finiteVerts.card, x.radius, x.geometry.N3)) = some (5, 7, 2) ∧
      (seen w 3).map (fun x => (x.tri.finiteVerts.card, x.radius, x.geometry.N3)) = some (0, 1, 0) ∧
      (w.obj 0).isNone := by
    have : ((((step setting World.initial (.construct 0 Fixture.k23 7 8)).bind
      fun w => step setting w (.copy 1 0)).bind fun w => step setting w (.default 3)).bind
      fun w => step setting w (.destroy 0)).toOption.map (fun w =>
        ((seen w 1).map (fun x => (x.tri.finiteVerts.card, x.radius, x.geometry.N3)),
         (seen w 3).map (fun x => (x.tri.finiteVerts.card, x.radius, x.geometry.N3)),
         (w.obj 0).isNone)) = some (some (5, 7, 2), some (0, 1, 0), true) := by decide +kernel
    generalize ((((step setting World.initial (.construct 0 Fixture.k23 7 8)).bind
      fun w => step setting w (.copy 1 0)).bind fun w => step setting w (.default 3)).bind
      fun w => step setting w (.destroy 0)) = r at this
    cases r with
    | error e => simp [Except.toOption] at this
    | ok w =>
      simp only [Except.toOption, Option.map_some, Option.some.injEq, Prod.mk.injEq] at this
      exact ⟨w, rfl, this.1, this.2.1, this.2.2⟩
  obtain ⟨w, hw, h1, h2, h3⟩ := big
  exact ⟨w, run hw, h1, h2, h3⟩

end CDT.Props

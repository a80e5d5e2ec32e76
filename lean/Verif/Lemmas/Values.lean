import Verif.Spec.Values
import Verif.Lemmas.Manifold
/-
Invariants of manifolds as objects, for C43.
-/
set_option linter.unusedSectionVars false

namespace CDT.Val
open CDT Spec Moves

variable {V G : Type} [LinearOrder V] {S : Setting V G} {w w' : World V}

/-- The setting behaves like CGAL and the standard library. -/
structure Lawful (S : Setting V G) : Prop where
  env : ∀ b r s, (S.env b r s).Lawful
  empty : S.empty.finiteVerts = ∅

theorem makeManifold_idem (env env' : Env V G) (h : env.label = env'.label) (K : Tri V) :
    makeManifold env' (makeManifold env K) = makeManifold env K := by
  unfold makeManifold relabel
  simp only [h, Tri.mk.injEq, true_and]
  refine ⟨?_, ?_⟩
  · funext v; split_ifs <;> rfl
  · funext c
    split_ifs with hc
    · rfl
    · congr 1

/-- The members that the private constructor computes. -/
def tagged (b : ℕ) (r s : BitVec 64) (cs : Caches V) : Members V where
  body := some b
  radius := r
  spacing := s
  vertices := cs.vertices.map (Prod.mk b)
  cells := cs.cells.map (Prod.mk b)
  threeOne := cs.threeOne.map (Prod.mk b)
  twoTwo := cs.twoTwo.map (Prod.mk b)
  oneThree := cs.oneThree.map (Prod.mk b)
  faces := cs.faces.map (Prod.mk b)
  spacelikeFacets := cs.spacelikeFacets.map fun e => (e.1, b, e.2)
  edges := cs.edges.map (Prod.mk b)
  timelikeEdges := cs.timelikeEdges.map (Prod.mk b)
  spacelikeEdges := cs.spacelikeEdges.map (Prod.mk b)
  maxTime := cs.maxTime
  minTime := cs.minTime

theorem tagged_caches (b : ℕ) (r s : BitVec 64) (cs : Caches V) : (tagged b r s cs).caches = cs := by
  have h : ∀ l : List (Finset V), (l.map (Prod.mk b)).map Prod.snd = l := fun l => by
    rw [List.map_map]; exact List.map_id l
  have h2 : ∀ l : List (ℤ × Finset V),
      (l.map fun e => (e.1, b, e.2)).map (fun e => (e.1, e.2.2)) = l := fun l => by
    rw [List.map_map]; exact List.map_id l
  simp only [tagged, Members.caches, h, h2]

theorem tagged_handles (b : ℕ) (r s : BitVec 64) (cs : Caches V) :
    ∀ x ∈ handles (tagged b r s cs), x.1 = b := by
  simp only [handles, tagged, List.mem_append, List.mem_map]
  rintro x h
  rcases h with ((((((((⟨_, _, rfl⟩ | ⟨_, _, rfl⟩) | ⟨_, _, rfl⟩) | ⟨_, _, rfl⟩) | ⟨_, _, rfl⟩) |
    ⟨_, _, rfl⟩) | ⟨_, ⟨_, _, rfl⟩, rfl⟩) | ⟨_, _, rfl⟩) | ⟨_, _, rfl⟩) | ⟨_, _, rfl⟩ <;> rfl

/-- What holds of every object that has not been moved from. -/
def Good (S : Setting V G) (content : Option (Tri V)) (b : ℕ) (x : Object V) : Prop :=
  (content = some S.empty ∧ x.geometry = {} ∧
    ∃ r s, x.tri = { defaultMembers S b with radius := r, spacing := s }) ∨
  ∃ K cs r s, content = some K ∧ makeManifold (S.env b r s) K = K ∧
    buildCaches (S.env b r s) K = .ok cs ∧ x.tri = tagged b r s cs ∧ x.geometry = geometryOf K cs

theorem Good.body {content : Option (Tri V)} {b : ℕ} {x : Object V} (h : Good S content b x) :
    x.tri.body = some b := by
  rcases h with ⟨_, _, r, s, e⟩ | ⟨_, _, r, s, _, _, _, e, _⟩ <;> rw [e] <;> rfl

theorem Good.content {content : Option (Tri V)} {b : ℕ} {x : Object V} (h : Good S content b x) :
    ∃ K, content = some K := by
  rcases h with ⟨e, _⟩ | ⟨K, _, _, _, e, _⟩
  · exact ⟨_, e⟩
  · exact ⟨_, e⟩

structure Inv (S : Setting V G) (w : World V) : Prop where
  fresh : ∀ b, w.next ≤ b → w.body b = none
  uniq : ∀ a a' x x' b, w.obj a = some x → w.obj a' = some x' → x.tri.body = some b →
    x'.tri.body = some b → a = a'
  good : ∀ a x b, w.obj a = some x → x.tri.body = some b → Good S (w.body b) b x

theorem Inv.lt (h : Inv S w) {a b : ℕ} {x : Object V} (hx : w.obj a = some x)
    (hb : x.tri.body = some b) : b < w.next := by
  by_contra hc
  obtain ⟨K, hK⟩ := (h.good a x b hx hb).content
  rw [h.fresh b (by omega)] at hK
  cases hK

theorem inv_initial : Inv S (World.initial : World V) :=
  by
  refine ⟨fun _ _ => rfl, ?_, ?_⟩
  · intro a a' x x' b h; exact absurd h (by simp [World.initial])
  · intro a x b h; exact absurd h (by simp [World.initial])

theorem inv_put (h : Inv S w) {a : ℕ} {o : Option (Object V)}
    (hobj : w'.obj = Function.update w.obj a o)
    (hfresh : ∀ b, w'.next ≤ b → w'.body b = none)
    (hbody : ∀ a' x b, a' ≠ a → w.obj a' = some x → x.tri.body = some b → w'.body b = w.body b)
    (hgood : ∀ x b, o = some x → x.tri.body = some b → Good S (w'.body b) b x)
    (hnew : ∀ x b, o = some x → x.tri.body = some b → ∀ a' y, a' ≠ a → w.obj a' = some y →
      y.tri.body ≠ some b) : Inv S w' := by
  refine ⟨hfresh, ?_, ?_⟩
  · intro p q x x' b hp hq hx hx'
    rw [hobj, Function.update_apply] at hp hq
    split_ifs at hp hq with h1 h2 h2
    · rw [h1, h2]
    · exact absurd hx' (hnew x b hp hx q x' h2 hq)
    · exact absurd hx (hnew x' b hq hx' p x h1 hp)
    · exact h.uniq p q x x' b hp hq hx hx'
  · intro p x b hp hx
    rw [hobj, Function.update_apply] at hp
    split_ifs at hp with h1
    · exact hgood x b hp hx
    · rw [hbody p x b h1 hp hx]
      exact h.good p x b hp hx

/-- The two traversals of one triangulation list the same elements. -/
theorem sameValue_of_caches (hS : Lawful S) {K : Tri V} {b c : ℕ} {r s : BitVec 64}
    {cs cs' : Caches V} (hb : buildCaches (S.env b r s) K = .ok cs)
    (hc : buildCaches (S.env c r s) K = .ok cs') {x y : Seen V}
    (hx : x = ⟨K, r, s, cs', geometryOf K cs'⟩) (hy : y = ⟨K, r, s, cs, geometryOf K cs⟩) :
    SameValue x y := by
  subst hx hy
  have hl := hS.env b r s
  have hl' := hS.env c r s
  have perm : ∀ X : Finset (Finset V), ((S.env c r s).iter K X).Perm ((S.env b r s).iter K X) :=
    fun X => (List.perm_ext_iff_of_nodup (hl'.iter_nodup K X) (hl.iter_nodup K X)).2 fun z => by
      rw [hl'.mem_iter, hl.mem_iter]
  obtain ⟨_, v1, c1, a1, t1, o1, f1, sf1, e1, tl1, sl1, mx1, mn1⟩ := buildCaches_ok hb
  obtain ⟨_, v2, c2, a2, t2, o2, f2, sf2, e2, tl2, sl2, mx2, mn2⟩ := buildCaches_ok hc
  have pc : cs'.cells.Perm cs.cells := by rw [c1, c2]; exact perm _
  have pf : cs'.faces.Perm cs.faces := by rw [f1, f2]; exact perm _
  have pe : cs'.edges.Perm cs.edges := by rw [e1, e2]; exact perm _
  have pa : cs'.threeOne.Perm cs.threeOne := by rw [a1, a2]; exact pc.filter _
  have pt : cs'.twoTwo.Perm cs.twoTwo := by rw [t1, t2]; exact pc.filter _
  have po : cs'.oneThree.Perm cs.oneThree := by rw [o1, o2]; exact pc.filter _
  have ptl : cs'.timelikeEdges.Perm cs.timelikeEdges := by rw [tl1, tl2]; exact pe.filter _
  have psl : cs'.spacelikeEdges.Perm cs.spacelikeEdges := by rw [sl1, sl2]; exact pe.filter _
  obtain ⟨⟨p, hp, ep⟩, hp'⟩ := maxTime_spec hl hb
  obtain ⟨⟨q, hq, eq⟩, hq'⟩ := maxTime_spec hl' hc
  obtain ⟨⟨i, hi, ei⟩, hi'⟩ := minTime_spec hl hb
  obtain ⟨⟨j, hj, ej⟩, hj'⟩ := minTime_spec hl' hc
  refine ⟨rfl, rfl, rfl, ?_, pc, pa, pt, po, pf, ?_, pe, ptl, psl, ?_, ?_, ?_⟩
  · dsimp only; rw [v1, v2]; exact perm _
  · dsimp only
    rw [sf1, sf2]
    unfold collectSpacelikeFacets
    exact (List.perm_insertionSort _ _).trans
      ((pf.filterMap _).trans (List.perm_insertionSort _ _).symm)
  · dsimp only
    have h1 := hp' q hq
    have h2 := hq' p hp
    omega
  · dsimp only
    have h1 := hi' j hj
    have h2 := hj' i hi
    omega
  · simp only [geometryOf, pa.length_eq, pt.length_eq, po.length_eq, ptl.length_eq, psl.length_eq]

theorem sameValue_refl (x : Seen V) : SameValue x x :=
  ⟨rfl, rfl, rfl, .refl _, .refl _, .refl _, .refl _, .refl _, .refl _, .refl _, .refl _, .refl _,
    .refl _, rfl, rfl, rfl⟩

/-- Building on a new body of contents `K`. -/
theorem buildMembers_ok (hS : Lawful S) {body : ℕ → Option (Tri V)} {b : ℕ} {r s : BitVec 64}
    {K : Tri V} (hb : body b = some K) (hK : K.finiteVerts ≠ ∅) :
    ∃ cs, buildCaches (S.env b r s) (makeManifold (S.env b r s) K) = .ok cs ∧
      buildMembers S body b r s =
        .ok (Function.update body b (some (makeManifold (S.env b r s) K)), tagged b r s cs) := by
  obtain ⟨cs, hcs⟩ := buildCaches_total (hS.env b r s) (K := makeManifold (S.env b r s) K) hK
  refine ⟨cs, hcs, ?_⟩
  unfold buildMembers
  rw [hb]
  dsimp only
  have : construct (S.env b r s) K = .ok (makeManifold (S.env b r s) K, cs) := by
    unfold construct; rw [hcs]
  rw [this]
  rfl

/-- What the copy constructor delivers. -/
theorem copyMembers_spec (hS : Lawful S) (h : Inv S w) {a b : ℕ} {y : Object V} {K : Tri V}
    (hy : w.obj a = some y) (hb : y.tri.body = some b) (hK : w.body b = some K) :
    ∃ w' t c, copyMembers S w y.tri = .ok (w', t) ∧ w'.obj = w.obj ∧ w.next ≤ w'.next ∧
      (∀ d, d < w.next → w'.body d = w.body d) ∧ (∀ d, w'.next ≤ d → w'.body d = none) ∧
      t.body = some c ∧ w.next ≤ c ∧ Good S (w'.body c) c ⟨t, y.geometry⟩ ∧
      w'.body c = some K ∧
      SameValue ⟨K, t.radius, t.spacing, t.caches, y.geometry⟩
        ⟨K, y.tri.radius, y.tri.spacing, y.tri.caches, y.geometry⟩ := by
  have hbk : y.tri.body.bind w.body = some K := by rw [hb]; exact hK
  rcases h.good a y b hy hb with ⟨hc, hg, r, s, e⟩ | ⟨K', cs, r, s, hc, hm, hbc, e, hg⟩
  · rw [hK] at hc; cases hc
    refine ⟨{ w with body := Function.update w.body w.next (some S.empty), next := w.next + 1 },
      { defaultMembers S w.next with radius := y.tri.radius, spacing := y.tri.spacing },
      w.next, ?_, rfl, ?_, ?_, ?_, rfl, le_rfl, ?_, ?_, ?_⟩
    · unfold copyMembers
      simp only [hbk]
      rw [if_pos (by rw [hS.empty]; rfl)]
    · dsimp only; omega
    · intro d hd; exact Function.update_of_ne (by omega) _ _
    · intro d hd; dsimp only at hd ⊢
      rw [Function.update_of_ne (by omega)]; exact h.fresh d (by omega)
    · left
      exact ⟨Function.update_self _ _ _, hg, _, _, rfl⟩
    · exact Function.update_self _ _ _
    · rw [e]; exact sameValue_refl _
  · rw [hK] at hc; cases hc
    have hne : K.finiteVerts ≠ ∅ := (buildCaches_ok hbc).1
    have hm' : makeManifold (S.env (w.next + 1) r s) K = K := by
      rw [← hm]; exact makeManifold_idem _ _ rfl K
    obtain ⟨cs', hcs', hbuild⟩ := buildMembers_ok hS
      (body := Function.update (Function.update w.body w.next (some S.empty)) (w.next + 1) (some K))
      (b := w.next + 1) (r := r) (s := s) (Function.update_self _ _ _) hne
    rw [hm'] at hcs' hbuild
    have hsv := sameValue_of_caches hS hbc hcs' rfl rfl
    have hgeo : geometryOf K cs' = geometryOf K cs := hsv.geometry
    have hbody : ∀ d, Function.update (Function.update (Function.update w.body w.next
        (some S.empty)) (w.next + 1) (some K)) w.next none d =
        if d = w.next + 1 then some K else w.body d := by
      intro d
      simp only [Function.update_apply]
      split_ifs with h1 h2 h2
      · omega
      · rw [h1]; exact (h.fresh _ le_rfl).symm
      · rfl
      · rfl
    refine ⟨{ w with
        body := Function.update (Function.update (Function.update w.body w.next (some S.empty))
          (w.next + 1) (some K)) w.next none,
        next := w.next + 2 },
      tagged (w.next + 1) r s cs', w.next + 1, ?_, rfl, ?_, ?_, ?_, rfl, by omega, ?_, ?_, ?_⟩
    · unfold copyMembers
      simp only [hbk]
      rw [if_neg (by simpa using hne)]
      have er : y.tri.radius = r := by rw [e]; rfl
      have es : y.tri.spacing = s := by rw [e]; rfl
      rw [er, es, hbuild, Function.update_idem]
      rfl
    · dsimp only; omega
    · intro d hd
      refine (hbody _).trans ?_; rw [if_neg (by omega)]
    · intro d hd
      dsimp only at hd
      refine (hbody _).trans ?_; rw [if_neg (by omega)]
      exact h.fresh d (by omega)
    · right
      refine ⟨K, cs', r, s, ?_, hm', hcs', rfl, ?_⟩
      · refine (hbody _).trans ?_; rw [if_pos rfl]
      · dsimp only; rw [hg, hgeo]
    · refine (hbody _).trans ?_; rw [if_pos rfl]
    · rw [e, hg, tagged_caches, tagged_caches]
      have := hsv
      rw [hgeo] at this
      exact this

/-- What a construction from a triangulation delivers. -/
theorem constructObject_spec (hS : Lawful S) (h : Inv S w) (a : ℕ) (K : Tri V) (r s : BitVec 64)
    (hK : K.finiteVerts ≠ ∅) :
    ∃ w' cs, constructObject S w a K r s = .ok w' ∧ w.next ≤ w'.next ∧
      w'.obj = Function.update w.obj a (some ⟨tagged w.next r s cs,
        geometryOf (makeManifold (S.env w.next r s) K) cs⟩) ∧
      buildCaches (S.env w.next r s) (makeManifold (S.env w.next r s) K) = .ok cs ∧
      w'.body = Function.update w.body w.next (some (makeManifold (S.env w.next r s) K)) ∧
      (∀ d, w'.next ≤ d → w'.body d = none) := by
  obtain ⟨cs, hcs, hb⟩ := buildMembers_ok hS (body := Function.update w.body w.next (some K))
    (b := w.next) (r := r) (s := s) (Function.update_self _ _ _) hK
  refine ⟨⟨Function.update w.body w.next (some (makeManifold (S.env w.next r s) K)),
    Function.update w.obj a (some ⟨tagged w.next r s cs,
        geometryOf (makeManifold (S.env w.next r s) K) cs⟩), w.next + 1⟩, cs, ?_, ?_, rfl, hcs, rfl, ?_⟩
  · unfold constructObject
    simp only [hb, Function.update_self, Function.update_idem]
    rw [show (moveMembers (tagged w.next r s cs)).1 = tagged w.next r s cs from rfl]
    simp only [World.set, geometryOfMembers, tagged_caches]
  · dsimp only; omega
  · intro d hd
    dsimp only at hd ⊢
    rw [Function.update_of_ne (by omega)]
    exact h.fresh d (by omega)

theorem swapMembers_eq (x y : Members V) : swapMembers x y = (y, x) := rfl
theorem swapGeometry_eq (x y : Geometry) : swapGeometry x y = (y, x) := rfl

theorem swapObjects_eq {a b : ℕ} {x y : Object V} (ha : w.obj a = some x) (hb : w.obj b = some y) :
    swapObjects w a b =
      { w with obj := Function.update (Function.update w.obj a (some y)) b (some x) } := by
  unfold swapObjects
  rw [ha, hb]
  rfl

theorem inv_swap (h : Inv S w) (a b : ℕ) : Inv S (swapObjects w a b) := by
  cases ha : w.obj a with
  | none => unfold swapObjects; rw [ha]; exact h
  | some x =>
    cases hb : w.obj b with
    | none => unfold swapObjects; rw [ha, hb]; exact h
    | some y =>
      rw [swapObjects_eq ha hb]
      have key : ∀ p z, Function.update (Function.update w.obj a (some y)) b (some x) p = some z →
          ∃ q, w.obj q = some z ∧ (q = if p = b then a else if p = a then b else p) := by
        intro p z hz
        rw [Function.update_apply, Function.update_apply] at hz
        split_ifs at hz with h1 h2
        · cases hz; exact ⟨a, ha, by rw [if_pos h1]⟩
        · cases hz; exact ⟨b, hb, by rw [if_neg h1, if_pos h2]⟩
        · exact ⟨p, hz, by rw [if_neg h1, if_neg h2]⟩
      refine ⟨h.fresh, ?_, ?_⟩
      · intro p q u v c hp hq hu hv
        obtain ⟨p', hp', ep⟩ := key p u hp
        obtain ⟨q', hq', eq⟩ := key q v hq
        have := h.uniq p' q' u v c hp' hq' hu hv
        rw [ep, eq] at this
        split_ifs at this <;> simp_all
      · intro p u c hp hu
        obtain ⟨p', hp', _⟩ := key p u hp
        exact h.good p' u c hp' hu

/-- Object `a` and its body are as before. -/
def Frame (w w' : World V) (a : ℕ) : Prop :=
  w'.obj a = w.obj a ∧ ∀ x b, w.obj a = some x → x.tri.body = some b → w'.body b = w.body b

theorem Frame.seen {a : ℕ} (h : Frame w w' a) : seen w' a = seen w a := by
  unfold Spec.seen
  rw [h.1]
  cases hx : w.obj a with
  | none => rfl
  | some x =>
    cases hb : x.tri.body with
    | none => simp only [hb, Option.bind_none]
    | some b => simp only [hb, Option.bind_some, h.2 x b hx hb]

theorem default_spec (h : Inv S w) (a : ℕ) :
    Inv S (defaultObject S w a) ∧ ∀ p, p ≠ a → Frame w (defaultObject S w a) p := by
  have hbody : ∀ p x b, w.obj p = some x → x.tri.body = some b →
      (defaultObject S w a).body b = w.body b := by
    intro p x b hp hb
    have := h.lt hp hb
    exact Function.update_of_ne (by omega) _ _
  refine ⟨inv_put h (a := a) rfl ?_ (fun p x b _ => hbody p x b) ?_ ?_, fun p hp =>
    ⟨Function.update_of_ne hp _ _, fun x b hx hb => hbody p x b hx hb⟩⟩
  · intro d hd
    simp only [defaultObject, World.set] at hd ⊢
    rw [Function.update_of_ne (by omega)]
    exact h.fresh d (by omega)
  · rintro x b ⟨⟩ hb
    left
    cases hb
    exact ⟨Function.update_self _ _ _, rfl, S.defaultRadius, S.defaultSpacing, rfl⟩
  · rintro x b ⟨⟩ hb p y hp hy he
    cases hb
    exact absurd (h.lt hy he) (by omega)

theorem construct_spec (hS : Lawful S) (h : Inv S w) (a : ℕ) (K : Tri V) (r s : BitVec 64)
    (hc : constructObject S w a K r s = .ok w') :
    Inv S w' ∧ ∀ p, p ≠ a → Frame w w' p := by
  by_cases hK : K.finiteVerts = ∅
  · exfalso
    have h1 : buildCaches (S.env w.next r s) (makeManifold (S.env w.next r s) K) =
        .error .invalidArgument := by unfold buildCaches; rw [if_pos]; exact hK
    unfold constructObject buildMembers construct at hc
    simp only [Function.update_self, h1] at hc
    cases hc
  · obtain ⟨w2, cs, e, hn, ho, hcs, hb, hf⟩ := constructObject_spec hS h a K r s hK
    rw [e] at hc
    cases hc
    have hbody : ∀ p x b, w.obj p = some x → x.tri.body = some b → w'.body b = w.body b := by
      intro p x b hp hx
      have := h.lt hp hx
      rw [hb]
      exact Function.update_of_ne (by omega) _ _
    refine ⟨inv_put h ho hf (fun p x b _ => hbody p x b) ?_ ?_, fun p hp =>
      ⟨by rw [ho]; exact Function.update_of_ne hp _ _, fun x b hx hb => hbody p x b hx hb⟩⟩
    · rintro x b ⟨⟩ hx
      cases hx
      right
      exact ⟨_, cs, r, s, by rw [hb]; exact Function.update_self _ _ _,
        makeManifold_idem _ _ rfl K, hcs, rfl, rfl⟩
    · rintro x b ⟨⟩ hx p y hp hy he
      cases hx
      exact absurd (h.lt hy he) (by omega)

theorem intact_body (h : Inv S w) {b : ℕ} (hi : Intact w b) :
    ∃ y d K, w.obj b = some y ∧ y.tri.body = some d ∧ w.body d = some K := by
  obtain ⟨y, d, hy, hd⟩ := hi
  obtain ⟨K, hK⟩ := (h.good b y d hy hd).content
  exact ⟨y, d, K, hy, hd, hK⟩

theorem freeBody_apply (body : ℕ → Option (Tri V)) (o : Option ℕ) (d : ℕ) :
    freeBody body o d = if o = some d then none else body d := by
  cases o with
  | none => rw [if_neg (by simp)]; rfl
  | some b =>
    simp only [freeBody, Function.update_apply, Option.some.injEq]
    simp only [eq_comm]

theorem step_spec (hS : Lawful S) (h : Inv S w) {o : Op V} (hp : Permitted w o)
    (hs : step S w o = .ok w') : Inv S w' ∧ ∀ p, p ∉ written o → Frame w w' p := by
  cases o with
  | default a =>
    cases hs
    have := default_spec h a
    exact ⟨this.1, fun p hp => this.2 p (by simpa [written] using hp)⟩
  | construct a K r s =>
    have := construct_spec hS h a K r s hs
    exact ⟨this.1, fun p hp => this.2 p (by simpa [written] using hp)⟩
  | copy a b =>
    obtain ⟨ha, hb⟩ := hp
    obtain ⟨y, d, K, hy, hd, hK⟩ := intact_body h hb
    obtain ⟨w2, t, c, e, ho, hn, hlow, hf, hc, hcn, hg, _⟩ := copyMembers_spec hS h hy hd hK
    simp only [step, hy, e] at hs
    cases hs
    have hbody : ∀ p x b, w.obj p = some x → x.tri.body = some b → w2.body b = w.body b :=
      fun p x b hp hx => hlow b (h.lt hp hx)
    refine ⟨inv_put h (a := a) (o := some ⟨t, y.geometry⟩) (by rw [← ho]; rfl) hf
      (fun p x b _ => hbody p x b) ?_ ?_, fun p hp => ⟨?_, fun x b => hbody p x b⟩⟩
    · rintro x b' ⟨⟩ hx
      rw [hc] at hx; cases hx
      exact hg
    · rintro x b' ⟨⟩ hx p z _ hz he
      rw [hc] at hx; cases hx
      exact absurd (h.lt hz he) (by omega)
    · simp only [World.set]
      rw [Function.update_of_ne (by simpa [written] using hp), ho]
  | move a b =>
    obtain ⟨ha, hb⟩ := hp
    obtain ⟨y, d, K, hy, hd, hK⟩ := intact_body h hb
    have hab : a ≠ b := fun e => by rw [e, hy] at ha; cases ha
    simp only [step, hy] at hs
    cases hs
    have h1 : Inv S (w.set b (some ⟨(moveMembers y.tri).2, y.geometry⟩)) := by
      refine inv_put h (a := b) rfl h.fresh (fun _ _ _ _ _ _ => rfl) ?_ ?_
      · rintro x c ⟨⟩ hx; cases hx
      · rintro x c ⟨⟩ hx; cases hx
    have e : (w.set a (some ⟨(moveMembers y.tri).1, y.geometry⟩)).set b
        (some ⟨(moveMembers y.tri).2, y.geometry⟩) =
        (w.set b (some ⟨(moveMembers y.tri).2, y.geometry⟩)).set a (some y) := by
      simp only [World.set]
      rw [Function.update_comm hab]
      rfl
    rw [e]
    refine ⟨inv_put h1 (a := a) rfl h1.fresh (fun _ _ _ _ _ _ => rfl) ?_ ?_, fun p hp => ⟨?_, fun _ _ _ _ => rfl⟩⟩
    · rintro x c ⟨⟩ hx
      exact h.good b y c hy hx
    · rintro x c ⟨⟩ hx p z hpa hz he
      simp only [World.set, Function.update_apply] at hz
      split_ifs at hz with hpb
      · cases hz; cases he
      · exact hpb (h.uniq p b z y c hz hy he hx)
    · simp only [written, Finset.mem_insert, Finset.mem_singleton, not_or] at hp
      simp only [World.set]
      rw [Function.update_of_ne hp.1, Function.update_of_ne hp.2]
  | copyAssign a b =>
    obtain ⟨ha, hb⟩ := hp
    obtain ⟨y, d, K, hy, hd, hK⟩ := intact_body h hb
    obtain ⟨x, hx⟩ := Option.ne_none_iff_exists'.1 ha
    obtain ⟨w2, t, c, e, ho, hn, hlow, hf, hc, hcn, hg, _⟩ := copyMembers_spec hS h hy hd hK
    simp only [step, hx, hy] at hs
    split_ifs at hs with hab
    · cases hs
      exact ⟨h, fun p _ => ⟨rfl, fun _ _ _ _ => rfl⟩⟩
    · rw [e] at hs
      simp only [swapMembers_eq] at hs
      cases hs
      have hbody : ∀ p z b', p ≠ a → w.obj p = some z → z.tri.body = some b' →
          freeBody w2.body x.tri.body b' = w.body b' := by
        intro p z b' hp hz hzb
        rw [freeBody_apply, if_neg, hlow b' (h.lt hz hzb)]
        intro hxb
        exact hp (h.uniq p a z x b' hz hx hzb hxb)
      refine ⟨inv_put h (a := a) (o := some ⟨t, y.geometry⟩) (by rw [← ho]; rfl) ?_ hbody ?_ ?_,
        fun p hp => ⟨?_, fun z b' => hbody p z b' (by simpa [written] using hp)⟩⟩
      · intro q hq
        simp only [World.set] at hq ⊢
        rw [freeBody_apply]
        split_ifs
        · rfl
        · exact hf q hq
      · rintro z b' ⟨⟩ hz
        simp only at hz
        rw [hc] at hz; cases hz
        simp only [World.set]
        rw [freeBody_apply, if_neg]
        · exact hg
        · intro hxb
          exact absurd (h.lt hx hxb) (by omega)
      · rintro z b' ⟨⟩ hz p z' _ hz' he
        simp only at hz
        rw [hc] at hz; cases hz
        exact absurd (h.lt hz' he) (by omega)
      · simp only [World.set]
        rw [Function.update_of_ne (by simpa [written] using hp), ho]
  | moveAssign a b =>
    simp only [step] at hs
    cases hs
    split_ifs with hab
    · exact ⟨h, fun p _ => ⟨rfl, fun _ _ _ _ => rfl⟩⟩
    · obtain ⟨ha, hb⟩ := hp
      obtain ⟨x, hx⟩ := Option.ne_none_iff_exists'.1 ha
      obtain ⟨y, hy⟩ := Option.ne_none_iff_exists'.1 hb
      refine ⟨inv_swap h b a, fun p hp => ?_⟩
      simp only [written, Finset.mem_insert, Finset.mem_singleton, not_or] at hp
      rw [swapObjects_eq hy hx]
      exact ⟨by simp [hp.1, hp.2], fun _ _ _ _ => rfl⟩
  | swap a b =>
    simp only [step] at hs
    cases hs
    obtain ⟨ha, hb⟩ := hp
    obtain ⟨x, hx⟩ := Option.ne_none_iff_exists'.1 ha
    obtain ⟨y, hy⟩ := Option.ne_none_iff_exists'.1 hb
    refine ⟨inv_swap h a b, fun p hp => ?_⟩
    simp only [written, Finset.mem_insert, Finset.mem_singleton, not_or] at hp
    rw [swapObjects_eq hx hy]
    exact ⟨by simp [hp.1, hp.2], fun _ _ _ _ => rfl⟩
  | updated a b =>
    obtain ⟨ha, hb⟩ := hp
    obtain ⟨y, d, K, hy, hd, hK⟩ := intact_body h hb
    simp only [step, hy, hd, Option.bind_some, hK] at hs
    split_ifs at hs with h0
    · cases hs
      have := default_spec h a
      exact ⟨this.1, fun p hp => this.2 p (by simpa [written] using hp)⟩
    · have := construct_spec hS h a K _ _ hs
      exact ⟨this.1, fun p hp => this.2 p (by simpa [written] using hp)⟩
  | destroy a =>
    obtain ⟨x, hx⟩ := Option.ne_none_iff_exists'.1 hp
    simp only [step, hx] at hs
    cases hs
    have hbody : ∀ p z b', p ≠ a → w.obj p = some z → z.tri.body = some b' →
        freeBody w.body x.tri.body b' = w.body b' := by
      intro p z b' hp hz hzb
      rw [freeBody_apply, if_neg]
      intro hxb
      exact hp (h.uniq p a z x b' hz hx hzb hxb)
    refine ⟨inv_put h (a := a) (o := none) rfl ?_ hbody (by simp) (by simp),
      fun p hp => ⟨?_, fun z b' => hbody p z b' (by simpa [written] using hp)⟩⟩
    · intro q hq
      simp only [World.set] at hq ⊢
      rw [freeBody_apply]
      split_ifs
      · rfl
      · exact h.fresh q hq
    · exact Function.update_of_ne (by simpa [written] using hp) _ _

theorem reached_inv (hS : Lawful S) (h : Reached S w) : Inv S w := by
  induction h with
  | start => exact inv_initial
  | next _ hp hs ih => exact (step_spec hS ih hp hs).1

end CDT.Val

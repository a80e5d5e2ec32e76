import Verif.Lemmas.Console
import Verif.Model.Portrait
import Verif.Spec.Portrait
import Verif.Props.Classify
import Verif.Props.Command
/-
C92: what the code prints about a triangulation is true of it.
-/
namespace CDT.Props
open CDT Spec Moves Cavity
variable {V G : Type} [LinearOrder V] {env : Env V G}

omit [LinearOrder V] in
theorem volumeLoop_eq (cs : Caches V) (area : ℤ → ℤ) (ha : ∀ t, (cs.spacelikeFaceCount t : ℤ) = area t) :
    ∀ (n : ℕ) (j : ℤ), j + n = cs.maxTime + 1 → (volumeLoop cs n j).flatten = slicesText area n j
  | 0, _, _ => rfl
  | n + 1, j, h => by
    unfold volumeLoop slicesText
    rw [if_pos (by omega), List.flatten_cons, volumeLoop_eq cs area ha n (j + 1) (by push_cast at h; omega),
      format_eq _ ["Timeslice ", " has ", " spacelike faces.\n"] _ (by decide +kernel) rfl, ha]

theorem construct_shape (hl : env.Lawful) {K K' : Tri V} {cs : Caches V} (h : construct env K = .ok (K', cs))
    (hc : isStructurallyCorrect K' cs = true) :
    let n := census K'.inf K'.time K'.cells
    let g := geometryOf K' cs
    g.N0 = n.N0 ∧ g.N1_SL = n.N1SL ∧ g.N1_TL = n.N1TL ∧ g.N2 = n.N2 ∧ g.N3_31 = n.N31 ∧
    g.N3_22 = n.N22 ∧ g.N3_13 = n.N13 ∧ g.N3 = n.N3 ∧ g.N1 = n.N1SL + n.N1TL := by
  obtain ⟨_, hbc⟩ := construct_ok h
  obtain ⟨hcl, hok⟩ := isStructurallyCorrect_data hc
  exact geometry_census hl hcl.1 hok hbc

/-- The portrait of a triangulation with its caches. -/
theorem portrait_of_caches (hl : env.Lawful) {K' : Tri V} {cs : Caches V} (hcs : buildCaches env K' = .ok cs)
    (hc : isStructurallyCorrect K' cs = true) :
    TimeRange K'.inf K'.time K'.cells cs.minTime cs.maxTime ∧
    (portraitLines K' cs).flatten = portraitText K'.inf K'.time K'.cells cs.minTime cs.maxTime := by
  have hmax := (maxTime_spec hl hcs).1
  have hmin := (minTime_spec hl hcs).1
  have hb : ∀ v ∈ K'.finiteVerts, cs.minTime ≤ K'.time v ∧ K'.time v ≤ cs.maxTime :=
    fun v hm => ⟨(minTime_spec hl hcs).2 v hm, (maxTime_spec hl hcs).2 v hm⟩
  obtain ⟨hcl, hok⟩ := isStructurallyCorrect_data hc
  obtain ⟨h0, h1s, h1t, h2, h31, h22, h13, h3, h1⟩ := geometry_census hl hcl.1 hok hcs
  refine ⟨⟨hmin, hmax, hb⟩, ?_⟩
  have hle : cs.minTime ≤ cs.maxTime := by
    obtain ⟨v, hv, e⟩ := hmin
    have := hb v hv
    omega
  unfold portraitLines portraitText shapeText detailText manifoldLine detailLines volumeLines
  rw [List.flatten_append, volumeLoop_eq cs _ (fun t => slice_count_of_caches hl hcs t) _ _ (by omega),
    format_eq _ ["Manifold" ++ " has ", " vertices and ", " edges and ", " faces and ", " simplices.\n"] _
      (by decide +kernel) rfl,
    format_eq _ ["There are ", " (3,1) simplices and ", " (2,2) simplices and ", " (1,3) simplices.\n"] _
      (by decide +kernel) rfl,
    format_eq _ ["There are ", " timelike edges and ", " spacelike edges.\n"] _ (by decide +kernel) rfl,
    h0, h1, h2, h3, h31, h22, h13, h1t, h1s]
  have e : (cs.maxTime - cs.minTime + 1).toNat = (cs.maxTime + 1 - cs.minTime).toNat := by omega
  rw [e]
  simp only [List.flatten_cons, List.flatten_nil, List.append_nil, List.append_assoc]
  rfl

/-- C92. `print`, `print_details` and `print_volume_per_timeslice` of a structurally correct manifold
print the numbers of its simplices of each dimension and causal type, and for each time slice, from
the least to the greatest time label of a vertex, the number of triangles lying in it. -/
theorem C92_portrait (hl : env.Lawful) {K K' : Tri V} {cs : Caches V} (h : construct env K = .ok (K', cs))
    (hc : isStructurallyCorrect K' cs = true) :
    TimeRange K'.inf K'.time K'.cells cs.minTime cs.maxTime ∧
    (portraitLines K' cs).flatten = portraitText K'.inf K'.time K'.cells cs.minTime cs.maxTime :=
  portrait_of_caches hl (construct_ok h).2 hc

/-- C92. The areas printed for the slices add up to the number of triangles that lie in one slice. -/
theorem C92_areas_sum (hl : env.Lawful) {K K' : Tri V} {cs : Caches V} (h : construct env K = .ok (K', cs)) :
    ∑ t ∈ Finset.Icc cs.minTime cs.maxTime, sliceArea K'.inf K'.time K'.cells t =
      count K'.inf K'.cells (fun s => s.card = 3 ∧ Spacelike K'.time s) := by
  obtain ⟨h1, h2, _⟩ := C36_slices_sum hl h
  rw [← h1, h2, Nat.cast_sum]
  exact Finset.sum_congr rfl fun t _ => (C36_slice_count hl h t).symm

/-- C92. `print_edges` prints one line for each finite edge, "timelike" for as many as are timelike. -/
theorem C92_edges (hl : env.Lawful) {K K' : Tri V} {cs : Caches V} (h : construct env K = .ok (K', cs))
    (hc : isStructurallyCorrect K' cs = true) :
    let n := census K'.inf K'.time K'.cells
    (∀ l ∈ edgeLines K' cs, l = ascii "==> timelike\n" ∨ l = ascii "==> spacelike\n") ∧
    ((edgeLines K' cs).count (ascii "==> timelike\n") : ℤ) = n.N1TL ∧
    ((edgeLines K' cs).count (ascii "==> spacelike\n") : ℤ) = n.N1SL := by
  obtain ⟨_, hbc⟩ := construct_ok h
  obtain ⟨_, _, _, _, _, _, _, _, _, htl, hsl, _⟩ := buildCaches_ok hbc
  obtain ⟨_, h1s, h1t, _⟩ := construct_shape hl h hc
  have ft : format "==> timelike\n" [] = ascii "==> timelike\n" := by decide +kernel
  have fs : format "==> spacelike\n" [] = ascii "==> spacelike\n" := by decide +kernel
  have ne : ascii "==> timelike\n" ≠ ascii "==> spacelike\n" := by decide +kernel
  refine ⟨?_, ?_, ?_⟩
  · intro l hm
    obtain ⟨e, _, rfl⟩ := List.mem_map.1 hm
    rw [ft, fs]
    split <;> simp
  · rw [← h1t]
    show _ = (cs.timelikeEdges.length : ℤ)
    rw [htl, ← List.countP_eq_length_filter]
    unfold edgeLines
    rw [List.count, List.countP_map, ft, fs]
    congr 1
    apply List.countP_congr
    intro e _
    by_cases he : edgeTypeOf K' e = .timelike <;> simp [he, ne.symm]
  · rw [← h1s]
    show _ = (cs.spacelikeEdges.length : ℤ)
    rw [hsl, ← List.countP_eq_length_filter]
    unfold edgeLines
    rw [List.count, List.countP_map, ft, fs]
    congr 1
    apply List.countP_congr
    intro e _
    rcases he : edgeTypeOf K' e with _ | _ <;> simp [he, ne]

/-- C92. `print_delaunay` and `FoliatedTriangulation::print` print the numbers of simplices, of any
triangulation by tetrahedra, whatever its labels. -/
theorem C92_delaunay {K : Tri V} (h4 : ∀ c ∈ K.cells, c.card = 4) :
    delaunayLine K = shapeText "Triangulation" (census K.inf K.time K.cells) := by
  unfold delaunayLine shapeText
  rw [format_eq _ ["Triangulation" ++ " has ", " vertices and ", " edges and ", " faces and ", " simplices.\n"] _
      (by decide +kernel) rfl]
  have e0 : (K.finiteVerts.card : ℤ) = (census K.inf K.time K.cells).N0 := (count_vertices K.inf K.cells).symm
  have e1 : (K.finiteEdges.card : ℤ) = (census K.inf K.time K.cells).N1SL + (census K.inf K.time K.cells).N1TL := by
    simp only [census, count]
    rw [← Nat.cast_add, ← Finset.card_union_of_disjoint]
    · congr 2
      ext e; simp only [Finset.mem_union, Finset.mem_filter, mem_finiteEdges]; tauto
    · rw [Finset.disjoint_left]
      intro e ha hb
      simp only [Finset.mem_filter] at ha hb
      exact hb.2.2 ha.2.2
  have e2 : (K.finiteFacets.card : ℤ) = (census K.inf K.time K.cells).N2 := by
    simp only [census, count]
    congr 2
    ext e; simp only [Finset.mem_filter, mem_finiteFacets]; tauto
  have e3 : (K.finiteCells.card : ℤ) = (census K.inf K.time K.cells).N3 := by
    simp only [census, count]
    congr 2
    ext c; simp only [Finset.mem_filter, mem_finiteCells]
    constructor
    · rintro ⟨h1, h2⟩; exact ⟨⟨mem_faces.2 ⟨c, h1, subset_rfl⟩, h2⟩, h4 c h1⟩
    · rintro ⟨⟨h1, h2⟩, h3⟩; exact ⟨(face_four h4 h3).1 h1, h2⟩
  rw [e0, e1, e2, e3]

theorem slicesText_inj (a a' : ℤ → ℤ) (r r' : Bytes) (hr : ¬ ascii "Timeslice " <+: r)
    (hr' : ¬ ascii "Timeslice " <+: r') : ∀ (n m : ℕ) (lo lo' : ℤ), slicesText a n lo ++ r = slicesText a' m lo' ++ r' →
      n = m ∧ (0 < n → lo = lo') ∧ (∀ t, lo ≤ t → t < lo + n → a t = a' t) ∧ r = r'
  | 0, 0, lo, lo', h => ⟨rfl, by simp, fun t h1 h2 => by simp at h2; omega, by simpa [slicesText] using h⟩
  | 0, m + 1, lo, lo', h => by
    refine absurd ?_ hr
    simp only [slicesText, List.nil_append] at h
    rw [h]
    simp [sentence]
  | n + 1, 0, lo, lo', h => by
    refine absurd ?_ hr'
    simp only [slicesText, List.nil_append] at h
    rw [← h]
    simp [sentence]
  | n + 1, m + 1, lo, lo', h => by
    simp only [slicesText, List.append_assoc] at h
    obtain ⟨e, h⟩ := sentence_inj _ _ (by decide +kernel) _ _ _ _ rfl rfl h
    simp only [List.cons.injEq, and_true] at e
    obtain ⟨rfl, ea⟩ := e
    obtain ⟨e1, _, e3, e4⟩ := slicesText_inj a a' r r' hr hr' n m _ _ h
    refine ⟨by omega, fun _ => rfl, fun t h1 h2 => ?_, e4⟩
    by_cases ht : t = lo
    · rw [ht]; exact ea
    · exact e3 t (by omega) (by push_cast at h2; omega)

/-- C92. A printed portrait determines the numbers in it, whatever follows that is not another such
line: two triangulations with the same portrait have the same census, the same time range and the
same area of every slice. -/
theorem C92_portrait_determines {inf inf' : V} {time time' : V → ℤ} {K K' : Finset (Finset V)} {lo hi lo' hi' : ℤ}
    (hle : lo ≤ hi) {r r' : Bytes} (hr : ¬ ascii "Timeslice " <+: r) (hr' : ¬ ascii "Timeslice " <+: r')
    (h : portraitText inf time K lo hi ++ r = portraitText inf' time' K' lo' hi' ++ r') :
    census inf time K = census inf' time' K' ∧ lo = lo' ∧ hi = hi' ∧
    (∀ t, lo ≤ t → t ≤ hi → sliceArea inf time K t = sliceArea inf' time' K' t) ∧ r = r' := by
  unfold portraitText shapeText detailText at h
  simp only [List.append_assoc] at h
  obtain ⟨e1, h⟩ := sentence_inj _ _ (by decide +kernel) _ _ _ _ rfl rfl h
  obtain ⟨e2, h⟩ := sentence_inj _ _ (by decide +kernel) _ _ _ _ rfl rfl h
  obtain ⟨e3, h⟩ := sentence_inj _ _ (by decide +kernel) _ _ _ _ rfl rfl h
  obtain ⟨f1, f2, f3, f4⟩ := slicesText_inj _ _ r r' hr hr' _ _ _ _ h
  simp only [List.cons.injEq, and_true] at e1 e2 e3
  have hlo := f2 (by omega)
  refine ⟨?_, hlo, by omega, fun t h1 h2 => f3 t h1 (by omega), f4⟩
  rcases hc : census inf time K with ⟨n0, ns, nt, n2, n31, n22, n13, n3⟩
  rcases hc' : census inf' time' K' with ⟨m0, ms, mt, m2, m31, m22, m13, m3⟩
  rw [hc, hc'] at e1 e2 e3
  simp_all

theorem errors_none (c : CommandResults) (h : List (MoveType × Bool)) (d : DescribesFlags c h) :
    ((h.all fun x => x.2) = true ↔ ([c.failed.twoThreeMoves, c.failed.threeTwoMoves, c.failed.twoSixMoves,
      c.failed.sixTwoMoves, c.failed.fourFourMoves].all fun v => v == 0) = true) := by
  have hf : ∀ m, c.failed.get m = 0 ↔ ∀ x ∈ h, x.1 = m → x.2 = true := by
    intro m
    rw [d.failed]
    unfold countFlag
    simp only [Nat.cast_eq_zero, List.length_eq_zero_iff, List.filter_eq_nil_iff]
    constructor
    · intro hx x hm e; have := hx x hm; simp_all
    · intro hx x hm; have := hx x hm; simp; exact this
  obtain ⟨a1, a2, a3, a4, a5⟩ := C17_accessors c.failed
  simp only [List.all_cons, List.all_nil, Bool.and_true, Bool.and_eq_true, beq_iff_eq, a1, a2, a3, a4, a5, hf,
    List.all_eq_true]
  constructor
  · intro hx; exact ⟨fun x m _ => hx x m, fun x m _ => hx x m, fun x m _ => hx x m, fun x m _ => hx x m, fun x m _ => hx x m⟩
  · rintro ⟨b1, b2, b3, b4, b5⟩ x hm
    rcases hx : x.1 with _ | _ | _ | _ | _
    · exact b1 x hm hx
    · exact b2 x hm hx
    · exact b3 x hm hx
    · exact b4 x hm hx
    · exact b5 x hm hx

theorem tally_eq (word fmt : String) (t : Tracker) (h : List (MoveType × Bool)) (p : Bool → Bool)
    (hc : chop fmt.toList = ["There were ", " " ++ word ++ " (2,3) moves and ", " " ++ word ++ " (3,2) moves and ",
      " " ++ word ++ " (2,6) moves and ", " " ++ word ++ " (6,2) moves and ", " " ++ word ++ " (4,4) moves.\n"].map ascii)
    (ht : ∀ m, t.get m = (h.filter fun x => x.1 = m && p x.2).length) :
    format fmt ([t.twoThreeMoves, t.threeTwoMoves, t.twoSixMoves, t.sixTwoMoves, t.fourFourMoves].map decimalInt) =
      tallyText word h p := by
  unfold tallyText
  rw [format_eq _ _ _ hc rfl]
  obtain ⟨a1, a2, a3, a4, a5⟩ := C17_accessors t
  congr 1
  simp only [List.map_cons, List.map_nil, displayed, a1, a2, a3, a4, a5]
  rw [howMany_int _ _ ((ht _).trans (countP_filter_move h _ p).symm),
    howMany_int _ _ ((ht _).trans (countP_filter_move h _ p).symm),
    howMany_int _ _ ((ht _).trans (countP_filter_move h _ p).symm),
    howMany_int _ _ ((ht _).trans (countP_filter_move h _ p).symm),
    howMany_int _ _ ((ht _).trans (countP_filter_move h _ p).symm)]

/-- C92. After a batch of queued moves was executed, `print_attempts`, `print_successful` and
`print_errors` of the `MoveCommand` print, for each kind, how many of the batch's moves were made, how
many of them succeeded and how many failed, or that none failed. -/
theorem C92_command {M R : Type} (eng : CommandEngine M R) (m : M) (l : List MoveType) (g : R)
    (hdone : ∀ e, ((enqueueAll (Command.new m) (l.map (fun x => (x.asInteger.val : Int)))).execute
      eng g).2.2 ≠ .threw e) :
    let c' := ((enqueueAll (Command.new m) (l.map (fun x => (x.asInteger.val : Int)))).execute eng g).1
    ∃ h : List (MoveType × Bool), h.map Prod.fst = l ∧ Applied eng.Checked m h c'.manifold ∧
      attemptsLine c'.results = tallyText "attempted" h (fun _ => true) ∧
      successfulLine c'.results = tallyText "successful" h id ∧
      errorsLine c'.results =
        if h.all fun x => x.2 then ascii "There were no failed moves.\n" else tallyText "failed" h not := by
  obtain ⟨_, h, h1, h2, d, _⟩ := C11_fifo_exact_accounting eng m l g hdone
  refine ⟨h, h1, h2, ?_, ?_, ?_⟩
  · unfold attemptsLine
    apply tally_eq "attempted"
    · decide +kernel
    · intro mv
      rw [d.attempted]
      unfold countFlag
      clear h1 h2 d hdone
      induction h with
      | nil => rfl
      | cons x h ih =>
        obtain ⟨a, b⟩ := x
        by_cases ha : a = mv <;> cases b <;> simp [ha] at ih ⊢ <;> omega
  · unfold successfulLine
    apply tally_eq "successful"
    · decide +kernel
    · intro mv
      rw [d.succeeded]
      unfold countFlag
      congr 2
      apply List.filter_congr
      rintro ⟨a, b⟩ _
      cases b <;> simp
  · unfold errorsLine
    have hn := errors_none _ h d
    by_cases hall : (h.all fun x => x.2) = true
    · simp only [if_pos hall, if_pos (hn.1 hall)]
      decide +kernel
    · simp only [if_neg hall, if_neg (fun x => hall (hn.2 x))]
      apply tally_eq "failed"
      · decide +kernel
      · intro mv
        rw [d.failed]
        unfold countFlag
        congr 2
        apply List.filter_congr
        rintro ⟨a, b⟩ _
        cases b <;> simp

/-- Non-vacuity: a constructed, structurally correct triangulation and its portrait. -/
example :
    (let r := construct Fixture.env Fixture.k26;
      (match r with
        | .ok (K, cs) => isStructurallyCorrect K cs && decide ((portraitLines K cs).flatten =
            ascii ("Manifold has 5 vertices and 9 edges and 7 faces and 2 simplices.\n" ++
              "There are 1 (3,1) simplices and 0 (2,2) simplices and 1 (1,3) simplices.\n" ++
              "There are 6 timelike edges and 3 spacelike edges.\nTimeslice 1 has 0 spacelike faces.\n" ++
              "Timeslice 2 has 1 spacelike faces.\nTimeslice 3 has 0 spacelike faces.\n"))
        | .error _ => false) = true) := by decide +kernel

/-- Non-vacuity: a batch of four moves, one of which fails, and what is printed about it. -/
example :
    (let c := (enqueueAll (Command.new Toy.view0) [0, 1, 2, 4]).execute toyCommand 0;
      (∀ e, c.2.2 ≠ .threw e) ∧
      errorsLine c.1.results = ascii ("There were 0 failed (2,3) moves and 1 failed (3,2) moves and " ++
        "0 failed (2,6) moves and 0 failed (6,2) moves and 0 failed (4,4) moves.\n") ∧
      errorsLine (Command.new Toy.view0).results = ascii "There were no failed moves.\n") := by
  refine ⟨?_, by decide +kernel, by decide +kernel⟩
  have : ((enqueueAll (Command.new Toy.view0) [0, 1, 2, 4]).execute toyCommand 0).2.2 = .done := by decide +kernel
  intro e h
  rw [this] at h
  cases h

end CDT.Props

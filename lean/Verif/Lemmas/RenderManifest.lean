import Verif.Spec.RenderManifest
import Verif.Lemmas.Trailer
import Mathlib.Tactic.Linarith
import Mathlib.Tactic.NormNum

namespace CDT
open Json Spec

theorem refuseIf_ok {b : Bool} {u : PUnit} : refuseIf b = .ok u ↔ b = false := by
  cases b <;> simp [refuseIf]

theorem truncQ_int (n : ℤ) : truncQ (n : ℚ) = n := by
  unfold truncQ
  split <;> simp

theorem truncQ_eq_iff {q : ℚ} : (truncQ q : ℚ) = q ↔ ∃ n : ℤ, q = n :=
  ⟨fun h => ⟨_, h.symm⟩, by rintro ⟨n, rfl⟩; rw [truncQ_int]⟩

theorem requireObject_ok {f : String → Json} {k : String} {g : String → Json} :
    requireObject f k = .ok g ↔ f k = .obj g := by
  unfold requireObject
  split <;> simp_all

theorem requireArray_ok {f : String → Json} {k : String} {l : List Json} :
    requireArray f k = .ok l ↔ f k = .arr l := by
  unfold requireArray
  split <;> simp_all

theorem requireString_ok {f : String → Json} {k : String} {s : Bytes} :
    requireString f k = .ok s ↔ IsText (f k) s := by
  unfold requireString IsText
  split
  · rename_i t h
    rw [h]
    split
    · rename_i h'
      rw [List.isEmpty_iff] at h'
      subst h'
      simp only [reduceCtorEq, Json.str.injEq, false_iff]
      rintro ⟨rfl, h⟩
      exact h rfl
    · rename_i h'
      rw [List.isEmpty_iff] at h'
      simp only [Except.ok.injEq, Json.str.injEq]
      constructor
      · rintro rfl; exact ⟨rfl, h'⟩
      · rintro ⟨rfl, -⟩; rfl
  · rename_i h
    simp only [reduceCtorEq, false_iff]
    rintro ⟨h', -⟩
    exact h _ h'

theorem requireBool_ok {f : String → Json} {k : String} {b : Bool} :
    requireBool f k = .ok b ↔ f k = .bool b := by
  unfold requireBool
  split
  · rename_i c h
    rw [h]; simp
  · rename_i h
    simp only [reduceCtorEq, false_iff]
    exact h _

theorem finiteNumber_ok {j : Json} {q : ℚ} : finiteNumber j = .ok q ↔ j = .num (.fin q) := by
  unfold finiteNumber
  split <;> simp_all

theorem requireNumber_ok {f : String → Json} {k : String} {q : ℚ} :
    requireNumber f k = .ok q ↔ f k = .num (.fin q) := finiteNumber_ok

theorem requireInteger_ok {lo hi : ℤ} {f : String → Json} {k : String} {n : ℤ} :
    requireInteger lo hi f k = .ok n ↔ IsInteger lo hi (f k) n := by
  unfold requireInteger IsInteger
  simp only [bind_ok, requireNumber_ok, refuseIf_ok, decide_eq_false_iff_not, not_or, not_not, not_lt,
    gt_iff_lt, maxExactInteger, pure, Except.pure, Except.ok.injEq]
  constructor
  · rintro ⟨q, h, u, ⟨h1, h2, h3, h4, h5⟩, rfl⟩
    obtain ⟨n, rfl⟩ := truncQ_eq_iff.1 h1
    rw [truncQ_int]
    refine ⟨h, by exact_mod_cast h2, by exact_mod_cast h3, ?_⟩
    have h4' : (-9007199254740991 : ℤ) ≤ n := by exact_mod_cast h4
    have h5' : n ≤ (9007199254740991 : ℤ) := by exact_mod_cast h5
    rw [abs_lt]; constructor <;> omega
  · rintro ⟨h, h1, h2, h3⟩
    rw [abs_lt] at h3
    refine ⟨n, h, .unit, ⟨by rw [truncQ_int], by exact_mod_cast h1, by exact_mod_cast h2, ?_, ?_⟩, truncQ_int n⟩
    · have : (-9007199254740991 : ℤ) ≤ n := by omega
      exact_mod_cast this
    · have : n ≤ (9007199254740991 : ℤ) := by omega
      exact_mod_cast this

theorem channel_ok {j : Json} {c : Fin 256} : channel j = .ok c ↔ j = chan c := by
  unfold channel chan
  split
  · rename_i q
    split
    · rename_i h
      simp only [reduceCtorEq, Json.num.injEq, LD.fin.injEq, false_iff]
      rintro rfl
      have hc := c.isLt
      rcases h with h | h | h
      · exact h (by have := truncQ_int (c.val : ℤ); push_cast at this; rw [this]; push_cast; rfl)
      · exact absurd h (not_lt.2 (by positivity))
      · have : ((c.val : ℕ) : ℚ) ≤ 255 := by exact_mod_cast (by omega : c.val ≤ 255)
        linarith
    · rename_i h
      simp only [not_or, not_not, not_lt, gt_iff_lt] at h
      obtain ⟨h1, h2, h3⟩ := h
      obtain ⟨n, rfl⟩ := truncQ_eq_iff.1 h1
      rw [truncQ_int]
      have h2' : 0 ≤ n := by exact_mod_cast h2
      have h3' : n ≤ 255 := by exact_mod_cast h3
      obtain ⟨m, rfl⟩ := Int.eq_ofNat_of_zero_le h2'
      simp only [Except.ok.injEq, Json.num.injEq, LD.fin.injEq, Int.toNat_natCast, Int.cast_natCast, Nat.cast_inj]
      constructor
      · rintro rfl
        exact (Nat.mod_eq_of_lt (by omega)).symm
      · rintro rfl
        exact Fin.ext (Nat.mod_eq_of_lt (by omega))
  · rename_i h
    simp only [reduceCtorEq, false_iff]
    exact h _

theorem requireVector_ok {f : String → Json} {k : String} {v : ℚ × ℚ × ℚ} :
    requireVector f k = .ok v ↔ IsVector (f k) v := by
  unfold requireVector IsVector
  simp only [bind_ok, requireArray_ok]
  constructor
  · rintro ⟨l, h, hl⟩
    split at hl
    · simp only [bind_ok, finiteNumber_ok, pure, Except.pure, Except.ok.injEq] at hl
      obtain ⟨x, rfl, y, rfl, z, rfl, rfl⟩ := hl
      exact h
    · cases hl
  · intro h
    exact ⟨_, h, rfl⟩

theorem requireColor_ok {f : String → Json} {k : String} {c : Rgba} :
    requireColor f k = .ok c ↔ IsColor (f k) c := by
  unfold requireColor IsColor
  simp only [bind_ok, requireArray_ok]
  constructor
  · rintro ⟨l, h, hl⟩
    split at hl
    · simp only [bind_ok, channel_ok, pure, Except.pure, Except.ok.injEq] at hl
      obtain ⟨x, rfl, y, rfl, z, rfl, w, rfl, rfl⟩ := hl
      exact h
    · cases hl
  · intro h
    refine ⟨_, h, ?_⟩
    simp only [bind_ok, channel_ok]
    exact ⟨_, rfl, _, rfl, _, rfl, _, rfl, rfl⟩

theorem paletteEntry_ok {j : Json} {c : Fin 256 × Fin 256 × Fin 256} :
    paletteEntry j = .ok c ↔ j = .arr [chan c.1, chan c.2.1, chan c.2.2] := by
  constructor
  · intro h
    unfold paletteEntry at h
    split at h
    · simp only [bind_ok, channel_ok, pure, Except.pure, Except.ok.injEq] at h
      obtain ⟨x, rfl, y, rfl, z, rfl, rfl⟩ := h
      rfl
    · cases h
  · rintro rfl
    simp only [paletteEntry, bind_ok, channel_ok]
    exact ⟨_, rfl, _, rfl, _, rfl, rfl⟩

theorem mapM_ok {α β : Type} {f : α → Except Exc β} {g : β → α} (hf : ∀ a b, f a = .ok b ↔ a = g b) :
    ∀ {l : List α} {r : List β}, l.mapM f = .ok r ↔ l = r.map g := by
  intro l
  induction l with
  | nil =>
    intro r
    simp only [List.mapM_nil, pure, Except.pure, Except.ok.injEq]
    cases r <;> simp
  | cons a l ih =>
    intro r
    simp only [List.mapM_cons, bind_ok, hf, ih, pure, Except.pure, Except.ok.injEq]
    constructor
    · rintro ⟨b, rfl, bs, rfl, rfl⟩; rfl
    · intro h
      cases r with
      | nil => cases h
      | cons b bs => cases h; exact ⟨b, rfl, bs, rfl, rfl⟩

theorem palette_ok {l : List Json} {r : List (Fin 256 × Fin 256 × Fin 256)} :
    l.mapM paletteEntry = .ok r ↔ l = r.map fun c => .arr [chan c.1, chan c.2.1, chan c.2.2] :=
  mapM_ok fun _ _ => paletteEntry_ok

theorem look_obj {f : String → Json} {k : String} {ks : List String} :
    look (.obj f) (k :: ks) = look (f k) ks := rfl

theorem look_nil {j : Json} : look j [] = j := by cases j <;> rfl

/-- A value below a key is there only if the key belongs to an object. -/
theorem look_defined {j : Json} {k : String} {ks : List String} (h : look j (k :: ks) ≠ .undefined) :
    ∃ f, j = .obj f := by
  cases j with
  | obj f => exact ⟨f, rfl⟩
  | _ => exact absurd rfl h

/-- Acceptance of a document, with the frame check left as it is. -/
theorem parseManifest_iff {ext flt : FloatFormat} {resolve : Bytes → Except Exc Bytes}
    {root : String → Json} {m : ViewerManifest} :
    parseManifest ext flt resolve root = .ok m ↔ Means flt resolve (.obj root) m ∧
      frameTooLarge ext m.render.width m.render.height m.render.oversampling = false := by
  unfold parseManifest requireInt requireSize
  simp only [bind_ok, requireObject_ok, requireArray_ok, requireString_ok, requireBool_ok, requireNumber_ok,
    requireInteger_ok, requireVector_ok, requireColor_ok, palette_ok, refuseIf_ok, decide_eq_false_iff_not,
    not_or, not_and, not_lt, not_le, gt_iff_lt, ge_iff_le, not_not, ne_eq, pure, Except.pure,
    Except.ok.injEq, exists_const]
  constructor
  · rintro ⟨schema, h1, hr⟩
    obtain ⟨rfl, hr⟩ := hr
    obtain ⟨fixture, h2, topology, h3, renderer, h4, render, h5, geometry, h6, style, h7,
      camera, h8, checks, h9, s, h10, fp, h11, pal, h12, hr⟩ := hr
    obtain ⟨pal', rfl, h14, hr⟩ := hr
    obtain ⟨width, h15, height, h16, ps, h17,
      lw, h18, os, h19, h20, h21, h22, mf, h23, h24, fmt, h25, hr⟩ := hr
    obtain ⟨rfl, hr⟩ := hr
    obtain ⟨sha, h27, v, h28, e, h29,
      fc, h30, sx, h31, lo, h32, hi, h33, cg, h34, qt, h35, tb, h36, ef, h37, bg, h38, dv, h39, de, h40, df, h41,
      vs, h42, es, h43, et, h44, pt, h45, fs, h46, pc, h47, ec, h48, pj, h49, po, h50, tg, h51, up, h52, fov, h53,
      h54, h55, h56, h57, h58, h59, hr⟩ := hr
    subst hr
    refine ⟨?_, h22⟩
    constructor <;> simp only [look_obj, look_nil, h2, h3, h4, h5, h6, h7, h8, h9, List.mem_cons, List.not_mem_nil, or_false]
    case schema => exact h1.1.trans (by norm_num)
    case fixture => exact ⟨s, h10, h11⟩
    case sha256 => exact h27
    case vertices => exact h28
    case edges => exact h29
    case faces => exact h30
    case simplices => exact h31
    case minTime => exact h32
    case maxTime => exact h33
    case cgal => exact h34
    case qt => exact h35
    case width => exact ⟨h15, h20.1⟩
    case height => exact ⟨h16, h20.2.1⟩
    case format => exact h25.1
    case transparent => exact h36
    case oversampling => exact ⟨h19, h21⟩
    case frustum => exact h37
    case drawVertices => exact h39
    case drawEdges => exact h40
    case drawFaces => exact h41
    case vertexScope => exact ⟨h42.1, by by_contra hc; exact hc (.inr (h56 fun hc' => hc (.inl hc')))⟩
    case edgeScope => exact ⟨h43.1, by by_contra hc; exact hc (.inr (h55 fun hc' => hc (.inl hc')))⟩
    case background => exact h38
    case pointColor => exact h47
    case edgeColor => exact h48
    case palette => exact ⟨h12, by rintro rfl; cases h14⟩
    case pointSize => exact ⟨ps, h17, h20.2.2.1, h20.2.2.2.2.1, rfl⟩
    case lineWidth => exact ⟨lw, h18, h20.2.2.2.1, h20.2.2.2.2.2, rfl⟩
    case edgeThreshold => exact ⟨h44.1, h57⟩
    case pointTolerance => exact ⟨h45.1, h58⟩
    case flat => exact h46
    case projection => exact ⟨h49.1, by by_contra hc; exact hc (.inr (h54 fun hc' => hc (.inl hc')))⟩
    case position => exact h50
    case target => exact h51
    case up => exact h52
    case fieldOfView => exact ⟨h53, h59⟩
    case foreground => exact ⟨h23, h24.2⟩
  · rintro ⟨⟨s1, ⟨s, s2, s3⟩, s4, s5, s6, s7, s8, s9, s10, s11, s12, s13, s14, s15, s16, s17, s18, s19, s20, s21,
      s22, s23, s24, s25, s26, s27, ⟨ps, s28⟩, ⟨lw, s29⟩, s30, s31, s32, s33, s34, s35, s36, s37, s38⟩, hf⟩
    have d : ∀ {j : Json} {k : String} {ks : List String} {x : Json}, look j (k :: ks) = x → x ≠ .undefined →
        ∃ f, j = .obj f := fun h hx => look_defined (h ▸ hx)
    rw [look_obj] at *
    obtain ⟨fixture, h2⟩ := d s2.1 (by simp)
    obtain ⟨renderer, h4⟩ := d s11.1 (by simp)
    obtain ⟨render, h5⟩ := d s15 (by simp)
    obtain ⟨checks, h9⟩ := d s38.1.1 (by simp)
    simp only [look_obj, h2, h4, h5, h9] at *
    obtain ⟨topology, h3⟩ := d s5.1 (by simp)
    obtain ⟨geometry, h6⟩ := d s19 (by simp)
    obtain ⟨style, h7⟩ := d s32 (by simp)
    obtain ⟨camera, h8⟩ := d s33.1 (by simp)
    simp only [look_obj, look_nil, h3, h6, h7, h8, List.mem_cons, List.not_mem_nil, or_false] at s1 s2 s4 s5 s6 s7 s8 s9 s10 s11 s12 s13 s14 s15 s16 s17 s18 s19 s20 s21 s22 s23 s24 s25 s26 s27 s28 s29 s30 s31 s32 s33 s34 s35 s36 s37 s38
    have hw := s13.2; have hh := s14.2
    refine ⟨1, ⟨by rw [s1]; norm_num, by norm_num, by norm_num, by norm_num⟩, rfl, fixture, rfl, topology, h3,
      renderer, rfl, render, rfl, geometry, h6, style, h7, camera, h8, checks, rfl, s, s2, _, s3, _, s27.1,
      _, rfl, ?_, _, s13.1, _, s14.1, ps, s28.1, lw, s29.1, _, s17.1,
      ⟨hw, hh, s28.2.1, s29.2.1, s28.2.2.1, s29.2.2.1⟩, s17.2, hf, _, s38.1, ⟨?_, s38.2⟩, _, ⟨s15, ?_⟩, rfl,
      _, s4, _, s5, _, s6, _, s7, _, s8, _, s9, _, s10, _, s11, _, s12, _, s16, _, s18, _, s24, _, s19, _, s20, _, s21,
      _, ⟨s22.1, ?_⟩, _, ⟨s23.1, ?_⟩, _, ⟨s30.1, ?_, ?_, ?_⟩, _, ⟨s31.1, ?_, ?_, ?_⟩, _, s32, _, s25, _, s26,
      _, ⟨s33.1, ?_⟩, _, s34, _, s35, _, s36, _, s37.1, fun h => s33.2.resolve_left h, fun h => s23.2.resolve_left h,
      fun h => s22.2.resolve_left h, s30.2, s31.2, s37.2, ?_⟩
    · rw [List.isEmpty_eq_false_iff]; exact s27.2
    · have h1 := s13.1.2.2.1; have h2 := s14.1.2.2.1
      have : (2 ^ 31 : ℤ) ≤ (2 ^ 64 - 1) / m.render.height := by
        rw [Int.le_ediv_iff_mul_le hh]
        nlinarith
      omega
    · decide
    · rcases s22.2 with h | h <;> rw [h] <;> decide
    · rcases s23.2 with h | h <;> rw [h] <;> decide
    · have := s30.2; omega
    · have := s30.2; omega
    · have := s30.2; rw [abs_lt]; constructor <;> omega
    · have := s31.2; omega
    · have := s31.2; omega
    · have := s31.2; rw [abs_lt]; constructor <;> omega
    · rcases s33.2 with h | h <;> rw [h] <;> decide
    · rw [← s28.2.2.2, ← s29.2.2.2]

/-! ### The frame check -/

theorem LD.lt_false_iff {x : LD} {y : ℚ} (hx : x ≠ .nan) : LD.lt (.fin y) x = false ↔ LD.le x (.fin y) = true := by
  cases x with
  | nan => exact absurd rfl hx
  | inf b => cases b <;> simp [LD.lt, LD.le]
  | fin q => simp [LD.lt, LD.le]

/-- Rounding of a product of an `int` and a moderate factor is finite and stays between the integers
around it. -/
theorem rnd_between {F : FloatFormat} (hF : F.Lawful) {x : ℚ} (h0 : 0 ≤ x) (h1 : x ≤ 2 ^ 52) :
    ∃ y, F.rnd x = .fin y ∧ (⌊x⌋ : ℚ) ≤ y ∧ y ≤ ⌈x⌉ := by
  have hfl : (0 : ℤ) ≤ ⌊x⌋ := Int.floor_nonneg.2 h0
  have hce : ⌈x⌉ ≤ (2 : ℤ) ^ 52 := Int.ceil_le.2 (by exact_mod_cast h1)
  have hfc : ⌊x⌋ ≤ ⌈x⌉ := Int.floor_le_ceil x
  have a := hF.mono _ _ (Int.floor_le x)
  have b := hF.mono _ _ (Int.le_ceil x)
  rw [hF.int _ (by rw [abs_le]; constructor <;> omega)] at a b
  cases hx : F.rnd x with
  | nan => exact absurd hx (hF.notNan x)
  | inf s => rw [hx] at a b; cases s <;> simp [LD.le] at a b
  | fin y =>
    rw [hx] at a b
    simp only [LD.le, decide_eq_true_eq] at a b
    exact ⟨y, rfl, a, b⟩

theorem frame_iff {F : FloatFormat} (hF : F.Lawful) {w h : ℤ} {o : ℚ} (hw : 0 < w) (hh : 0 < h) (ho : 0 < o)
    (ho8 : o ≤ 8) (hw' : w < 2 ^ 31) (hh' : h < 2 ^ 31) :
    ∃ a b : ℤ, ⌊(w : ℚ) * o⌋ ≤ a ∧ a ≤ ⌈(w : ℚ) * o⌉ ∧ ⌊(h : ℚ) * o⌋ ≤ b ∧ b ≤ ⌈(h : ℚ) * o⌉ ∧
      (frameTooLarge F w h o = false ↔ Practical a b) := by
  have wq : (w : ℚ) ≤ 2 ^ 31 := by exact_mod_cast hw'.le
  have hq : (h : ℚ) ≤ 2 ^ 31 := by exact_mod_cast hh'.le
  have wp : (0 : ℚ) < w := by exact_mod_cast hw
  have hp : (0 : ℚ) < h := by exact_mod_cast hh
  obtain ⟨y, hy, y1, y2⟩ := rnd_between hF (x := w * o) (by positivity) (by nlinarith)
  obtain ⟨z, hz, z1, z2⟩ := rnd_between hF (x := h * o) (by positivity) (by nlinarith)
  refine ⟨⌈y⌉, ⌈z⌉, ?_, Int.ceil_le.2 y2, ?_, Int.ceil_le.2 z2, ?_⟩
  · exact_mod_cast y1.trans (Int.le_ceil y)
  · exact_mod_cast z1.trans (Int.le_ceil z)
  have yn : (0 : ℚ) ≤ y := le_trans (by exact_mod_cast Int.floor_nonneg.2 (by positivity)) y1
  have zn : (0 : ℚ) ≤ z := le_trans (by exact_mod_cast Int.floor_nonneg.2 (by positivity)) z1
  have yc : (0 : ℤ) ≤ ⌈y⌉ := Int.ceil_nonneg yn
  have zc : (0 : ℤ) ≤ ⌈z⌉ := Int.ceil_nonneg zn
  have e1 : F.ofInt w = .fin w := hF.int w (by rw [abs_le]; constructor <;> omega)
  have e2 : F.ofInt h = .fin h := hF.int h (by rw [abs_le]; constructor <;> omega)
  have e3 : F.ofInt (2 ^ 31 - 1) = .fin ((2 ^ 31 - 1 : ℤ) : ℚ) := hF.int _ (by norm_num)
  have e4 : F.ofInt maxSnapshotPixels = .fin (maxSnapshotPixels : ℚ) := hF.int _ (by norm_num [maxSnapshotPixels])
  have ltf : ∀ a b : ℚ, (LD.lt (.fin a) (.fin b) = false) = (b ≤ a) := by simp [LD.lt]
  unfold frameTooLarge Practical
  simp only [e1, e2, e3, e4, FloatFormat.mul, hy, hz, LD.ceil, Bool.or_eq_false_iff, ltf, Int.cast_le]
  have key : (LD.lt (.fin (maxSnapshotPixels : ℚ)) (F.rnd ((⌈y⌉ : ℚ) * (⌈z⌉ : ℚ))) = false) ↔
      ⌈y⌉ * ⌈z⌉ ≤ (2 : ℤ) ^ 28 := by
    rw [LD.lt_false_iff (hF.notNan _)]
    have cast : ((⌈y⌉ : ℚ) * (⌈z⌉ : ℚ)) = ((⌈y⌉ * ⌈z⌉ : ℤ) : ℚ) := by push_cast; rfl
    rw [cast]
    constructor
    · intro hle
      by_contra hc
      have hge : (maxSnapshotPixels + 1 : ℤ) ≤ ⌈y⌉ * ⌈z⌉ := by
        have : (maxSnapshotPixels : ℤ) = 2 ^ 28 := by decide
        omega
      have m := hF.mono ((maxSnapshotPixels + 1 : ℤ) : ℚ) ((⌈y⌉ * ⌈z⌉ : ℤ) : ℚ) (Int.cast_le.2 hge)
      rw [hF.int _ (by norm_num [maxSnapshotPixels])] at m
      revert hle m
      cases F.rnd ((⌈y⌉ * ⌈z⌉ : ℤ) : ℚ) with
      | nan => simp [LD.le]
      | inf s => cases s <;> simp [LD.le]
      | fin q =>
        simp only [LD.le, decide_eq_true_eq]
        intro h1 h2
        push_cast at h2
        linarith
    · intro hle
      rw [hF.int _ (by rw [abs_le]; constructor <;> nlinarith)]
      simp only [LD.le, decide_eq_true_eq]
      have : (maxSnapshotPixels : ℤ) = 2 ^ 28 := by decide
      exact_mod_cast this ▸ hle
  rw [key, and_assoc]
  refine and_congr ?_ (and_congr ?_ Iff.rfl) <;> omega

theorem Practical.mono {a b a' b' : ℤ} (h : Practical a b) (ha : a' ≤ a) (hb : b' ≤ b) (ha0 : 0 ≤ a') (hb0 : 0 ≤ b') :
    Practical a' b' := by
  obtain ⟨h1, h2, h3⟩ := h
  exact ⟨by omega, by omega, (mul_le_mul ha hb hb0 (by omega)).trans h3⟩

end CDT

/-
The texts of the fingerprints determine what they describe.
-/
import Verif.Spec.FingerprintText
import Verif.Lemmas.Fingerprint
import Verif.Lemmas.Text
import Mathlib.Data.Fintype.Card
import Mathlib.Logic.Equiv.Basic
import Mathlib.Tactic.Linarith

namespace CDT
open Spec

theorem fingerprintRecords_eq (records : List Bytes) : fingerprintRecords records = fnv1a (closedLines records) := by
  unfold fingerprintRecords fnv1a closedLines
  generalize fnvOffset = d
  induction records generalizing d with
  | nil => rfl
  | cons r rs ih =>
    rw [List.foldl_cons, ih, List.flatMap_cons]
    simp only [fnvFold, List.foldl_append, List.foldl_cons, List.foldl_nil]

/-- Splitting at the first occurrence of a separator. -/
theorem append_sep_inj {α : Type} {s : α} {a b x y : List α} (ha : s ∉ a) (hb : s ∉ b) (h : a ++ s :: x = b ++ s :: y) :
    a = b ∧ x = y := by
  induction a generalizing b with
  | nil =>
    cases b with
    | nil => cases h; exact ⟨rfl, rfl⟩
    | cons c b => cases h; exact absurd (.head _) hb
  | cons c a ih =>
    cases b with
    | nil => cases h; exact absurd (.head _) ha
    | cons e b =>
      injection h with h1 h2
      obtain ⟨h3, h4⟩ := ih (fun h => ha (.tail _ h)) (fun h => hb (.tail _ h)) h2
      exact ⟨by rw [h1, h3], h4⟩

theorem closedLines_inj {l l' : List Bytes} (h : ∀ r ∈ l, 255#8 ∉ r) (h' : ∀ r ∈ l', 255#8 ∉ r)
    (he : closedLines l = closedLines l') : l = l' := by
  unfold closedLines at he
  induction l generalizing l' with
  | nil =>
    cases l' with
    | nil => rfl
    | cons r l' => simp at he
  | cons r l ih =>
    cases l' with
    | nil => simp at he
    | cons r' l' =>
      simp only [List.flatMap_cons, List.append_assoc, List.singleton_append] at he
      obtain ⟨h1, h2⟩ := append_sep_inj (h r (.head _)) (h' r' (.head _)) he
      rw [h1, ih (fun x hx => h x (.tail _ hx)) (fun x hx => h' x (.tail _ hx)) h2]

theorem decimalInt_injective : Function.Injective decimalInt := by
  have key : ∀ n (m : ℕ), decimal n ≠ minusSign :: decimal m := by
    intro n m h
    have := mem_decimal (n := n) (b := minusSign) (by rw [h]; exact .head _)
    simp [minusSign] at this
  intro i j h
  unfold decimalInt at h
  split at h <;> split at h
  · injection h with _ h
    have := decimal_injective h
    omega
  · exact absurd h.symm (key _ _)
  · exact absurd h (key _ _)
  · have := decimal_injective h
    omega

/-- Equal value lists come from a renumbering. -/
theorem equiv_of_perm {α : Type} {n m : ℕ} (f : Fin n → α) (g : Fin m → α) (h : (List.ofFn g).Perm (List.ofFn f)) :
    ∃ e : Fin m ≃ Fin n, ∀ i, g i = f (e i) := by
  classical
  have count : ∀ {k : ℕ} (f : Fin k → α) (a : α), (List.ofFn f).count a = Fintype.card {i // f i = a} := by
    intro k f a
    rw [List.ofFn_eq_map, List.count, List.countP_map, List.countP_eq_length_filter, Fintype.card_subtype]
    rw [← List.toFinset_card_of_nodup ((List.nodup_finRange k).filter _)]
    congr 1
    ext i
    simp [Function.comp]
  have fib : ∀ a, Nonempty ({i // g i = a} ≃ {i // f i = a}) := by
    intro a
    rw [← Fintype.card_eq, ← count, ← count]
    exact h.count_eq a

  let s : (Σ a, {i // g i = a}) ≃ Σ a, {i // f i = a} := Equiv.sigmaCongrRight fun a => (fib a).some
  refine ⟨(Equiv.sigmaFiberEquiv g).symm.trans (s.trans (Equiv.sigmaFiberEquiv f)), fun i => ?_⟩
  exact ((fib (g i)).some ⟨i, rfl⟩).2.symm

/-! ### Lines -/

theorem not_mem_decimalInt {i : ℤ} {b : Byte} (h : b ≠ minusSign) (h' : ¬ (48 ≤ b.toNat ∧ b.toNat ≤ 57)) :
    b ∉ decimalInt i := fun hm => (mem_decimalInt hm).elim h h'

theorem ascii_colon : ascii ":" = [colon] := rfl
theorem ascii_semicolon : ascii ";" = [semicolon] := rfl

theorem PlainKeys.colon {t : Stored} (h : PlainKeys t) (v : Fin t.nv) : colon ∉ t.key v := fun hm => (h v _ hm).1 rfl
theorem PlainKeys.semicolon {t : Stored} (h : PlainKeys t) (v : Fin t.nv) : semicolon ∉ t.key v := fun hm => (h v _ hm).2.1 rfl
theorem PlainKeys.closing {t : Stored} (h : PlainKeys t) (v : Fin t.nv) : 255#8 ∉ t.key v := fun hm => (h v _ hm).2.2 rfl

theorem vertexLine_closing {t : Stored} (h : PlainKeys t) (v : Fin t.nv) : 255#8 ∉ vertexLine t v := by
  unfold vertexLine
  simp only [List.mem_append, not_or]
  exact ⟨⟨⟨by decide, PlainKeys.closing h v⟩, by decide⟩, not_mem_decimalInt (by decide) (by decide)⟩

theorem vertexLine_inj {t t' : Stored} (h : PlainKeys t) (h' : PlainKeys t') {v : Fin t.nv} {v' : Fin t'.nv}
    (he : vertexLine t v = vertexLine t' v') : t.key v = t'.key v' ∧ t.vinfo v = t'.vinfo v' := by
  unfold vertexLine at he
  simp only [List.append_assoc, ascii_colon, List.singleton_append] at he
  obtain ⟨h1, h2⟩ := append_sep_inj (PlainKeys.colon h v) (PlainKeys.colon h' v') (List.append_cancel_left he)
  exact ⟨h1, decimalInt_injective h2⟩

theorem vertexLine_head (t : Stored) (v : Fin t.nv) : (vertexLine t v).head? = some 118#8 := by
  unfold vertexLine
  simp only [List.append_assoc]
  rfl

theorem mem_of_perm_ofFn {t : Stored} {c : Fin t.nc} {l : List Bytes}
    (h : l.Perm (List.ofFn fun i => t.key (t.corner c i))) {a : Bytes} (ha : a ∈ l) : ∃ v, t.key v = a := by
  obtain ⟨i, hi⟩ := List.mem_ofFn.1 (h.mem_iff.1 ha)
  exact ⟨_, hi⟩

theorem cellLine_closing {t : Stored} (h : PlainKeys t) {c : Fin t.nc} {line : Bytes} (hl : IsCellLine t c line) :
    255#8 ∉ line := by
  obtain ⟨a₀, a₁, a₂, a₃, hp, -, -, -, rfl⟩ := hl
  have key : ∀ a ∈ [a₀, a₁, a₂, a₃], 255#8 ∉ a := by
    intro a ha
    obtain ⟨v, rfl⟩ := mem_of_perm_ofFn hp ha
    exact PlainKeys.closing h v
  simp only [List.mem_append, not_or]
  refine ⟨⟨⟨⟨⟨⟨⟨⟨⟨by decide, key a₀ (by simp)⟩, by decide⟩, key a₁ (by simp)⟩, by decide⟩, key a₂ (by simp)⟩, by decide⟩,
    key a₃ (by simp)⟩, by decide⟩, not_mem_decimalInt (by decide) (by decide)⟩

theorem cellLine_head {t : Stored} {c : Fin t.nc} {line : Bytes} (hl : IsCellLine t c line) : line.head? = some 99#8 := by
  obtain ⟨a₀, a₁, a₂, a₃, hp, -, -, -, rfl⟩ := hl
  simp only [List.append_assoc]
  rfl

theorem cellLine_inj {t t' : Stored} (h : PlainKeys t) (h' : PlainKeys t') {c : Fin t.nc} {c' : Fin t'.nc} {line : Bytes}
    (hl : IsCellLine t c line) (hl' : IsCellLine t' c' line) :
    (List.ofFn fun i => t'.key (t'.corner c' i)).Perm (List.ofFn fun i => t.key (t.corner c i)) ∧ t'.cinfo c' = t.cinfo c := by
  obtain ⟨a₀, a₁, a₂, a₃, hp, -, -, -, he⟩ := hl
  obtain ⟨b₀, b₁, b₂, b₃, hq, -, -, -, he'⟩ := hl'
  rw [he] at he'
  have ka : ∀ a ∈ [a₀, a₁, a₂, a₃], semicolon ∉ a ∧ colon ∉ a := by
    intro a ha
    obtain ⟨v, rfl⟩ := mem_of_perm_ofFn hp ha
    exact ⟨PlainKeys.semicolon h v, PlainKeys.colon h v⟩
  have kb : ∀ a ∈ [b₀, b₁, b₂, b₃], semicolon ∉ a ∧ colon ∉ a := by
    intro a ha
    obtain ⟨v, rfl⟩ := mem_of_perm_ofFn hq ha
    exact ⟨PlainKeys.semicolon h' v, PlainKeys.colon h' v⟩
  simp only [List.append_assoc, ascii_colon, ascii_semicolon, List.singleton_append] at he'
  obtain ⟨e0, he'⟩ := append_sep_inj (ka a₀ (by simp)).1 (kb b₀ (by simp)).1 (List.append_cancel_left he')
  obtain ⟨e1, he'⟩ := append_sep_inj (ka a₁ (by simp)).1 (kb b₁ (by simp)).1 he'
  obtain ⟨e2, he'⟩ := append_sep_inj (ka a₂ (by simp)).1 (kb b₂ (by simp)).1 he'
  obtain ⟨e3, e4⟩ := append_sep_inj (ka a₃ (by simp)).2 (kb b₃ (by simp)).2 he'
  subst e0 e1 e2 e3
  exact ⟨hq.symm.trans hp, (decimalInt_injective e4).symm⟩

theorem samePoints_of_perm {t t' : Stored} (h : PlainKeys t) (h' : PlainKeys t')
    (hp : (List.ofFn (vertexLine t')).Perm (List.ofFn (vertexLine t))) : Nonempty (SamePoints t t') := by
  obtain ⟨e, he⟩ := equiv_of_perm _ _ hp
  exact ⟨⟨e, fun v => (vertexLine_inj h' h (he v)).1, fun v => (vertexLine_inj h' h (he v)).2⟩⟩

theorem placementText_determines {t t' : Stored} (h : PlainKeys t) (h' : PlainKeys t') {text : Bytes}
    (ht : PlacementText t text) (ht' : PlacementText t' text) : Nonempty (SamePoints t t') := by
  obtain ⟨l, -, hp, rfl⟩ := ht
  obtain ⟨l', -, hp', he⟩ := ht'
  have e : l = l' := by
    refine closedLines_inj ?_ ?_ he
    · intro r hr
      obtain ⟨v, rfl⟩ := List.mem_ofFn.1 (hp.mem_iff.1 hr)
      exact vertexLine_closing h v
    · intro r hr
      obtain ⟨v, rfl⟩ := List.mem_ofFn.1 (hp'.mem_iff.1 hr)
      exact vertexLine_closing h' v
  subst e
  exact samePoints_of_perm h h' (hp'.symm.trans hp)

theorem byPoint_determines {t t' : Stored} (h : PlainKeys t) (h' : PlainKeys t') (hd : Function.Injective t.key)
    {f : Fin t.nc → Bytes} {f' : Fin t'.nc → Bytes} (hc : ∀ c, IsCellLine t c (f c)) (hc' : ∀ c, IsCellLine t' c (f' c))
    (hp : (List.ofFn (vertexLine t') ++ List.ofFn f').Perm (List.ofFn (vertexLine t) ++ List.ofFn f)) :
    Nonempty (Reordering t t') := by
  have part : ∀ (p : Bytes → Bool), ((List.ofFn (vertexLine t') ++ List.ofFn f').filter p).Perm
      ((List.ofFn (vertexLine t) ++ List.ofFn f).filter p) := fun p => hp.filter p
  have vs : ∀ (t : Stored) (f : Fin t.nc → Bytes), (∀ c, IsCellLine t c (f c)) →
      (List.ofFn (vertexLine t) ++ List.ofFn f).filter (fun l => decide (l.head? = some 118#8)) = List.ofFn (vertexLine t) ∧
      (List.ofFn (vertexLine t) ++ List.ofFn f).filter (fun l => decide (l.head? = some 99#8)) = List.ofFn f := by
    intro t f hf
    rw [List.filter_append, List.filter_append]
    constructor
    · rw [List.filter_eq_self.2, List.filter_eq_nil_iff.2, List.append_nil]
      · intro a ha
        obtain ⟨c, rfl⟩ := List.mem_ofFn.1 ha
        rw [cellLine_head (hf c)]
        decide
      · intro a ha
        obtain ⟨c, rfl⟩ := List.mem_ofFn.1 ha
        rw [vertexLine_head]
        decide
    · rw [List.filter_eq_nil_iff.2, List.filter_eq_self.2, List.nil_append]
      · intro a ha
        obtain ⟨c, rfl⟩ := List.mem_ofFn.1 ha
        rw [cellLine_head (hf c)]
        decide
      · intro a ha
        obtain ⟨c, rfl⟩ := List.mem_ofFn.1 ha
        rw [vertexLine_head]
        decide
  have pv := part fun l => decide (l.head? = some 118#8)
  have pc := part fun l => decide (l.head? = some 99#8)
  rw [(vs t f hc).1, (vs t' f' hc').1] at pv
  rw [(vs t f hc).2, (vs t' f' hc').2] at pc
  obtain ⟨⟨e, k1, k2⟩⟩ := samePoints_of_perm h h' pv
  obtain ⟨ec, hec⟩ := equiv_of_perm _ _ pc
  have cells := fun c' => cellLine_inj h h' (hc (ec c')) (hec c' ▸ hc' c')
  have within : ∀ c', ∃ w : Equiv.Perm (Fin 4), ∀ i, e (t'.corner c' i) = t.corner (ec c') (w i) := by
    intro c'
    obtain ⟨w, hw⟩ := equiv_of_perm _ _ (cells c').1
    exact ⟨w, fun i => hd (by rw [← k1]; exact hw i)⟩
  choose w hw using within
  exact ⟨⟨e, ec, w, k1, k2, fun c => (cells c).2, hw⟩⟩

/-! ### Incidence lines -/

theorem nodeBase_closing {t : Stored} (h : PlainKeys t) (x : Node t) : 255#8 ∉ nodeBase t x := by
  cases x with
  | inl v => exact vertexLine_closing h v
  | inr c =>
    simp only [nodeBase, List.mem_append, not_or]
    exact ⟨by decide, not_mem_decimalInt (by decide) (by decide)⟩

theorem not_mem_decimal {n : ℕ} {b : Byte} (h' : ¬ (48 ≤ b.toNat ∧ b.toNat ≤ 57)) : b ∉ decimal n :=
  fun hm => h' (mem_decimal hm)

theorem nodeLine_closing {t : Stored} (h : PlainKeys t) (number : Node t → ℕ) (x : Node t) : 255#8 ∉ nodeLine t number x := by
  unfold nodeLine
  simp only [List.mem_append, not_or, List.mem_flatMap, not_exists, not_and]
  exact ⟨⟨⟨⟨not_mem_decimal (by decide), by decide⟩, nodeBase_closing h x⟩, by decide⟩,
    fun k _ => ⟨not_mem_decimal (by decide), by decide⟩⟩

theorem numbers_inj {l l' : List ℕ} (h : (l.flatMap fun k => decimal k ++ ascii ";") = l'.flatMap fun k => decimal k ++ ascii ";") :
    l = l' := by
  induction l generalizing l' with
  | nil =>
    cases l' with
    | nil => rfl
    | cons a l' => simp [ascii_semicolon] at h
  | cons a l ih =>
    cases l' with
    | nil => simp [ascii_semicolon] at h
    | cons b l' =>
      simp only [List.flatMap_cons, List.append_assoc, ascii_semicolon, List.singleton_append] at h
      obtain ⟨h1, h2⟩ := append_sep_inj (not_mem_decimal (by decide)) (not_mem_decimal (by decide)) h
      rw [decimal_injective h1, ih (by simpa only [ascii_semicolon] using h2)]

theorem nodeLine_inj {t t' : Stored} {number : Node t → ℕ} {number' : Node t' → ℕ} {x : Node t} {x' : Node t'}
    (h : nodeLine t number x = nodeLine t' number' x') :
    nodeBase t x = nodeBase t' x' ∧ (neighbours t x).map number = (neighbours t' x').map number' := by
  unfold nodeLine at h
  simp only [List.append_assoc, ascii_colon, List.singleton_append] at h
  obtain ⟨h1, h2⟩ := append_sep_inj (not_mem_decimal (by decide)) (not_mem_decimal (by decide)) h
  obtain ⟨h3, h4⟩ := List.append_inj h2 (decimal_injective h1)
  have h5 := numbers_inj (List.append_cancel_left h4)
  refine ⟨h3, ?_⟩
  have := congrArg (fun l : List ℕ => (l : Multiset ℕ)) h5
  simpa only [Multiset.sort_eq] using this

theorem nodeBase_kind {t t' : Stored} {v : Fin t.nv} {c : Fin t'.nc} : nodeBase t (.inl v) ≠ nodeBase t' (.inr c) := by
  intro h
  have := congrArg List.head? h
  rw [show nodeBase t (.inl v) = vertexLine t v from rfl, vertexLine_head] at this
  revert this
  simp only [nodeBase]
  intro h
  exact absurd (Option.some.inj (h.trans rfl : _ = some 99#8)) (by decide)

/-- A bijection of sums that respects the sides. -/
theorem sum_sides {α β α' β' : Type} (e : α' ⊕ β' ≃ α ⊕ β) (hl : ∀ a, ∃ b, e (.inl a) = .inl b)
    (hr : ∀ a, ∃ b, e (.inr a) = .inr b) :
    ∃ (f : α' ≃ α) (g : β' ≃ β), (∀ a, e (.inl a) = .inl (f a)) ∧ ∀ b, e (.inr b) = .inr (g b) := by
  choose f hf using hl
  choose g hg using hr
  have f1 : f.Injective := fun a b h => by
    have := e.injective ((hf a).trans ((congrArg Sum.inl h).trans (hf b).symm))
    exact Sum.inl.inj this
  have g1 : g.Injective := fun a b h => by
    have := e.injective ((hg a).trans ((congrArg Sum.inr h).trans (hg b).symm))
    exact Sum.inr.inj this
  have f2 : f.Surjective := fun b => by
    rcases hx : e.symm (.inl b) with a | a
    · have := (hf a).symm.trans (congrArg e hx.symm)
      rw [Equiv.apply_symm_apply] at this
      exact ⟨a, Sum.inl.inj this⟩
    · have := (hg a).symm.trans (congrArg e hx.symm)
      rw [Equiv.apply_symm_apply] at this
      cases this
  have g2 : g.Surjective := fun b => by
    rcases hx : e.symm (.inr b) with a | a
    · have := (hf a).symm.trans (congrArg e hx.symm)
      rw [Equiv.apply_symm_apply] at this
      cases this
    · have := (hg a).symm.trans (congrArg e hx.symm)
      rw [Equiv.apply_symm_apply] at this
      exact ⟨a, Sum.inr.inj this⟩
  exact ⟨.ofBijective f ⟨f1, f2⟩, .ofBijective g ⟨g1, g2⟩, hf, hg⟩

theorem univ_map_ofFn {α : Type} (f : Fin 4 → α) : (Finset.univ.val : Multiset (Fin 4)).map f = (List.ofFn f : Multiset α) := by
  rw [List.ofFn_eq_map]
  rfl

theorem byIncidence_determines {t t' : Stored} (h : PlainKeys t) (h' : PlainKeys t')
    (number : Node t ≃ Fin (t.nv + t.nc)) (number' : Node t' ≃ Fin (t'.nv + t'.nc))
    (hl : (List.ofFn fun k => nodeLine t (fun x => number x) (number.symm k)) =
      List.ofFn fun k => nodeLine t' (fun x => number' x) (number'.symm k)) : Nonempty (Reordering t t') := by
  have hn : t'.nv + t'.nc = t.nv + t.nc := by simpa using (congrArg List.length hl).symm
  let e : Node t' ≃ Node t := number'.trans ((finCongr hn).trans number.symm)
  have he : ∀ x, ((number (e x) : Fin _) : ℕ) = (number' x : Fin _) := by
    intro x
    simp [e]
  have line : ∀ x, nodeLine t' (fun x => number' x) x = nodeLine t (fun x => number x) (e x) := by
    intro x
    have h1 := congrArg (fun l : List Bytes => l[((number' x : Fin _) : ℕ)]?) hl
    rw [List.getElem?_eq_getElem (by simpa using by omega), List.getElem?_eq_getElem (by simp)] at h1
    simp only [List.getElem_ofFn, Option.some.injEq, Fin.eta, Equiv.symm_apply_apply] at h1
    rw [← h1]
    rfl
  have base : ∀ x, nodeBase t' x = nodeBase t (e x) := fun x => (nodeLine_inj (line x)).1
  have nb : ∀ x, (neighbours t' x).map e = neighbours t (e x) := by
    intro x
    have h1 := (nodeLine_inj (line x)).2
    have h2 : ((neighbours t' x).map e).map (fun y => (number y : ℕ)) = (neighbours t (e x)).map fun y => (number y : ℕ) := by
      rw [← h1, Multiset.map_map]
      exact Multiset.map_congr rfl fun y _ => he y
    exact Multiset.map_injective (fun a b hab => number.injective (Fin.ext hab)) h2
  obtain ⟨f, g, hf, hg⟩ := sum_sides e
    (fun v => by
      have := base (.inl v)
      rcases hx : e (.inl v) with b | b
      · exact ⟨b, rfl⟩
      · rw [hx] at this; exact absurd this nodeBase_kind)
    (fun c => by
      have := base (.inr c)
      rcases hx : e (.inr c) with b | b
      · rw [hx] at this; exact absurd this.symm nodeBase_kind
      · exact ⟨b, rfl⟩)
  have vl : ∀ v, t'.key v = t.key (f v) ∧ t'.vinfo v = t.vinfo (f v) := by
    intro v
    have := base (.inl v)
    rw [hf] at this
    exact vertexLine_inj h' h this
  have cl : ∀ c, t'.cinfo c = t.cinfo (g c) := by
    intro c
    have := base (.inr c)
    rw [hg] at this
    exact decimalInt_injective (List.append_cancel_left this)
  have within : ∀ c', ∃ w : Equiv.Perm (Fin 4), ∀ i, f (t'.corner c' i) = t.corner (g c') (w i) := by
    intro c'
    have h1 := nb (.inr c')
    rw [hg] at h1
    simp only [neighbours, Multiset.map_map, Function.comp, hf] at h1
    have h3 : ((Finset.univ.val : Multiset (Fin 4)).map fun i => f (t'.corner c' i)).map (Sum.inl : _ → Node t) =
        ((Finset.univ.val : Multiset (Fin 4)).map fun i => t.corner (g c') i).map Sum.inl := by
      rw [Multiset.map_map, Multiset.map_map]; exact h1
    have h2 := Multiset.map_injective Sum.inl_injective h3
    rw [univ_map_ofFn, univ_map_ofFn, Multiset.coe_eq_coe] at h2
    exact equiv_of_perm _ _ h2
  choose w hw using within
  exact ⟨⟨f, g, w, fun v => (vl v).1, fun v => (vl v).2, cl, hw⟩⟩

theorem nodeLine_head (t : Stored) (number : Node t → ℕ) (x : Node t) :
    ∃ b, (nodeLine t number x).head? = some b ∧ 48 ≤ b.toNat ∧ b.toNat ≤ 57 := by
  unfold nodeLine
  obtain ⟨b, rest, hbr⟩ := List.exists_cons_of_ne_nil (decimal_ne_nil (nodeBase t x).length)
  refine ⟨b, ?_, mem_decimal (n := (nodeBase t x).length) (by rw [hbr]; exact .head _)⟩
  simp only [List.append_assoc, hbr]
  rfl

theorem topologyText_mixed {t t' : Stored} (h : PlainKeys t) (h' : PlainKeys t') {f : Fin t.nc → Bytes} (hc : ∀ c, IsCellLine t c (f c))
    {lines : List Bytes} (hp : lines.Perm (List.ofFn (vertexLine t) ++ List.ofFn f)) (hco : ¬ Function.Injective t'.key)
    (number' : Node t' ≃ Fin (t'.nv + t'.nc)) :
    closedLines lines ≠ closedLines (List.ofFn fun k => nodeLine t' (fun x => number' x) (number'.symm k)) := by
  have line : ∀ r ∈ lines, 255#8 ∉ r ∧ (r.head? = some 118#8 ∨ r.head? = some 99#8) := by
    intro r hr
    rcases List.mem_append.1 (hp.mem_iff.1 hr) with hr | hr
    · obtain ⟨v, rfl⟩ := List.mem_ofFn.1 hr
      exact ⟨vertexLine_closing h v, .inl (vertexLine_head t v)⟩
    · obtain ⟨c, rfl⟩ := List.mem_ofFn.1 hr
      exact ⟨cellLine_closing h (hc c), .inr (cellLine_head (hc c))⟩
  intro he
  have e := closedLines_inj (fun r hr => (line r hr).1) (fun r hr => by
    obtain ⟨k, rfl⟩ := List.mem_ofFn.1 hr
    exact nodeLine_closing h' _ _) he
  have hv : 0 < t'.nv := by
    by_contra hz
    refine hco fun a => ?_
    have := a.isLt
    omega
  have hm : nodeLine t' (fun x => number' x) (.inl ⟨0, hv⟩) ∈ lines := by
    rw [e]
    exact List.mem_ofFn.2 ⟨number' (.inl ⟨0, hv⟩), by simp⟩
  obtain ⟨b, hb, h1, h2⟩ := nodeLine_head t' (fun x => number' x) (.inl ⟨0, hv⟩)
  rcases (line _ hm).2 with h3 | h3
  · rw [hb] at h3
    cases Option.some.inj h3
    exact absurd h2 (by decide)
  · rw [hb] at h3
    cases Option.some.inj h3
    exact absurd h2 (by decide)

theorem topologyText_determines {t t' : Stored} (h : PlainKeys t) (h' : PlainKeys t') {text : Bytes}
    (ht : TopologyText t text) (ht' : TopologyText t' text) : Nonempty (Reordering t t') := by
  cases ht with
  | byPoint hd f lines hc _ hp he =>
    cases ht' with
    | byPoint hd' f' lines' hc' _ hp' he' =>
      have closing : ∀ {t : Stored} (_ : PlainKeys t) {f : Fin t.nc → Bytes} (_ : ∀ c, IsCellLine t c (f c)) {lines : List Bytes}
          (_ : lines.Perm (List.ofFn (vertexLine t) ++ List.ofFn f)), ∀ r ∈ lines, 255#8 ∉ r := by
        intro t h f hc lines hp r hr
        rcases List.mem_append.1 (hp.mem_iff.1 hr) with hr | hr
        · obtain ⟨v, rfl⟩ := List.mem_ofFn.1 hr
          exact vertexLine_closing h v
        · obtain ⟨c, rfl⟩ := List.mem_ofFn.1 hr
          exact cellLine_closing h (hc c)
      have e := closedLines_inj (closing h hc hp) (closing h' hc' hp') (he.symm.trans he')
      subst e
      exact byPoint_determines h h' hd hc hc' (hp'.symm.trans hp)
    | byIncidence hco number' he' => exact absurd (he.symm.trans he') (topologyText_mixed h h' hc hp hco number')
  | byIncidence hco number he =>
    cases ht' with
    | byPoint hd' f' lines' hc' _ hp' he' => exact absurd (he'.symm.trans he) (topologyText_mixed h' h hc' hp' hco number)
    | byIncidence hco' number' he' =>
      refine byIncidence_determines h h' number number' (closedLines_inj ?_ ?_ (he.symm.trans he'))
      · intro r hr
        obtain ⟨k, rfl⟩ := List.mem_ofFn.1 hr
        exact nodeLine_closing h _ _
      · intro r hr
        obtain ⟨k, rfl⟩ := List.mem_ofFn.1 hr
        exact nodeLine_closing h' _ _

/-! ### The fingerprints are digests of these texts -/

theorem not_coincident_iff (t : Stored) : t.hasCoincidentVertices = false ↔ Function.Injective t.key := by
  simp only [Stored.hasCoincidentVertices, Bool.not_eq_false', decide_eq_true_eq]
  exact List.nodup_ofFn

theorem placementFingerprint_text (t : Stored) : ∃ x, PlacementText t x ∧ placementFingerprint t = fnv1a x :=
  ⟨_, ⟨_, sorted_pairwise _, sorted_perm _, rfl⟩, fingerprintRecords_eq _⟩

theorem cellRecord_line (t : Stored) (c : Fin t.nc) : IsCellLine t c (t.cellRecord c) := by
  have hp := sorted_perm (List.ofFn fun i => t.key (t.corner c i))
  have hs := sorted_pairwise (List.ofFn fun i => t.key (t.corner c i))
  unfold Stored.cellRecord Stored.pointCellKey
  generalize sorted (List.ofFn fun i => t.key (t.corner c i)) = l at hp hs ⊢
  have hl : l.length = 4 := by rw [hp.length_eq]; simp
  obtain ⟨a, b, d, e, rfl⟩ : ∃ a b d e, l = [a, b, d, e] := by
    match l, hl with
    | [a, b, d, e], _ => exact ⟨a, b, d, e, rfl⟩
  simp only [List.pairwise_cons, List.mem_cons, List.not_mem_nil, or_false, forall_eq_or_imp, forall_eq] at hs
  refine ⟨a, b, d, e, hp, hs.1.1, hs.2.1.1, hs.2.2.1, ?_⟩
  simp [List.intercalate, ascii_colon, ascii_semicolon]

theorem searchLoop_leaf {n : ℕ} {recurse : Fin n → ℕ → Except Exc (List Bytes × ℕ)} {P : List Bytes → Prop}
    (hrec : ∀ node b R b', recurse node b = .ok (R, b') → P R) :
    ∀ (nodes : List (Fin n)) (best : Option (List Bytes)) (b : ℕ) {r : Option (List Bytes)} {b' : ℕ},
      (∀ x ∈ best, P x) → searchLoop recurse nodes best b = .ok (r, b') →
      (∀ x ∈ r, P x) ∧ (nodes ≠ [] ∨ best.isSome = true → r.isSome = true)
  | [], best, b, r, b', hb, h => by
    simp only [searchLoop, Except.ok.injEq, Prod.mk.injEq] at h
    obtain ⟨rfl, rfl⟩ := h
    exact ⟨hb, fun h => h.elim (fun h => absurd rfl h) id⟩
  | node :: rest, best, b, r, b', hb, h => by
    simp only [searchLoop, bind, Except.bind] at h
    cases hr : recurse node b with
    | error e => rw [hr] at h; cases h
    | ok x =>
      obtain ⟨cand, b₁⟩ := x
      rw [hr] at h
      have hs : (better best cand).isSome = true := by
        unfold better
        split
        · rfl
        · split <;> rfl
      have hbb : ∀ x ∈ better best cand, P x := by
        intro x hx
        have hc := hrec _ _ _ _ hr
        unfold better at hx
        split at hx
        · cases Option.some.inj hx; exact hc
        · split at hx
          · cases Option.some.inj hx; exact hc
          · cases Option.some.inj hx; exact hb _ rfl
      obtain ⟨h1, h2⟩ := searchLoop_leaf hrec rest _ b₁ hbb h
      exact ⟨h1, fun _ => h2 (.inr hs)⟩

/-- What the search returns are the records of a numbering. -/
theorem search_leaf {n : ℕ} (bases : Fin n → Bytes) (adj : Fin n → List (Fin n)) :
    ∀ (depth : ℕ) (colors : Fin n → ℕ) (b : ℕ) (R : List Bytes) (b' : ℕ),
      incidenceSearch bases adj depth colors b = .ok (R, b') →
      ∃ c : Fin n → ℕ, Function.Injective c ∧ (∀ i, c i < n) ∧ R = incidenceRecords bases adj c
  | 0, colors, b, R, b', h => by simp [incidenceSearch] at h
  | depth + 1, colors, b, R, b', h => by
    unfold incidenceSearch at h
    simp only [bind, Except.bind] at h
    cases h0 : consumeWork b with
    | error e => rw [h0] at h; cases h
    | ok b₀ =>
      rw [h0] at h
      dsimp only at h
      cases h1 : refineColors adj colors b₀ with
      | error e => rw [h1] at h; cases h
      | ok x =>
        obtain ⟨c, b₁⟩ := x
        rw [h1] at h
        dsimp only at h
        split at h
        · cases h
        · rename_i hlt
          simp only [not_exists, not_le] at hlt
          cases ha : ambiguousColor c with
          | none =>
            rw [ha] at h
            simp only [Except.ok.injEq, Prod.mk.injEq] at h
            exact ⟨c, colors_injective hlt ha, hlt, h.1.symm⟩
          | some a =>
            rw [ha] at h
            dsimp only at h
            cases hl : searchLoop (fun node b => incidenceSearch bases adj depth (individualize c node) b)
                ((List.finRange n).filter fun i => c i = a) none b₁ with
            | error e => rw [hl] at h; cases h
            | ok x =>
              obtain ⟨best, b₂⟩ := x
              rw [hl] at h
              simp only [Except.ok.injEq, Prod.mk.injEq] at h
              obtain ⟨h2, h3⟩ := searchLoop_leaf (P := fun R => ∃ c : Fin n → ℕ, Function.Injective c ∧ (∀ i, c i < n) ∧
                R = incidenceRecords bases adj c) (fun node b R b' => search_leaf bases adj depth _ b R b') _ none b₁
                (by simp) hl
              have hne : ((List.finRange n).filter fun i => decide (c i = a)) ≠ [] := by
                have := List.find?_some ha
                simp only [decide_eq_true_eq] at this
                have := (List.countP_pos_iff (p := fun i => decide (c i = a)) (l := List.finRange n)).1 (by omega)
                obtain ⟨i, hi, hia⟩ := this
                intro hn
                have : i ∈ (List.finRange n).filter fun i => decide (c i = a) := List.mem_filter.2 ⟨hi, hia⟩
                rw [hn] at this
                cases this
              obtain ⟨R', hR'⟩ := Option.isSome_iff_exists.1 (h3 (.inl hne))
              rw [hR'] at h
              rw [← h.1]
              exact h2 R' (by rw [hR']; rfl)

theorem incidenceRecords_ofFn {n : ℕ} (bases : Fin n → Bytes) (adj : Fin n → List (Fin n)) {c : Fin n → ℕ}
    (hi : Function.Injective c) (e : Fin n ≃ Fin n) (he : ∀ i, (e i : ℕ) = c i) :
    incidenceRecords bases adj c = List.ofFn fun k => incidenceRecord bases adj c (e.symm k) := by
  unfold incidenceRecords
  have : ∀ k ∈ List.range n, (((List.finRange n).find? fun i => decide (c i = k)).map (incidenceRecord bases adj c)) =
      if h : k < n then some (incidenceRecord bases adj c (e.symm ⟨k, h⟩)) else none := by
    intro k hk
    have hk := List.mem_range.1 hk
    rw [dif_pos hk]
    have : k = c (e.symm ⟨k, hk⟩) := by rw [← he]; simp
    conv_lhs => rw [this]
    rw [find_color hi]
    rfl
  rw [List.filterMap_congr this]
  apply List.ext_getElem?
  intro k
  have e1 : ((List.range n).filterMap fun k => if h : k < n then some (incidenceRecord bases adj c (e.symm ⟨k, h⟩)) else none) =
      (List.finRange n).map fun k => incidenceRecord bases adj c (e.symm k) := by
    rw [← List.map_coe_finRange_eq_range, List.filterMap_map]
    rw [← List.filterMap_eq_map]
    refine List.filterMap_congr fun k _ => ?_
    simp [k.isLt]
  rw [e1, List.ofFn_eq_map]

theorem sorted_eq_sort (l : List ℕ) : sorted l = ((l : Multiset ℕ)).sort (· ≤ ·) := by
  refine List.Perm.eq_of_pairwise (le := (· ≤ ·)) (fun a b _ _ h₁ h₂ => le_antisymm h₁ h₂) (sorted_pairwise l)
    (Multiset.pairwise_sort _ _) ?_
  refine (sorted_perm l).trans ?_
  rw [← Multiset.coe_eq_coe, Multiset.sort_eq]

theorem adjacency_neighbours (t : Stored) (x : Node t) :
    (t.adjacency (finSumFinEquiv x) : Multiset (Fin (t.nv + t.nc))) = (neighbours t x).map finSumFinEquiv := by
  cases x with
  | inl v =>
    rw [finSumFinEquiv_apply_left, Stored.adjacency_vertex]
    simp only [neighbours, Multiset.map_map, Function.comp_def, finSumFinEquiv_apply_right]
    rw [← Multiset.map_coe]
    refine Eq.trans (congrArg (Multiset.map (Fin.natAdd t.nv)) ?_)
      (Multiset.map_map (Fin.natAdd t.nv) (fun p : Fin t.nc × Fin 4 => p.1) _)
    unfold Stored.star
    have : (Finset.univ : Finset (Fin t.nc × Fin 4)).val = ((List.finRange t.nc ×ˢ List.finRange 4 : List _) : Multiset _) := by
      rw [← Multiset.coe_product]; rfl
    rw [Finset.filter_val, this, Multiset.filter_coe, Multiset.map_coe, Multiset.coe_eq_coe]
    refine .of_eq ?_
    show _ = ((List.flatMap (fun c => (List.finRange 4).map (Prod.mk c)) (List.finRange t.nc)).filter _).map Prod.fst
    rw [List.filter_flatMap, List.map_flatMap]
    refine List.flatMap_congr fun c _ => ?_
    rw [List.filter_map, List.map_map]
    rfl
  | inr c =>
    rw [finSumFinEquiv_apply_right, Stored.adjacency_cell]
    simp only [neighbours, Multiset.map_map, Function.comp_def, finSumFinEquiv_apply_left]
    rw [univ_map_ofFn, List.map_ofFn]
    rfl

theorem incidenceRecord_line (t : Stored) (number : Node t ≃ Fin (t.nv + t.nc)) (c : Fin (t.nv + t.nc) → ℕ)
    (hc : ∀ x, c (finSumFinEquiv x) = number x) (x : Node t) :
    incidenceRecord t.bases t.adjacency c (finSumFinEquiv x) = nodeLine t (fun x => number x) x := by
  have hb : t.bases (finSumFinEquiv x) = nodeBase t x := by
    cases x with
    | inl v => rw [finSumFinEquiv_apply_left, Stored.bases_vertex]; rfl
    | inr c => rw [finSumFinEquiv_apply_right, Stored.bases_cell]; rfl
  unfold incidenceRecord nodeLine
  rw [hb, sorted_eq_sort, ← Multiset.map_coe, adjacency_neighbours, Multiset.map_map]
  simp only [Function.comp_def, hc]
  rfl

theorem topologyFingerprint_text {t : Stored} {d : BitVec 64} (h : topologyFingerprint t = .ok d) :
    ∃ x, TopologyText t x ∧ d = fnv1a x := by
  unfold topologyFingerprint at h
  cases hco : t.hasCoincidentVertices with
  | false =>
    rw [hco] at h
    cases h
    refine ⟨_, .byPoint ((not_coincident_iff t).1 hco) t.cellRecord _ (cellRecord_line t) (sorted_pairwise _) ?_ rfl, fingerprintRecords_eq _⟩
    exact (sorted_perm _).trans ((sorted_perm _).append_right _)
  | true =>
    rw [hco, if_pos rfl] at h
    have hni : ¬ Function.Injective t.key := by
      intro hi
      rw [(not_coincident_iff t).2 hi] at hco
      cases hco
    have hv : t.nv + t.nc ≠ 0 := by
      intro hz
      exact hni fun a => by have := a.isLt; omega
    unfold incidenceTopologyRecords at h
    rw [if_neg hv] at h
    cases hs : incidenceSearch t.bases t.adjacency (canonicalIncidenceWorkBudget + 1) (canonicalColors t.bases)
        canonicalIncidenceWorkBudget with
    | error e => rw [hs] at h; cases h
    | ok x =>
      obtain ⟨R, b⟩ := x
      rw [hs] at h
      cases h
      obtain ⟨c, hi, hlt, rfl⟩ := search_leaf _ _ _ _ _ _ _ hs
      let e : Fin (t.nv + t.nc) ≃ Fin (t.nv + t.nc) := Equiv.ofBijective (fun i => ⟨c i, hlt i⟩)
        (Finite.injective_iff_bijective.1 fun a b hab => hi (congrArg Fin.val hab))
      refine ⟨_, .byIncidence hni (finSumFinEquiv.trans e) rfl, ?_⟩
      rw [fingerprintRecords_eq, incidenceRecords_ofFn _ _ hi e fun _ => rfl]
      congr 2
      refine congrArg List.ofFn (funext fun k => ?_)
      have := incidenceRecord_line t (finSumFinEquiv.trans e) c (fun _ => rfl) ((finSumFinEquiv.trans e).symm k)
      rw [← this]
      simp

end CDT

import Verif.Lemmas.Trailer

namespace CDT.Props
open CDT Spec

/-- C52: reading the trailer just written for any triangulation restores every label, negative
values included, and leaves whatever follows unread. -/
theorem C52_round_trip {info : CausalInfo} (hl : Labels32 info)
    (hv : info.vertices.length < 2 ^ 64) (hc : info.cells.length < 2 ^ 64) (rest : Bytes) :
    readCausalInfo info.vertices.length info.cells.length
      (skipSpace (writeCausalInfo info ++ rest)) = .ok (info, rest) :=
  readCausalInfo_iff.2 ⟨rfl, rfl, trailerFor_write hl hv hc rest⟩

example : Labels32 ⟨[1, -2147483648, 2147483647], [31, -7]⟩ := by unfold Labels32; decide
example : readCausalInfo 3 2
    (skipSpace (writeCausalInfo ⟨[1, -2147483648, 2147483647], [31, -7]⟩ ++ ascii "x")) =
      .ok (⟨[1, -2147483648, 2147483647], [31, -7]⟩, ascii "x") := by decide +kernel

/-- C52: a trailer is accepted for a triangulation with the given counts exactly when it is a
complete well-formed trailer with those counts: header, count lines, and for vertices and cells
exactly one record per index; the labels returned are the recorded ones. -/
theorem C52_accepts_iff (vertexCount cellCount : ℕ) (input rest : Bytes) (info : CausalInfo) :
    readCausalInfo vertexCount cellCount input = .ok (info, rest) ↔
      info.vertices.length = vertexCount ∧ info.cells.length = cellCount ∧
        TrailerFor input info rest :=
  readCausalInfo_iff

-- Records may come in any order, with redundant zeros and without a final newline.
example : readCausalInfo 2 1
    (ascii "cdt-plusplus-causal-info-v2\nvertices=2\nv=1|-5\nv=00|3\ncells=01\nc=0|31") =
      .ok (⟨[3, -5], [31]⟩, []) := by decide +kernel

/-- C52: anything else is rejected with `filesystem_error`. -/
theorem C52_rejects_with_filesystem_error (vertexCount cellCount : ℕ) (input : Bytes)
    (h : ¬ ∃ info rest, info.vertices.length = vertexCount ∧ info.cells.length = cellCount ∧
      TrailerFor input info rest) :
    readCausalInfo vertexCount cellCount input = .error .filesystemError := by
  cases hr : readCausalInfo vertexCount cellCount input with
  | error e => rw [fsOnly_causal _ _ _ e hr]
  | ok p => exact absurd ⟨p.1, p.2, readCausalInfo_iff.1 hr⟩ h

-- Duplicated, missing, out-of-range, mis-counted, malformed.
example : ∀ s ∈ ["vertices=2\nv=0|1\nv=0|1\ncells=0\n", "vertices=2\nv=0|1\ncells=0\n",
    "vertices=2\nv=0|1\nv=2|1\ncells=0\n", "vertices=1\nv=0|1\ncells=0\n",
    "vertices=2\nv=0|1\nv=1|2147483648\ncells=0\n", "vertices=2\nv=0|1\nv=1|\ncells=0\n",
    "vertices=2\nv=0|1\nv=1|+1\ncells=0\n", "vertices=2\nv=0|1\nv=1|1 \ncells=0\n"],
    readCausalInfo 2 0 (ascii ("cdt-plusplus-causal-info-v2\n" ++ s)) =
      .error .filesystemError := by decide +kernel

/-- C52: when the vertex lines name some list of indices, acceptance forces that list to be a
permutation of all indices (no duplicate, no gap, nothing out of range) and every label to be the
recorded one. -/
theorem C52_accepted_indices {vertexCount cellCount : ℕ} {input rest : Bytes} {info : CausalInfo}
    (h : readCausalInfo vertexCount cellCount input = .ok (info, rest))
    {countLine : Bytes} {lines : List Bytes} {more : Bytes} {records : List (ℕ × ℤ)}
    (hlines : BeginsWithLines input (causalHeader :: countLine :: lines) more)
    (hcount : lines.length = vertexCount)
    (hrec : List.Forall₂ (fun line (p : ℕ × ℤ) => RecordLine (ascii "v=") line p.1 p.2) lines
      records) :
    (records.map Prod.fst).Perm (List.range vertexCount) ∧
      ∀ p ∈ records, info.vertices[p.1]? = some p.2 := by
  obtain ⟨rfl, -, vc, vl, cc, cl, hb, -, ⟨order, hperm, hf⟩, -⟩ := readCausalInfo_iff.1 h
  have hvl : vl.length = lines.length := by
    rw [hcount, hf.length_eq, hperm.length_eq]; simp
  have hb' : BeginsWithLines input ((causalHeader :: vc :: vl) ++ (cc :: cl)) rest := by
    simpa using hb
  obtain ⟨m, hb1, -⟩ := BeginsWithLines.append.1 hb'
  obtain ⟨e, -⟩ := BeginsWithLines.unique hlines hb1 (by simp [hvl])
  simp only [List.cons.injEq, true_and] at e
  obtain ⟨-, rfl⟩ := e
  have key : records.map Prod.fst = order ∧ ∀ p ∈ records, info.vertices[p.1]? = some p.2 := by
    clear hperm hb hb' hb1 hlines hcount hvl h
    induction hrec generalizing order with
    | nil => cases hf; simp
    | @cons line p lines records hr hrec ih =>
      cases hf with
      | @cons _ i _ order hx hf =>
        obtain ⟨v, hv, hline⟩ := hx
        obtain ⟨e1, e2⟩ := RecordLine.unique hr hline
        obtain ⟨ih1, ih2⟩ := ih order hf
        refine ⟨by simp [ih1, e1], ?_⟩
        intro q hq
        rcases List.mem_cons.1 hq with rfl | hq
        · rw [e1, e2]; exact hv
        · exact ih2 q hq
  exact ⟨key.1 ▸ hperm, key.2⟩

/-- C52: a trailer whose declared vertex count differs from the triangulation's is rejected. -/
theorem C52_rejects_count_mismatch {vertexCount cellCount n : ℕ} {input more countLine : Bytes}
    (hlines : BeginsWithLines input [causalHeader, countLine] more)
    (hcount : CountLine (ascii "vertices=") countLine n) (hne : n ≠ vertexCount) :
    readCausalInfo vertexCount cellCount input = .error .filesystemError := by
  apply C52_rejects_with_filesystem_error
  rintro ⟨info, rest, rfl, -, vc, vl, cc, cl, hb, hc, -⟩
  have hb' : BeginsWithLines input ([causalHeader, vc] ++ (vl ++ cc :: cl)) rest := by
    simpa using hb
  obtain ⟨m, hb1, -⟩ := BeginsWithLines.append.1 hb'
  obtain ⟨e, -⟩ := BeginsWithLines.unique hlines hb1 rfl
  simp only [List.cons.injEq, true_and, and_true] at e
  subst e
  exact hne (CountLine.unique hcount hc)

end CDT.Props

import Verif.Lemmas.StorageRead
import Verif.Lemmas.Text
/-
A small triangulation type with a faithful text form, for the examples: a point set without cells.
-/
namespace CDT.Fixture
open CDT Spec

/-- Decimal digit characters. -/
def isDigit (b : Byte) : Bool := decide (48 ≤ b.toNat ∧ b.toNat ≤ 57)

/-- Labels of isolated vertices at distinct places; the text form is the number of vertices. -/
def pointSet : Codec (List ℤ) where
  render l := decimal l.length
  parse input :=
    (parseUnsigned 10 (input.takeWhile isDigit)).map fun n =>
      (List.replicate n 0, input.dropWhile isDigit)
  relabel l info := if info.vertices.length = l.length then info.vertices else l
  view l := { nv := l.length, nc := 0, key := fun i => decimal i, vinfo := l.get,
              corner := Fin.elim0, cinfo := Fin.elim0 }
  dimension _ := 3
  edges _ := 0
  facets _ := 0
  tdsValid _ := true

theorem takeWhile_decimal (n : ℕ) (more : Bytes) :
    (decimal n ++ newline :: more).takeWhile isDigit = decimal n ∧
      (decimal n ++ newline :: more).dropWhile isDigit = newline :: more := by
  have h : ∀ l : Bytes, (∀ b ∈ l, isDigit b = true) →
      (l ++ newline :: more).takeWhile isDigit = l ∧
        (l ++ newline :: more).dropWhile isDigit = newline :: more := by
    intro l
    induction l with
    | nil => intro _; exact ⟨rfl, rfl⟩
    | cons a l ih =>
      intro hl
      obtain ⟨h1, h2⟩ := ih fun b hb => hl b (List.mem_cons_of_mem _ hb)
      have ha := hl a (List.mem_cons_self ..)
      rw [List.cons_append, List.takeWhile_cons_of_pos ha, List.dropWhile_cons_of_pos ha, h1, h2]
      exact ⟨rfl, rfl⟩
  exact h _ fun b hb => by have := mem_decimal hb; simp [isDigit, this]

theorem pointSet_faithful (l : List ℤ) (h : l.length < 2 ^ 64) : Faithful pointSet l where
  parse more := by
    refine ⟨List.replicate l.length 0, newline :: more, ?_, skipSpace_newline more, ?_, rfl, ?_⟩
    · simp only [pointSet, (takeWhile_decimal l.length more).1, (takeWhile_decimal l.length more).2,
        parseUnsigned_decimal h, Option.map_some]
    · simp [pointSet]
    · simp [pointSet, Codec.info]
  valid := rfl

theorem pointSet_injective (l : List ℤ) : Function.Injective (pointSet.view l).key := by
  intro i j h
  exact Fin.ext (decimal_injective h)

/-- Every operation succeeds. -/
def noFaults : ℕ → Fate := fun _ => ⟨true, true, true, [], none, []⟩

/-- A file system with the given payload and manifest. -/
def withArtifact (dest : Path) (payload manifest : Option Bytes) : Files :=
  fun p => if p = dest then payload else if p = manifestName dest then manifest else none

end CDT.Fixture

/-
What a user sees of a whole simulation: the sequence of manifolds it goes through.
-/
import Verif.Model.Simulation
import Verif.Spec.Sound

namespace CDT.Spec
open CDT

variable {V G M P F : Type}

/-- A manifold object in order: its triangulation is sound and its caches are those of its
triangulation. -/
structure Fit [LinearOrder V] (env : Env V G) (m : Mfld V) : Prop where
  sound : Sound env m.tri
  caches : buildCaches env m.tri = .ok m.caches

/-- No count of the geometry is within eight of the range of a 32-bit counter. -/
def Roomy (g : Geometry) : Prop :=
  ∀ n ∈ [g.N0, g.N1_SL, g.N1_TL, g.N3_13, g.N3_22, g.N3_31_13], n + 8 ≤ 2 ^ 31

/-- One transition of a run, as far as the manifold and the generator are concerned. -/
def advance (eng : MetroEngine M G P) (x : M × G) : M × G :=
  let v := (sampleTransition eng ⟨x.1, {}, {}, x.2⟩).2
  (v.current, v.gen)

/-- The manifold and generator after `k` transitions. -/
def trajectory (eng : MetroEngine M G P) (k : ℕ) (x : M × G) : M × G := (advance eng)^[k] x

/-- The number of transitions before pass `p` (counting from 0): every pass makes as many
transitions as its first manifold has tetrahedra. -/
def passStart (eng : MetroEngine M G P) (x : M × G) : ℕ → ℕ
  | 0 => 0
  | p + 1 => passStart eng x p + (eng.n3 (trajectory eng (passStart eng x p) x).1).toNat

/-- Outputs that neither throw nor touch the strategy's generator. -/
structure Harmless (out : MetroOutput M G F) : Prop where
  report : ∀ m c s g f, ∃ f', out.report m c s (g, f) = (.ok (), (g, f'))
  checkpoint : ∀ m c s n g f, ∃ f', out.checkpoint m c s n (g, f) = (.ok (), (g, f'))

/-- One queued move, as far as the manifold and the generator are concerned: the new manifold if the
move succeeds and passes the check, the old one otherwise. -/
def apply (eng : CommandEngine M G) (mv : MoveType) (x : M × G) : M × G :=
  match eng.applyMove mv x.1 x.2 with
  | (.ok (.ok m'), g') => (if eng.check x.1 m' mv then m' else x.1, g')
  | (_, g') => (x.1, g')

/-- The manifolds on which a list of queued moves is tried, in order. -/
def tried (eng : CommandEngine M G) : List MoveType → M × G → List M
  | [], _ => []
  | mv :: later, x => x.1 :: tried eng later (apply eng mv x)

/-- The manifold and generator after a list of queued moves. -/
def applyAll (eng : CommandEngine M G) : List MoveType → M × G → M × G
  | [], x => x
  | mv :: later, x => applyAll eng later (apply eng mv x)

/-- `n` moves drawn from the generator, in the order in which they are drawn. -/
def drawn (draw : G → Fin 5 × G) : ℕ → G → List MoveType × G
  | 0, g => ([], g)
  | n + 1, g =>
    ((match (draw g).1 with
      | 0 => MoveType.twoThree | 1 => .threeTwo | 2 => .twoSix | 3 => .sixTwo | 4 => .fourFour) ::
      (drawn draw n (draw g).2).1, (drawn draw n (draw g).2).2)

/-- One pass of the unconditional strategy: as many moves as the manifold has tetrahedra are drawn
and then tried in that order. -/
def alwaysPass (eng : AlwaysEngine M G F) (x : M × G) : M × G :=
  applyAll eng.toCommandEngine (drawn eng.drawMove (eng.n3 x.1).toNat x.2).1
    (x.1, (drawn eng.drawMove (eng.n3 x.1).toNat x.2).2)

/-- The manifolds on which that pass tries moves. -/
def alwaysTried (eng : AlwaysEngine M G F) (x : M × G) : List M :=
  tried eng.toCommandEngine (drawn eng.drawMove (eng.n3 x.1).toNat x.2).1
    (x.1, (drawn eng.drawMove (eng.n3 x.1).toNat x.2).2)

/-- Outputs of the unconditional strategy that neither throw nor touch its generator. -/
structure HarmlessAlways (eng : AlwaysEngine M G F) : Prop where
  report : ∀ m c g f, ∃ f', eng.report m c (g, f) = (.ok (), (g, f'))
  checkpoint : ∀ m c n g f, ∃ f', eng.checkpoint m c n (g, f) = (.ok (), (g, f'))

end CDT.Spec

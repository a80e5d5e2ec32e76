/-
Model of the transition system of include/Metropolis.hpp.
-/
import Verif.Model.Run
import Verif.Model.Fnv

namespace CDT

/-- `Geometry<3>` (include/Geometry.hpp). -/
structure Geometry where
  N0 : Int := 0
  N1 : Int := 0
  N1_SL : Int := 0
  N1_TL : Int := 0
  N2 : Int := 0
  N3 : Int := 0
  N3_31 : Int := 0
  N3_13 : Int := 0
  N3_22 : Int := 0
  N3_31_13 : Int := 0
  deriving DecidableEq, Repr

/-- `RunStatistics` (include/Metropolis.hpp:57-76). `transition_count` is a `std::uint64_t`,
modelled by `Nat` (it cannot wrap in fewer than 2^64 transitions). -/
structure RunStats where
  geometry : Geometry := {}
  trace : BitVec 64 := fnvOffset
  count : Nat := 0
  proposed : Tracker := Tracker.zero
  accepted : Tracker := Tracker.zero
  rejected : Tracker := Tracker.zero

/-- `record_transition` (include/Metropolis.hpp:105-116). -/
def RunStats.record (s : RunStats) (m : MoveType) (o : MoveOutcome) : RunStats :=
  { s with
    trace := fnvStep (fnvStep s.trace (BitVec.ofNat 8 m.asInteger.val)) (BitVec.ofNat 8 o.code)
    count := s.count + 1 }

/-- `reverse_move` (include/Metropolis.hpp:305-319) on declared enumerators; undeclared codes give
`nullopt`, see `resolve`. -/
def MoveType.reverse : MoveType → MoveType
  | .twoThree => .threeTwo
  | .threeTwo => .twoThree
  | .twoSix => .sixTwo
  | .sixTwo => .twoSix
  | .fourFour => .fourFour

/-- `proposal_site_count` (include/Metropolis.hpp:324-338). -/
def proposalSiteCount (g : Geometry) : MoveType → Int
  | .twoThree => g.N3_22
  | .threeTwo => g.N1_TL
  | .twoSix => g.N3_13
  | .sixTwo => g.N0
  | .fourFour => g.N1_SL

/-- What the strategy needs from the rest of the program.
`propose` is `propose_candidate` (include/Metropolis.hpp:429-452), `check` is `check_move`,
`geometry` is `Manifold::geometry`, `prob` is `acceptance_probability`
(include/Metropolis.hpp:416-426), `probGe` is `mpfr_cmp_ld(p, trial) >= 0` (line 522),
`drawMove`/`drawTrial` are `generate_random_move_3` and `generate_probability`.
All are arbitrary: theorems hold for every engine. -/
structure MetroEngine (M G P : Type) where
  propose : MoveType → M → G → Except Exc (Except MoveFailure M) × G
  check : M → M → MoveType → Bool
  geometry : M → Geometry
  prob : Geometry → Geometry → MoveType → Except Exc P
  probGe : P → ℚ → Bool
  drawMove : G → Fin 5 × G
  drawTrial : G → LD × G
  n3 : M → Int

/-- The variables `resolve_transition` updates (include/Metropolis.hpp:477-481 plus the owned
generator). -/
structure MetroVars (M G : Type) where
  current : M
  cmd : CommandResults
  stats : RunStats
  gen : G

/-- `resolve_transition` (include/Metropolis.hpp:477-536), statement by statement. -/
def resolve {M G P : Type} (eng : MetroEngine M G P) (code : Int) (trial : LD)
    (v : MetroVars M G) : Except Exc MoveOutcome × MetroVars M G :=
  -- lines 484-488
  if !trial.isFinite || trial.lt (.fin 0) || (LD.fin 1).lt trial then (.error .invalidArgument, v)
  else match trial with
  | .fin u =>
    -- lines 490-495
    match MoveType.ofCode code with
    | none => (.ok (outcomeFrom .unknownMove), v)
    | some mv =>
      -- lines 497-499
      let st1 := { v.stats with geometry := eng.geometry v.current,
                                proposed := v.stats.proposed.inc mv }
      let cm1 := { v.cmd with attempted := v.cmd.attempted.inc mv }
      -- line 501
      match eng.propose mv v.current v.gen with
      | (.error e, g') => (.error e, { v with cmd := cm1, stats := st1, gen := g' })
      | (.ok (.error f), g') =>
        -- lines 502-509
        (.ok (outcomeFrom f),
          { v with cmd := { cm1 with failed := cm1.failed.inc mv },
                   stats := { st1 with rejected := st1.rejected.inc mv }.record mv (outcomeFrom f),
                   gen := g' })
      | (.ok (.ok cand), g') =>
        if !eng.check v.current cand mv then
          -- lines 510-517
          (.ok .executionFailed,
            { v with cmd := { cm1 with failed := cm1.failed.inc mv },
                     stats := { st1 with rejected := st1.rejected.inc mv }.record mv .executionFailed,
                     gen := g' })
        else
          -- lines 519-521
          let cm2 := { cm1 with succeeded := cm1.succeeded.inc mv }
          match eng.prob st1.geometry (eng.geometry cand) mv with
          | .error e => (.error e, { v with cmd := cm2, stats := st1, gen := g' })
          | .ok p =>
            if eng.probGe p u then
              -- lines 522-530
              (.ok .metropolisAccepted,
                { current := cand, cmd := cm2,
                  stats := { st1 with geometry := eng.geometry cand,
                                      accepted := st1.accepted.inc mv }.record mv .metropolisAccepted,
                  gen := g' })
            else
              -- lines 532-535
              (.ok .metropolisRejected,
                { v with cmd := cm2,
                         stats := { st1 with rejected := st1.rejected.inc mv }.record mv
                           .metropolisRejected,
                         gen := g' })
  | _ => (.error .invalidArgument, v)

/-- `sample_transition` (include/Metropolis.hpp:538-547): move, then trial, then resolution. -/
def sampleTransition {M G P : Type} (eng : MetroEngine M G P) (v : MetroVars M G) :
    Except Exc (Fin 5 × MoveOutcome) × MetroVars M G :=
  let (i, g1) := eng.drawMove v.gen
  let (u, g2) := eng.drawTrial g1
  match resolve eng (i.val : Int) u { v with gen := g2 } with
  | (.error e, v') => (.error e, v')
  | (.ok o, v') => (.ok (i, o), v')

/-- The loop of `execute_pass` (include/Metropolis.hpp:554-559). -/
def passLoop {M G P : Type} (eng : MetroEngine M G P) :
    Nat → MetroVars M G → Except Exc Unit × MetroVars M G
  | 0, v => (.ok (), v)
  | n + 1, v =>
    match sampleTransition eng v with
    | (.error e, v') => (.error e, v')
    | (.ok _, v') => passLoop eng n v'

/-- `execute_pass` (include/Metropolis.hpp:549-563): fresh command results, by-value copies. -/
def metroPass {M G P F : Type} (eng : MetroEngine M G P) (current : M) (st : RunStats)
    (attempts : Int) : Eff (G × F) (PassResult M RunStats) := fun (g, f) =>
  match passLoop eng attempts.toNat ⟨current, {}, st, g⟩ with
  | (.error e, v) => (.error e, (v.gen, f))
  | (.ok _, v) => (.ok ⟨v.current, v.cmd, v.stats⟩, (v.gen, f))

/-- Output effects of a Metropolis run: `print_results` and `write_file` of a checkpoint
(include/Metropolis.hpp:697-708). -/
structure MetroOutput (M G F : Type) where
  report : M → CommandResults → RunStats → Eff (G × F) Unit
  checkpoint : M → CommandResults → RunStats → Int → Eff (G × F) Unit

/-- The mutable part of a `MoveStrategy<METROPOLIS>` object (include/Metropolis.hpp:80-103). -/
structure MetroStrategy (G : Type) where
  cadence : Cadence
  writesFiles : Bool
  gen : G
  cmd : CommandResults := {}
  stats : RunStats := {}
  checkpointEvents : Int := 0

/-- `operator()` (include/Metropolis.hpp:677-714). -/
def MetroStrategy.run {M G P F : Type} (eng : MetroEngine M G P) (out : MetroOutput M G F)
    (s : MetroStrategy G) (m : M) (f : F) : Except Exc M × MetroStrategy G × F :=
  let ops : RunOps M RunStats (G × F) :=
    { n3 := eng.n3, pass := metroPass eng, report := out.report, checkpoint := out.checkpoint }
  match executeMoveRun ops s.cadence s.writesFiles m { geometry := eng.geometry m } (s.gen, f) with
  | (.error e, (g', f')) => (.error e, { s with gen := g' }, f')
  | (.ok r, (g', f')) =>
    (.ok r.manifold,
     { s with gen := g', cmd := r.commandResults, stats := r.strategyState,
              checkpointEvents := r.checkpointEvents }, f')

/-- Calls a user can make on a strategy object; each takes the caller's manifold. -/
inductive MetroCall (M : Type)
  /-- `attempt_transition(current, move, trial)` (include/Metropolis.hpp:642-649) -/
  | attempt (current : M) (code : Int) (trial : LD)
  /-- `attempt_transition(current)` (include/Metropolis.hpp:658-660) -/
  | sample (current : M)
  /-- `initialize(manifold)` (include/Metropolis.hpp:664-665) -/
  | initialize (m : M)
  /-- `operator()(manifold)` -/
  | run (m : M)

/-- What a call returns to its caller: the caller's manifold afterwards and the
`MetropolisTransition` report (move code and outcome), if the call produces one. -/
structure CallResult (M : Type) where
  manifold : M
  report : Except Exc (Option (Int × MoveOutcome))

/-- Effect of one call on the strategy object and the outside world. -/
def MetroStrategy.call {M G P F : Type} (eng : MetroEngine M G P) (out : MetroOutput M G F)
    (s : MetroStrategy G) (f : F) : MetroCall M → CallResult M × MetroStrategy G × F
  | .attempt cur code trial =>
    let (r, v) := resolve eng code trial ⟨cur, s.cmd, s.stats, s.gen⟩
    (⟨v.current, r.map (fun o => some (code, o))⟩, { s with cmd := v.cmd, stats := v.stats, gen := v.gen }, f)
  | .sample cur =>
    let (r, v) := sampleTransition eng ⟨cur, s.cmd, s.stats, s.gen⟩
    (⟨v.current, r.map (fun x => some ((x.1.val : Int), x.2))⟩,
      { s with cmd := v.cmd, stats := v.stats, gen := v.gen }, f)
  | .initialize m =>
    (⟨m, .ok none⟩, { s with stats := { s.stats with geometry := eng.geometry m } }, f)
  | .run m =>
    match s.run eng out m f with
    | (.error e, s', f') => (⟨m, .error e⟩, s', f')
    | (.ok m', s', f') => (⟨m', .ok none⟩, s', f')

/-- A history of calls. -/
def MetroStrategy.calls {M G P F : Type} (eng : MetroEngine M G P) (out : MetroOutput M G F) :
    List (MetroCall M) → MetroStrategy G → F → List (CallResult M) × MetroStrategy G × F
  | [], s, f => ([], s, f)
  | c :: cs, s, f =>
    let (r, s1, f1) := s.call eng out f c
    let (rs, s2, f2) := MetroStrategy.calls eng out cs s1 f1
    (r :: rs, s2, f2)

end CDT

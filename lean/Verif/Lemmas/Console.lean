import Verif.Spec.Console
import Verif.Lemmas.Text
import Verif.Lemmas.MetroRun
import Verif.Lemmas.Schedule

namespace CDT
open Spec

/-! ### Format strings -/

/-- A format string cut at its replacement fields. -/
def chop : List Char → List Bytes
  | '{' :: '}' :: rest => [] :: chop rest
  | c :: rest =>
    match chop rest with
    | [] => [[BitVec.ofNat 8 c.toNat]]
    | p :: ps => (BitVec.ofNat 8 c.toNat :: p) :: ps
  | [] => [[]]

/-- Pieces and numbers alternating. -/
def weave : List Bytes → List Bytes → Bytes
  | w :: ws, n :: ns => w ++ n ++ weave ws ns
  | w :: ws, [] => w ++ weave ws []
  | [], _ => []

theorem chop_ne_nil (cs : List Char) : chop cs ≠ [] := by
  induction cs using chop.induct <;> simp_all [chop]

theorem fillFormat_eq (cs : List Char) : ∀ args : List Bytes, (chop cs).length = args.length + 1 →
    fillFormat cs args = weave (chop cs) args := by
  induction cs using chop.induct with
  | case1 rest ih =>
    intro args h
    cases args with
    | nil => simp [chop] at h; exact absurd h (chop_ne_nil _)
    | cons a as =>
      have h' : (chop rest).length = as.length + 1 := by simpa [chop] using h
      simp [fillFormat, chop, weave, ih as h']
  | case2 c rest hne hc ih => exact absurd hc (chop_ne_nil _)
  | case3 c rest hne p ps hc ih =>
    intro args h
    have e : chop (c :: rest) = (BitVec.ofNat 8 c.toNat :: p) :: ps := by
      rw [chop.eq_2 c rest hne, hc]
    rw [e] at h ⊢
    have h' : (chop rest).length = args.length + 1 := by rw [hc]; simpa using h
    have f : fillFormat (c :: rest) args = BitVec.ofNat 8 c.toNat :: fillFormat rest args := by
      rw [fillFormat.eq_2]
      intro rest' a as h1 h2 h3
      exact hne rest' h2 h3
    rw [f, ih args h', hc]
    cases args <;> simp [weave]
  | case4 => intro args h; cases args <;> simp_all [chop, fillFormat, weave]

theorem weave_sentence (ws : List String) : ∀ ns, weave (ws.map ascii) ns = sentence ws ns := by
  induction ws with
  | nil => intro ns; simp [weave, sentence]
  | cons w ws ih => intro ns; cases ns <;> simp [weave, sentence, ih]

theorem format_eq (s : String) (ws : List String) (args : List Bytes) (h : chop s.toList = ws.map ascii)
    (hl : ws.length = args.length + 1) : format s args = sentence ws args := by
  unfold format
  rw [fillFormat_eq _ _ (by rw [h]; simpa using hl), h, weave_sentence]

theorem decimalInt_natCast (n : ℕ) : decimalInt (n : ℤ) = decimal n := by
  unfold decimalInt; rw [if_neg (by omega)]; simp

theorem passLine_eq (n : ℕ) : passLine (n : ℤ) = passHeading n := by
  unfold passLine passHeading
  rw [format_eq _ ["=== Pass ", " ===\n"] _ (by decide +kernel) rfl, decimalInt_natCast]

theorem checkpointLine_eq (n : ℕ) :
    checkpointLine (n : ℤ) = sentence ["Writing checkpoint for pass ", ".\n"] [decimal n] := by
  unfold checkpointLine
  rw [format_eq _ ["Writing checkpoint for pass ", ".\n"] _ (by decide +kernel) rfl, decimalInt_natCast]

theorem runResultsLine_eq : runResultsLine = ascii "=== Run results ===\n" := by
  unfold runResultsLine
  rw [format_eq _ ["=== Run results ===\n"] _ (by decide +kernel) rfl]
  simp [sentence]

theorem sentence_nil (w : String) : sentence [w] [] = ascii w := by simp [sentence]

theorem ascii_append (a b : String) : ascii (a ++ b) = ascii a ++ ascii b := by
  simp [ascii]

theorem opening_eq (algorithm : String) (seed stream : BitVec 64) :
    (RunIdentity.lines ⟨ascii algorithm, seed, stream⟩).flatten = openingText algorithm seed stream := by
  unfold RunIdentity.lines openingText
  simp only [List.flatten_cons, List.flatten_nil, List.append_nil]
  rw [format_eq _ ["Starting ", " algorithm in ", "+1 dimensions ...\n"] _ (by decide +kernel) rfl,
    format_eq _ ["Effective random seed: ", " (stream ", ").\n"] _ (by decide +kernel) rfl,
    format_eq _ ["Making random moves ...\n"] _ (by decide +kernel) rfl, sentence_nil]
  have : decimalInt (3 - 1) ++ ascii "+1 dimensions ...\n" = ascii "2+1 dimensions ...\n" := by decide +kernel
  have h2 : ascii " algorithm in 2+1 dimensions ...\n" = ascii " algorithm in " ++ ascii "2+1 dimensions ...\n" := by
    decide +kernel
  simp only [sentence, h2, ← this, List.append_assoc, List.append_nil]

/-! ### Counters -/

theorem total_get (t : Tracker) :
    t.total = t.get .twoThree + t.get .threeTwo + t.get .twoSix + t.get .sixTwo + t.get .fourFour := by
  simp [Tracker.total, Tracker.get, MoveType.asInteger, List.ofFn_succ]
  
theorem countP_split {α : Type} (h : List (MoveType × α)) (p : α → Bool) :
    ((h.countP fun x => p x.2 : ℕ) : ℤ) =
      (h.filter fun x => x.1 = .twoThree && p x.2).length + (h.filter fun x => x.1 = .threeTwo && p x.2).length +
      (h.filter fun x => x.1 = .twoSix && p x.2).length + (h.filter fun x => x.1 = .sixTwo && p x.2).length +
      (h.filter fun x => x.1 = .fourFour && p x.2).length := by
  induction h with
  | nil => simp
  | cons x h ih =>
    obtain ⟨m, a⟩ := x
    rw [List.countP_cons]
    push_cast
    rw [ih]
    cases hp : p a <;> cases m <;> simp [hp] <;> omega

theorem countP_filter_move {α : Type} (h : List (MoveType × α)) (m : MoveType) (p : α → Bool) :
    (((h.filter fun x => decide (x.1 = m)).countP fun x => p x.2 : ℕ) : ℤ) =
      (h.filter fun x => x.1 = m && p x.2).length := by
  rw [List.countP_eq_length_filter, List.filter_filter]
  congr 2
  apply List.filter_congr
  intro x _
  exact Bool.and_comm _ _


theorem howMany_int {α : Type} (h : List α) (p : α → Bool) {z : ℤ} (e : z = (h.countP p : ℕ)) :
    decimalInt z = howMany h p := by
  rw [e, decimalInt_natCast]; rfl

theorem metroMoveLine_eq (name : String) (a b c d e f : ℤ)
    (hn : chop (name ++ " moves: {} proposed ({} accepted and {} rejected); candidate " ++
      "construction: {} attempted ({} succeeded and {} failed).\n").toList =
      [name ++ " moves: ", " proposed (", " accepted and ",
        " rejected); candidate construction: ", " attempted (", " succeeded and ", " failed).\n"].map ascii) :
    metroMoveLine name a b c d e f =
      sentence [name ++ " moves: ", " proposed (", " accepted and ",
        " rejected); candidate construction: ", " attempted (", " succeeded and ", " failed).\n"]
        ([a, b, c, d, e, f].map decimalInt) := by
  unfold metroMoveLine
  rw [format_eq _ _ _ hn rfl]

theorem metroReport_eq {c : CommandResults} {s : RunStats} {h : List (MoveType × MoveOutcome)}
    (d : Describes c s h) : (metroResultLines c s).flatten = reportText h := by
  obtain ⟨dc, ds⟩ := d
  have g : ∀ (t : Tracker) (p : MoveOutcome → Bool) (m : MoveType),
      (∀ m, t.get m = (h.filter fun x => x.1 = m && p x.2).length) →
      decimalInt (t.get m) = howMany (h.filter fun x => x.1 = m) fun x => p x.2 := fun t p m ht =>
    howMany_int _ _ (by rw [ht m, countP_filter_move])
  have T : ∀ (t : Tracker) (p : MoveOutcome → Bool),
      (∀ m, t.get m = (h.filter fun x => x.1 = m && p x.2).length) →
      decimalInt t.total = howMany h fun x => p x.2 := fun t p ht =>
    howMany_int _ _ (by rw [total_get, countP_split]; simp only [ht])
  have all : ∀ m, ((h.filter fun x => decide (x.1 = m)).length : ℤ) =
      (h.filter fun x => x.1 = m && (fun _ : MoveOutcome => true) x.2).length := fun m => by simp
  have h1 : ∀ m, s.proposed.get m = (h.filter fun x => x.1 = m && (fun _ : MoveOutcome => true) x.2).length :=
    fun m => by rw [ds.proposed, ← all]; rfl
  have h2 : ∀ m, c.attempted.get m = (h.filter fun x => x.1 = m && (fun _ : MoveOutcome => true) x.2).length :=
    fun m => by rw [dc.attempted, ← all]; rfl
  have h3 := ds.accepted
  have h4 := ds.rejected
  have h5 := dc.succeeded
  have h6 := dc.failed
  unfold metroResultLines reportText
  simp only [List.flatten_cons, List.flatten_nil, List.append_nil, displayed, List.flatMap_cons, List.flatMap_nil]
  rw [format_eq _ ["=== Move Results ===\n"] _ (by decide +kernel) rfl,
    format_eq _ ["There were ", " proposed moves with ", " accepted moves and ", " rejected moves.\n"] _
      (by decide +kernel) rfl,
    format_eq _ ["There were ", " candidate construction attempts with ", " successful candidates and ",
      " failed candidates.\n"] _ (by decide +kernel) rfl,
    metroMoveLine_eq "(2,3)" _ _ _ _ _ _ (by decide +kernel), metroMoveLine_eq "(3,2)" _ _ _ _ _ _ (by decide +kernel),
    metroMoveLine_eq "(2,6)" _ _ _ _ _ _ (by decide +kernel), metroMoveLine_eq "(6,2)" _ _ _ _ _ _ (by decide +kernel),
    metroMoveLine_eq "(4,4)" _ _ _ _ _ _ (by decide +kernel)]
  simp only [List.map_cons, List.map_nil, T _ (fun _ => true) h1, T _ (fun _ => true) h2, T _ (fun o => o.accepted) h3, T _ (fun o => !o.accepted) h4, T _ (fun o => o.successful) h5, T _ (fun o => !o.successful) h6]
  have n1 : ∀ t : Tracker, t.twoThreeMoves = t.get .twoThree := fun _ => rfl
  have n2 : ∀ t : Tracker, t.threeTwoMoves = t.get .threeTwo := fun _ => rfl
  have n3 : ∀ t : Tracker, t.twoSixMoves = t.get .twoSix := fun _ => rfl
  have n4 : ∀ t : Tracker, t.sixTwoMoves = t.get .sixTwo := fun _ => rfl
  have n5 : ∀ t : Tracker, t.fourFourMoves = t.get .fourFour := fun _ => rfl
  simp only [n1, n2, n3, n4, n5, g _ (fun _ => true) _ h1, g _ (fun _ => true) _ h2, g _ (fun o => o.accepted) _ h3, g _ (fun o => !o.accepted) _ h4, g _ (fun o => o.successful) _ h5, g _ (fun o => !o.successful) _ h6]
  simp only [List.append_assoc]

theorem alwaysMoveLine_eq (name : String) (a b c : ℤ)
    (hn : chop (name ++ " moves: {} attempted = {} successful and {} failed.\n").toList =
      [name ++ " moves: ", " attempted = ", " successful and ", " failed.\n"].map ascii) :
    alwaysMoveLine name a b c =
      sentence [name ++ " moves: ", " attempted = ", " successful and ", " failed.\n"]
        ([a, b, c].map decimalInt) := by
  unfold alwaysMoveLine
  rw [format_eq _ _ _ hn rfl]

theorem alwaysReport_eq {c : CommandResults} {h : List (MoveType × Bool)}
    (d : DescribesFlags c h) : (alwaysResultLines c).flatten = flagReportText h := by
  have g : ∀ (t : Tracker) (p : Bool → Bool) (m : MoveType),
      (∀ m, t.get m = (h.filter fun x => x.1 = m && p x.2).length) →
      decimalInt (t.get m) = howMany (h.filter fun x => x.1 = m) fun x => p x.2 := fun t p m ht =>
    howMany_int _ _ (by rw [ht m, countP_filter_move])
  have h1 : ∀ m, c.succeeded.get m = (h.filter fun x => x.1 = m && id x.2).length := fun m => by
    rw [d.succeeded]; unfold countFlag; congr 2; apply List.filter_congr; intro x _; cases x.2 <;> simp
  have h2 : ∀ m, c.failed.get m = (h.filter fun x => x.1 = m && !x.2).length := fun m => by
    rw [d.failed]; unfold countFlag; congr 2; apply List.filter_congr; intro x _; cases x.2 <;> simp
  have h3 : ∀ m, c.attempted.get m = (h.filter fun x => x.1 = m && (fun _ : Bool => true) x.2).length := fun m => by
    rw [d.attempted, ← d.succeeded, ← d.failed, h1, h2]
    clear h1 h2 g d
    induction h with
    | nil => rfl
    | cons x h ih =>
      obtain ⟨a, b⟩ := x
      simp only [List.filter_cons] at ih ⊢
      by_cases e : a = m <;> cases b <;> simp_all <;> omega
  unfold alwaysResultLines flagReportText
  simp only [List.flatten_cons, List.flatten_nil, List.append_nil, displayed, List.flatMap_cons, List.flatMap_nil]
  rw [format_eq _ ["=== Move Results ===\n"] _ (by decide +kernel) rfl,
    alwaysMoveLine_eq "(2,3)" _ _ _ (by decide +kernel), alwaysMoveLine_eq "(3,2)" _ _ _ (by decide +kernel),
    alwaysMoveLine_eq "(2,6)" _ _ _ (by decide +kernel), alwaysMoveLine_eq "(6,2)" _ _ _ (by decide +kernel),
    alwaysMoveLine_eq "(4,4)" _ _ _ (by decide +kernel)]
  have n1 : ∀ t : Tracker, t.twoThreeMoves = t.get .twoThree := fun _ => rfl
  have n2 : ∀ t : Tracker, t.threeTwoMoves = t.get .threeTwo := fun _ => rfl
  have n3 : ∀ t : Tracker, t.twoSixMoves = t.get .twoSix := fun _ => rfl
  have n4 : ∀ t : Tracker, t.sixTwoMoves = t.get .sixTwo := fun _ => rfl
  have n5 : ∀ t : Tracker, t.fourFourMoves = t.get .fourFour := fun _ => rfl
  simp only [List.map_cons, List.map_nil, n1, n2, n3, n4, n5, g _ id _ h1, g _ (fun b => !b) _ h2, g _ (fun _ => true) _ h3, id]


/-! ### Printing -/

theorem say_ok {faults : PrintFaults} {t : Bytes} {c c' : Console} {u : Unit}
    (h : say faults t c = (.ok u, c')) : c'.text = c.text ++ t := by
  unfold say at h
  split at h <;> cases h
  rfl

theorem say_text (faults : PrintFaults) (t : Bytes) (c : Console) :
    ∃ u, (say faults t c).2.text = c.text ++ u ∧ u <+: t := by
  unfold say
  split
  · exact ⟨t, rfl, List.prefix_refl _⟩
  · exact ⟨_, rfl, List.take_prefix _ _⟩

theorem sayAll_ok {faults : PrintFaults} : ∀ {ts : List Bytes} {c c' : Console} {u : Unit},
    sayAll faults ts c = (.ok u, c') → c'.text = c.text ++ ts.flatten
  | [], c, c', u, h => by cases h; simp
  | t :: ts, c, c', u, h => by
    unfold sayAll at h
    rcases hs : say faults t c with ⟨r, c1⟩
    rw [hs] at h
    cases r with
    | error e => cases h
    | ok _ => rw [sayAll_ok h, say_ok hs]; simp

theorem sayAll_text (faults : PrintFaults) : ∀ (ts : List Bytes) (c : Console),
    ∃ u, (sayAll faults ts c).2.text = c.text ++ u ∧ u <+: ts.flatten
  | [], c => ⟨[], by simp [sayAll], by simp⟩
  | t :: ts, c => by
    unfold sayAll
    rcases hs : say faults t c with ⟨r, c1⟩
    cases r with
    | error e =>
      obtain ⟨u, h1, h2⟩ := say_text faults t c
      rw [hs] at h1
      exact ⟨u, h1, h2.trans (by simp)⟩
    | ok _ =>
      obtain ⟨u, h1, h2⟩ := sayAll_text faults ts c1
      refine ⟨t ++ u, ?_, ?_⟩
      · simp only [h1, say_ok hs, List.append_assoc]
      · simpa using h2

/-! ### The pass loop -/

theorem PassChain.cons {M α : Type} {n3 : M → ℤ} {E : M → List α → M → Prop} {a b c : M} {h : List α}
    {hs : List (List α)} (len : (h.length : ℤ) = max 0 (n3 a)) (e : E a h b) (ch : PassChain n3 E b hs c) :
    PassChain n3 E a (h :: hs) c := by
  induction ch with
  | nil => exact .snoc (.nil a) len e
  | snoc _ l e' ih => exact .snoc ih l e'

theorem PassChain.map {A B α : Type} {n3 : A → ℤ} {n3' : B → ℤ} {E : A → List α → A → Prop}
    {E' : B → List α → B → Prop} (f : A → B) (hn : ∀ x, n3' (f x) = n3 x)
    (hE : ∀ x h y, E x h y → E' (f x) h (f y)) {a b : A} {hs : List (List α)} (h : PassChain n3 E a hs b) :
    PassChain n3' E' (f a) hs (f b) := by
  induction h with
  | nil => exact .nil _
  | snoc _ hl he ih => exact .snoc ih (by rw [hn]; exact hl) (hE _ _ _ he)

theorem passesText_congr {α : Type} (report : List α → Bytes) (i : ℤ) (writes : Bool) {f g : ℕ → Bytes} :
    ∀ (hs : List (List α)) (k : ℕ) (h : List α), (∀ j, k < j → f j = g j) →
      passesText report i writes f k h hs = passesText report i writes g k h hs
  | [], _, _, _ => rfl
  | p :: ps, k, h, e => by
    simp only [passesText]
    rw [e (k + 1) (by omega), passesText_congr report i writes ps (k + 1) (h ++ p) fun j hj => e j (by omega)]

section
variable {M S W α : Type} {faults : PrintFaults} {ops : RunOps M S (W × Console)} {cad : Cadence} {writes : Bool}
  {R : CommandResults → S → List Bytes} {report : List α → Bytes} {D : CommandResults → S → List α → Prop}
  {Q : Type} {q : W → Q} {E : M × Q → List α → M × Q → Prop} {L : W → List Bytes → W → Prop} {N : Bytes → Prop}

/-- The texts of the checkpoints due among the `n` passes after pass `k`. -/
def dueNotes (i : ℤ) (writes : Bool) (note : ℕ → Bytes) : (n k : ℕ) → List Bytes
  | 0, _ => []
  | n + 1, k =>
    (if i ∣ ((k + 1 : ℕ) : ℤ) ∧ writes = true then [note (k + 1)] else []) ++ dueNotes i writes note n (k + 1)

theorem dueNotes_congr (i : ℤ) (writes : Bool) {f g : ℕ → Bytes} : ∀ (n k : ℕ), (∀ j, k < j → f j = g j) →
    dueNotes i writes f n k = dueNotes i writes g n k
  | 0, _, _ => rfl
  | n + 1, k, h => by
    unfold dueNotes
    rw [h (k + 1) (by omega), dueNotes_congr i writes n (k + 1) (fun j hj => h j (by omega))]

/-- What the operations of a run with a truthful report satisfy. -/
structure Tells (faults : PrintFaults) (ops : RunOps M S (W × Console)) (R : CommandResults → S → List Bytes)
    (report : List α → Bytes) (D : CommandResults → S → List α → Prop) (q : W → Q)
    (E : M × Q → List α → M × Q → Prop) (L : W → List Bytes → W → Prop) (N : Bytes → Prop) : Prop where
  any : ∃ b, N b
  refl : ∀ w, L w [] w
  trans : ∀ {a s b t c}, L a s b → L b t c → L a (s ++ t) c
  reports : ∀ m c s, ops.report m c s = onConsole (sayAll faults (R c s))
  text : ∀ c s h, D c s h → (R c s).flatten = report h
  silent : ∀ m s n w c, (ops.pass m s n (w, c)).2.2 = c
  pass : ∀ {m s n w c p w'}, ops.pass m s n (w, c) = (.ok p, w') → ∃ hp : List α, hp.length = n.toNat ∧
    E (m, q w) hp (p.manifold, q w'.1) ∧ ∀ tot h, D tot s h → D (tot.accumulate p.commandResults) p.strategyState (h ++ hp)
  stays : ∀ m cmd s n w c, q (ops.checkpoint m cmd s n (w, c)).2.1 = q w
  keeps : ∀ m s n w c, L w [] (ops.pass m s n (w, c)).2.1
  checkpoint : ∀ m cmd s n w c, ∃ note t, (ops.checkpoint m cmd s n (w, c)).2.2.text = c.text ++ t ∧
    t <+: note ∧ N note ∧
    ((∃ e, (ops.checkpoint m cmd s n (w, c)).1 = .error e) → L w [] (ops.checkpoint m cmd s n (w, c)).2.1) ∧
    ((∃ u, (ops.checkpoint m cmd s n (w, c)).1 = .ok u) → t = note ∧ L w [note] (ops.checkpoint m cmd s n (w, c)).2.1)

/-- What one pass prints after its heading. -/
def afterPass (report : List α → Bytes) (i : ℤ) (writes : Bool) (note : Bytes) (k : ℕ) (h : List α) : Bytes :=
  if i ∣ ((k + 1 : ℕ) : ℤ) then
    report h ++ (if writes then sentence ["Writing checkpoint for pass ", ".\n"] [decimal (k + 1)] ++ note else [])
  else []

theorem passesText_cons (i : ℤ) (note : ℕ → Bytes) (k : ℕ) (h p : List α) (ps : List (List α)) :
    passesText report i writes note k h (p :: ps) =
      passHeading (k + 1) ++ afterPass report i writes (note (k + 1)) k (h ++ p) ++
        passesText report i writes note (k + 1) (h ++ p) ps := rfl

theorem runPassAloud_tells (T : Tells faults ops R report D q E L N) {k : ℕ} {v : RunVars M S} {w : W} {c : Console}
    {h : List α} (d : D v.totals v.state h) :
    (∃ v' w' c' hp note, runPassAloud faults ops cad writes ((k : ℤ) + 1) v (w, c) = (.ok v', (w', c')) ∧
      (hp.length : ℤ) = max 0 (ops.n3 v.current) ∧ E (v.current, q w) hp (v'.current, q w') ∧ D v'.totals v'.state (h ++ hp) ∧
      c'.text = c.text ++ passHeading (k + 1) ++ afterPass report cad.checkpoint writes note k (h ++ hp) ∧
      L w (if cad.checkpoint ∣ ((k + 1 : ℕ) : ℤ) ∧ writes = true then [note] else []) w' ∧ N note) ∨
    (∃ e w' c' t, runPassAloud faults ops cad writes ((k : ℤ) + 1) v (w, c) = (.error e, (w', c')) ∧
      c'.text = c.text ++ t ∧ t <+: passHeading (k + 1) ∧ L w [] w') ∨
    (∃ e w' c' t hp m1 note, runPassAloud faults ops cad writes ((k : ℤ) + 1) v (w, c) = (.error e, (w', c')) ∧
      (hp.length : ℤ) = max 0 (ops.n3 v.current) ∧ E (v.current, q w) hp m1 ∧
      c'.text = c.text ++ t ∧
      t <+: passHeading (k + 1) ++ afterPass report cad.checkpoint writes note k (h ++ hp) ∧ L w [] w' ∧ N note) := by
  obtain ⟨n0, hn0⟩ := T.any
  have ek : ((k : ℤ) + 1) = ((k + 1 : ℕ) : ℤ) := by push_cast; rfl
  unfold runPassAloud
  simp only [onConsole, ek, passLine_eq, checkpointLine_eq]
  rcases hs : say faults (passHeading (k + 1)) c with ⟨r, c1⟩
  cases r with
  | error e =>
    obtain ⟨t, h1, h2⟩ := say_text faults (passHeading (k + 1)) c
    rw [hs] at h1
    exact .inr (.inl ⟨e, w, c1, t, rfl, h1, h2, T.refl w⟩)
  | ok u =>
    have t1 := say_ok hs
    simp only
    have sil := T.silent v.current v.state (ops.n3 v.current) w c1
    have kp := T.keeps v.current v.state (ops.n3 v.current) w c1
    rcases hp : ops.pass v.current v.state (ops.n3 v.current) (w, c1) with ⟨r, w2, c2⟩
    rw [hp] at sil kp
    simp only at sil kp
    subst sil
    cases r with
    | error e => exact .inr (.inl ⟨e, w2, c2, passHeading (k + 1), rfl, t1, List.prefix_refl _, kp⟩)
    | ok p =>
      obtain ⟨hq, hlen, hE, hD⟩ := T.pass hp
      have hD := hD _ _ d
      have hlen : (hq.length : ℤ) = max 0 (ops.n3 v.current) := by rw [hlen]; simp; exact max_comm _ _
      simp only
      by_cases hc : ((k + 1 : ℕ) : ℤ) % cad.checkpoint = 0
      · have hdvd : cad.checkpoint ∣ ((k + 1 : ℕ) : ℤ) := Int.dvd_of_emod_eq_zero hc
        rw [if_pos hc, T.reports]
        simp only [onConsole]
        rcases hr : sayAll faults (R (v.totals.accumulate p.commandResults) p.strategyState) c2 with ⟨r, c3⟩
        cases r with
        | error e =>
          obtain ⟨t, h1, h2⟩ := sayAll_text faults (R (v.totals.accumulate p.commandResults) p.strategyState) c2
          rw [hr] at h1
          rw [T.text _ _ _ hD] at h2
          refine .inr (.inr ⟨e, w2, c3, passHeading (k + 1) ++ t, hq, (p.manifold, q w2), n0, rfl, hlen, hE, ?_, ?_, kp, hn0⟩)
          · rw [show c3.text = _ from h1, t1]; simp
          · rw [List.prefix_append_right_inj]
            unfold afterPass
            rw [if_pos hdvd]
            exact h2.trans (List.prefix_append _ _)
        | ok _ =>
          have t2 := sayAll_ok hr
          rw [T.text _ _ _ hD, t1] at t2
          simp only
          cases writes with
          | false =>
            refine .inl ⟨_, w2, c3, hq, n0, rfl, hlen, hE, hD, ?_, by simpa using kp, hn0⟩
            rw [t2]; unfold afterPass; rw [if_pos hdvd]; simp
          | true =>
            simp only [if_true]
            rcases hy : say faults (sentence ["Writing checkpoint for pass ", ".\n"] [decimal (k + 1)]) c3
              with ⟨r, c4⟩
            cases r with
            | error e =>
              obtain ⟨t, h1, h2⟩ := say_text faults
                (sentence ["Writing checkpoint for pass ", ".\n"] [decimal (k + 1)]) c3
              rw [hy] at h1
              refine .inr (.inr ⟨e, w2, c4, passHeading (k + 1) ++ (report (h ++ hq) ++ t), hq, (p.manifold, q w2), n0, rfl,
                hlen, hE, ?_, ?_, kp, hn0⟩)
              · rw [show c4.text = _ from h1, t2]; simp
              · rw [List.prefix_append_right_inj]
                unfold afterPass
                rw [if_pos hdvd, List.prefix_append_right_inj]
                simpa using h2.trans (List.prefix_append _ n0)
            | ok _ =>
              have t3 := say_ok hy
              simp only
              obtain ⟨note, t', hn, htn, hN, hne, hno⟩ := T.checkpoint p.manifold (v.totals.accumulate p.commandResults) p.strategyState
                ((k + 1 : ℕ) : ℤ) w2 c4
              rcases hk : ops.checkpoint p.manifold (v.totals.accumulate p.commandResults) p.strategyState
                ((k + 1 : ℕ) : ℤ) (w2, c4) with ⟨r, w5, c5⟩
              have hst := T.stays p.manifold (v.totals.accumulate p.commandResults) p.strategyState
                ((k + 1 : ℕ) : ℤ) w2 c4
              rw [hk] at hn hne hno hst
              simp only at hst
              cases r with
              | error e =>
                refine .inr (.inr ⟨e, w5, c5, passHeading (k + 1) ++ (report (h ++ hq) ++
                  (sentence ["Writing checkpoint for pass ", ".\n"] [decimal (k + 1)] ++ t')), hq, (p.manifold, q w2),
                  note, rfl, hlen, hE, ?_, ?_, T.trans kp (hne ⟨_, rfl⟩), hN⟩)
                · rw [show c5.text = _ from hn, t3, t2]
                  simp
                · rw [List.prefix_append_right_inj]
                  unfold afterPass
                  rw [if_pos hdvd, List.prefix_append_right_inj]
                  simpa using htn
              | ok _ =>
                refine .inl ⟨_, w5, c5, hq, note, rfl, hlen, by rw [hst]; exact hE, hD, ?_,
                  by rw [if_pos ⟨hdvd, trivial⟩]; exact T.trans kp (hno ⟨_, rfl⟩).2, hN⟩
                rw [show c5.text = _ from hn, (hno ⟨_, rfl⟩).1, t3, t2]
                unfold afterPass; rw [if_pos hdvd]; simp
      · have hdvd : ¬ cad.checkpoint ∣ ((k + 1 : ℕ) : ℤ) := fun hd => hc (Int.emod_eq_zero_of_dvd hd)
        rw [if_neg hc]
        refine .inl ⟨_, w2, c2, hq, n0, rfl, hlen, hE, hD, ?_, by rw [if_neg (fun x => hdvd x.1)]; exact kp, hn0⟩
        rw [t1]; unfold afterPass; rw [if_neg hdvd]; simp

theorem runLoopAloud_tells (T : Tells faults ops R report D q E L N) : ∀ (n k : ℕ) (v : RunVars M S) (w : W) (c : Console)
    (h : List α), D v.totals v.state h →
    (∃ v' w' c' hs note, runLoopAloud faults ops cad writes n (k : ℤ) v (w, c) = (.ok v', (w', c')) ∧
      hs.length = n ∧ PassChain (fun x => ops.n3 x.1) E (v.current, q w) hs (v'.current, q w') ∧ D v'.totals v'.state (h ++ hs.flatten) ∧
      c'.text = c.text ++ passesText report cad.checkpoint writes note k h hs ∧
      L w (dueNotes cad.checkpoint writes note hs.length k) w' ∧ ∀ j, N (note j)) ∨
    (∃ e w' c' t hs m1 note, runLoopAloud faults ops cad writes n (k : ℤ) v (w, c) = (.error e, (w', c')) ∧
      hs.length ≤ n ∧ PassChain (fun x => ops.n3 x.1) E (v.current, q w) hs m1 ∧ c'.text = c.text ++ t ∧
      t <+: passesText report cad.checkpoint writes note k h hs ++
        (if hs.length < n then passHeading (k + hs.length + 1) else []) ∧
      (∃ d, d ≤ hs.length ∧ hs.length ≤ d + 1 ∧ L w (dueNotes cad.checkpoint writes note d k) w') ∧ ∀ j, N (note j))
  | 0, k, v, w, c, h, d =>
    let ⟨n0, hn0⟩ := T.any
    .inl ⟨v, w, c, [], fun _ => n0, rfl, rfl, .nil _, by simpa using d, by simp [passesText],
      T.refl w, fun _ => hn0⟩
  | n + 1, k, v, w, c, h, d => by
    unfold runLoopAloud
    obtain ⟨n0, hn0⟩ := T.any
    rcases runPassAloud_tells (cad := cad) (writes := writes) (k := k) (w := w) (c := c) T d with
      ⟨v', w', c', hp, note, e, hl, hE, hD, ht, hL, hN⟩ | ⟨e, w', c', t, e1, ht, hpre, hL⟩ |
      ⟨e, w', c', t, hp, m1, note, e1, hl, hE, ht, hpre, hL, hN⟩
    · rw [e]
      simp only
      have ek : ((k : ℤ) + 1) = ((k + 1 : ℕ) : ℤ) := by push_cast; rfl
      rw [ek]
      rcases runLoopAloud_tells T n (k + 1) v' w' c' (h ++ hp) hD with
        ⟨v2, w2, c2, hs, note2, e2, hn, hch, hD2, ht2, hL2, hN2⟩ |
        ⟨x, w2, c2, t, hs, m1, note2, e2, hn, hch, ht2, hpre, ⟨nd, hd1, hd2, hL2⟩, hN2⟩
      · refine .inl ⟨v2, w2, c2, hp :: hs, fun j => if j = k + 1 then note else note2 j, e2, by simp [hn],
          PassChain.cons hl hE hch, by simpa using hD2, ?_, by
            simp only [List.length_cons, dueNotes, if_true]
            rw [dueNotes_congr cad.checkpoint writes (g := note2) hs.length (k + 1) (fun j hj => by simp; omega)]
            exact T.trans hL hL2, fun j => by dsimp only; split; exacts [hN, hN2 j]⟩
        rw [passesText_cons, passesText_congr report cad.checkpoint writes (g := note2) hs (k + 1) (h ++ hp)
          (fun j hj => by simp; omega), ht2, ht]
        simp
      · refine .inr ⟨x, w2, c2, passHeading (k + 1) ++ afterPass report cad.checkpoint writes note k (h ++ hp) ++ t,
          hp :: hs, m1, fun j => if j = k + 1 then note else note2 j, e2, by simp [hn],
          PassChain.cons hl hE hch, by rw [ht2, ht]; simp, ?_, ⟨nd + 1, by simp [hd1], by simp [hd2], by
            simp only [dueNotes, if_true]
            rw [dueNotes_congr cad.checkpoint writes (g := note2) nd (k + 1) (fun j hj => by simp; omega)]
            exact T.trans hL hL2⟩, fun j => by dsimp only; split; exacts [hN, hN2 j]⟩
        rw [passesText_cons, passesText_congr report cad.checkpoint writes (g := note2) hs (k + 1) (h ++ hp)
          (fun j hj => by simp; omega)]
        simp only [if_true, List.append_assoc, List.prefix_append_right_inj, List.length_cons,
          Nat.add_lt_add_iff_right]
        rw [show k + (hs.length + 1) + 1 = k + 1 + hs.length + 1 by omega]
        exact hpre
    · rw [e1]
      exact .inr ⟨e, w', c', t, [], (v.current, q w), fun _ => n0, rfl, by simp, .nil _, ht, by simpa [passesText] using hpre,
        ⟨0, by simp, by simp, hL⟩, fun _ => hn0⟩
    · rw [e1]
      refine .inr ⟨e, w', c', t, [hp], m1, fun _ => note, rfl, by simp, PassChain.cons hl hE (.nil _), ht, ?_,
        ⟨0, by simp, by simp, hL⟩, fun _ => hN⟩
      rw [passesText_cons]
      refine hpre.trans ?_
      rw [List.append_assoc (passHeading _ ++ _)]
      exact List.prefix_append _ _

/-- A run with its output: its outcome and what is printed. -/
theorem executeMoveRunAloud_tells (T : Tells faults ops R report D q E L N) {m : M} {s : S} (d : D {} s [])
    (identity : RunIdentity) (w : W) (c : Console) :
    (∃ r w' c' hs note, executeMoveRunAloud faults ops cad identity writes m s (w, c) = (.ok r, (w', c')) ∧
      hs.length = cad.passes.toNat ∧ PassChain (fun x => ops.n3 x.1) E (m, q w) hs (r.manifold, q w') ∧
      D r.commandResults r.strategyState hs.flatten ∧
      c'.text = c.text ++ runText report identity.lines.flatten cad.checkpoint writes note hs ∧
      L w (dueNotes cad.checkpoint writes note hs.length 0) w' ∧ ∀ j, N (note j)) ∨
    (∃ e w' c' t hs m1 note, executeMoveRunAloud faults ops cad identity writes m s (w, c) = (.error e, (w', c')) ∧
      hs.length ≤ cad.passes.toNat ∧ PassChain (fun x => ops.n3 x.1) E (m, q w) hs m1 ∧ c'.text = c.text ++ t ∧
      t <+: begunText report identity.lines.flatten cad.checkpoint writes note cad.passes.toNat hs ∧
      (∃ d, d ≤ hs.length ∧ hs.length ≤ d + 1 ∧ L w (dueNotes cad.checkpoint writes note d 0) w') ∧ ∀ j, N (note j)) := by
  obtain ⟨n0, hn0⟩ := T.any
  unfold executeMoveRunAloud
  simp only [onConsole]
  rcases hs0 : sayAll faults identity.lines c with ⟨r, c1⟩
  cases r with
  | error e =>
    obtain ⟨t, h1, h2⟩ := sayAll_text faults identity.lines c
    rw [hs0] at h1
    refine .inr ⟨e, w, c1, t, [], (m, q w), fun _ => n0, rfl, by simp, .nil _, h1, h2.trans ?_,
      ⟨0, by simp, by simp, T.refl w⟩, fun _ => hn0⟩
    unfold begunText
    rw [List.append_assoc]
    exact List.prefix_append _ _
  | ok u =>
    have t1 := sayAll_ok hs0
    simp only
    rcases runLoopAloud_tells (cad := cad) (writes := writes) T cad.passes.toNat 0 ⟨m, {}, s, 0⟩ w c1 [] d with
      ⟨v, w2, c2, hs, note, e2, hn, hch, hD, ht, hL, hN⟩ | ⟨x, w2, c2, t, hs, m1, note, e2, hn, hch, ht, hpre, hL, hN⟩
    · rw [Nat.cast_zero] at e2
      simp only [e2]
      simp only [List.nil_append] at hD
      rcases hy : say faults runResultsLine c2 with ⟨r, c3⟩
      cases r with
      | error e =>
        obtain ⟨t, h1, h2⟩ := say_text faults runResultsLine c2
        rw [hy] at h1
        refine .inr ⟨e, w2, c3, identity.lines.flatten ++
          passesText report cad.checkpoint writes note 0 [] hs ++ t, hs, (v.current, q w2), note, rfl, hn.le, hch,
          by rw [h1, ht, t1]; simp, ?_, ⟨hs.length, le_refl _, by omega, hL⟩, hN⟩
        unfold begunText
        rw [List.prefix_append_right_inj, if_neg (by omega), ← runResultsLine_eq]
        exact h2.trans (List.prefix_append _ _)
      | ok _ =>
        have t3 := say_ok hy
        simp only
        rw [T.reports]
        simp only [onConsole]
        rcases hr : sayAll faults (R v.totals v.state) c3 with ⟨r, c4⟩
        cases r with
        | error e =>
          obtain ⟨t, h1, h2⟩ := sayAll_text faults (R v.totals v.state) c3
          rw [hr] at h1
          rw [T.text _ _ _ hD] at h2
          refine .inr ⟨e, w2, c4, identity.lines.flatten ++
            passesText report cad.checkpoint writes note 0 [] hs ++ (runResultsLine ++ t), hs, (v.current, q w2), note, rfl,
            hn.le, hch, by rw [h1, t3, ht, t1]; simp, ?_, ⟨hs.length, le_refl _, by omega, hL⟩, hN⟩
          unfold begunText
          rw [List.prefix_append_right_inj, if_neg (by omega), ← runResultsLine_eq, List.prefix_append_right_inj]
          exact h2
        | ok _ =>
          have t4 := sayAll_ok hr
          rw [T.text _ _ _ hD] at t4
          refine .inl ⟨_, w2, c4, hs, note, rfl, hn, hch, hD, ?_, hL, hN⟩
          rw [t4, t3, ht, t1]
          unfold runText
          rw [← runResultsLine_eq]
          simp
    · rw [Nat.cast_zero] at e2
      simp only [e2]
      refine .inr ⟨x, w2, c2, identity.lines.flatten ++ t, hs, m1, note, rfl, hn, hch, by rw [ht, t1]; simp, ?_, hL, hN⟩
      unfold begunText
      rw [List.append_assoc, List.prefix_append_right_inj]
      refine hpre.trans ?_
      rw [List.prefix_append_right_inj]
      split
      · simp
      · simp
end


/-! ### The run without its output -/

theorem sayAll_cases (faults : PrintFaults) (ts : List Bytes) (c : Console) :
    (∃ c', sayAll faults ts c = (.ok (), c')) ∨
      ((∃ e c', sayAll faults ts c = (.error e, c')) ∧ ¬ ∀ n, faults n = none) := by
  induction ts generalizing c with
  | nil => exact .inl ⟨c, rfl⟩
  | cons t ts ih =>
    unfold sayAll say
    rcases h : faults c.calls with _ | ⟨n, e⟩
    · simpa using ih _
    · exact .inr ⟨⟨e, _, rfl⟩, fun hn => by simp [hn] at h⟩

theorem say_cases (faults : PrintFaults) (t : Bytes) (c : Console) :
    (∃ c', say faults t c = (.ok (), c')) ∨
      ((∃ e c', say faults t c = (.error e, c')) ∧ ¬ ∀ n, faults n = none) := by
  unfold say
  rcases h : faults c.calls with _ | ⟨n, e⟩
  · exact .inl ⟨_, rfl⟩
  · exact .inr ⟨⟨e, _, rfl⟩, fun hn => by simp [hn] at h⟩

section
variable {M S W : Type} {faults : PrintFaults} {ops : RunOps M S (W × Console)} {ops0 : RunOps M S W} {cad : Cadence}
  {writes : Bool} {R : CommandResults → S → List Bytes}

/-- The operations agree apart from output. -/
structure Erases (faults : PrintFaults) (ops : RunOps M S (W × Console)) (ops0 : RunOps M S W)
    (R : CommandResults → S → List Bytes) : Prop where
  n3 : ops.n3 = ops0.n3
  pass : ∀ m s n w c, ((ops.pass m s n (w, c)).1, (ops.pass m s n (w, c)).2.1) = ops0.pass m s n w
  reports : ∀ m c s, ops.report m c s = onConsole (sayAll faults (R c s))
  quiet : ∀ m c s w, ops0.report m c s w = (.ok (), w)
  checkpoint : ∀ m c s n, SameUnlessPrintFails faults (ops.checkpoint m c s n) (ops0.checkpoint m c s n)

theorem runPassAloud_erases (T : Erases faults ops ops0 R) (n : ℤ) (v : RunVars M S) :
    SameUnlessPrintFails faults (runPassAloud faults ops cad writes n v) (runPass ops0 cad writes n v) := by
  intro w c hok
  unfold runPassAloud at hok ⊢
  unfold runPass
  simp only [onConsole] at hok ⊢
  rcases say_cases faults (passLine n) c with ⟨c1, hs⟩ | ⟨⟨e, c1, hs⟩, hf⟩
  swap
  · simp [hs, hf] at hok
  simp only [hs] at hok ⊢
  have hp0 := T.pass v.current v.state (ops.n3 v.current) w c1
  rw [← T.n3, ← hp0]
  rcases hp : ops.pass v.current v.state (ops.n3 v.current) (w, c1) with ⟨r, w2, c2⟩
  simp only [hp] at hok ⊢
  cases r with
  | error e => rfl
  | ok p =>
    simp only at hok ⊢
    by_cases hc : n % cad.checkpoint = 0
    · simp only [hc, if_true, T.reports, T.quiet, onConsole] at hok ⊢
      rcases sayAll_cases faults (R (v.totals.accumulate p.commandResults) p.strategyState) c2 with
        ⟨c3, hr⟩ | ⟨⟨e, c3, hr⟩, hf⟩
      swap
      · simp [hr, hf] at hok
      simp only [hr] at hok ⊢
      cases writes with
      | false => rfl
      | true =>
        simp only [if_true] at hok ⊢
        rcases say_cases faults (checkpointLine n) c3 with ⟨c4, hy⟩ | ⟨⟨e, c4, hy⟩, hf⟩
        swap
        · simp [hy, hf] at hok
        simp only [hy] at hok ⊢
        have hk0 := T.checkpoint p.manifold (v.totals.accumulate p.commandResults) p.strategyState n w2 c4
        rcases hk : ops.checkpoint p.manifold (v.totals.accumulate p.commandResults) p.strategyState n (w2, c4)
          with ⟨r, w5, c5⟩
        simp only [hk] at hok hk0 ⊢
        cases r with
        | error e => rw [← hk0 (by simpa using hok)]
        | ok _ => rw [← hk0 (by simp)]
    · simp only [hc, if_false]

theorem runLoopAloud_erases (T : Erases faults ops ops0 R) : ∀ (n : ℕ) (k : ℤ) (v : RunVars M S),
    SameUnlessPrintFails faults (runLoopAloud faults ops cad writes n k v) (runLoop ops0 cad writes n k v)
  | 0, _, _ => fun _ _ _ => rfl
  | n + 1, k, v => by
    intro w c hok
    have h0 := runPassAloud_erases (cad := cad) (writes := writes) T (k + 1) v w c
    unfold runLoopAloud at hok ⊢
    unfold runLoop
    rcases hp : runPassAloud faults ops cad writes (k + 1) v (w, c) with ⟨r, w1, c1⟩
    simp only [hp] at hok h0 ⊢
    cases r with
    | error e => rw [← h0 (by simpa using hok)]
    | ok v' =>
      rw [← h0 (by simp)]
      exact runLoopAloud_erases T n (k + 1) v' w1 c1 hok

theorem executeMoveRunAloud_erases (T : Erases faults ops ops0 R) (identity : RunIdentity) (m : M) (s : S) :
    SameUnlessPrintFails faults (executeMoveRunAloud faults ops cad identity writes m s)
      (executeMoveRun ops0 cad writes m s) := by
  intro w c hok
  unfold executeMoveRunAloud at hok ⊢
  unfold executeMoveRun
  simp only [onConsole] at hok ⊢
  rcases sayAll_cases faults identity.lines c with ⟨c1, hs⟩ | ⟨⟨e, c1, hs⟩, hf⟩
  swap
  · simp [hs, hf] at hok
  simp only [hs] at hok ⊢
  have h0 := runLoopAloud_erases (cad := cad) (writes := writes) T cad.passes.toNat 0 ⟨m, {}, s, 0⟩ w c1
  rcases hp : runLoopAloud faults ops cad writes cad.passes.toNat 0 ⟨m, {}, s, 0⟩ (w, c1) with ⟨r, w2, c2⟩
  simp only [hp] at hok h0 ⊢
  cases r with
  | error e => rw [← h0 (by simpa using hok)]
  | ok v =>
    rw [← h0 (by simp)]
    simp only [T.quiet] at hok ⊢
    rcases say_cases faults runResultsLine c2 with ⟨c3, hy⟩ | ⟨⟨e, c3, hy⟩, hf⟩
    swap
    · simp [hy, hf] at hok
    simp only [hy, T.reports, onConsole] at hok ⊢
    rcases sayAll_cases faults (R v.totals v.state) c3 with ⟨c4, hr⟩ | ⟨⟨e, c4, hr⟩, hf⟩
    swap
    · simp [hr, hf] at hok
    simp only [hr]
end


/-! ### Invariants of a run with its output -/

section
variable {M S W : Type} {faults : PrintFaults} {ops : RunOps M S (W × Console)} {cad : Cadence}
  {writes : Bool} {I : W → Bytes → Prop}

/-- A property of the world and the printed text that nothing in a run destroys. -/
structure Lasting (faults : PrintFaults) (ops : RunOps M S (W × Console)) (R : CommandResults → S → List Bytes)
    (I : W → Bytes → Prop) : Prop where
  grows : ∀ {w t} u, I w t → I w (t ++ u)
  pass : ∀ m s n {w c}, I w c.text → I (ops.pass m s n (w, c)).2.1 (ops.pass m s n (w, c)).2.2.text
  reports : ∀ m c s, ops.report m c s = onConsole (sayAll faults (R c s))
  checkpoint : ∀ m cmd s n {w c}, I w c.text →
    I (ops.checkpoint m cmd s n (w, c)).2.1 (ops.checkpoint m cmd s n (w, c)).2.2.text

theorem Lasting.say {R : CommandResults → S → List Bytes} (T : Lasting faults ops R I) {w : W} {c c' : Console}
    {t : Bytes} {r : Except Exc Unit} (h : I w c.text) (e : CDT.say faults t c = (r, c')) : I w c'.text := by
  obtain ⟨u, h1, _⟩ := say_text faults t c
  rw [e] at h1
  rw [h1]
  exact T.grows _ h

theorem Lasting.sayAll {R : CommandResults → S → List Bytes} (T : Lasting faults ops R I) {w : W} {c c' : Console}
    {ts : List Bytes} {r : Except Exc Unit} (h : I w c.text) (e : CDT.sayAll faults ts c = (r, c')) : I w c'.text := by
  obtain ⟨u, h1, _⟩ := sayAll_text faults ts c
  rw [e] at h1
  rw [h1]
  exact T.grows _ h

theorem runPassAloud_lasting {R : CommandResults → S → List Bytes} (T : Lasting faults ops R I) (n : ℤ)
    (v : RunVars M S) {w : W} {c : Console} (h : I w c.text) :
    I (runPassAloud faults ops cad writes n v (w, c)).2.1 (runPassAloud faults ops cad writes n v (w, c)).2.2.text := by
  unfold runPassAloud
  simp only [onConsole]
  rcases hs : say faults (passLine n) c with ⟨r, c1⟩
  have h1 := T.say h hs
  cases r with
  | error e => exact h1
  | ok _ =>
    simp only
    have h2 := T.pass v.current v.state (ops.n3 v.current) h1
    rcases hp : ops.pass v.current v.state (ops.n3 v.current) (w, c1) with ⟨r, w2, c2⟩
    rw [hp] at h2
    cases r with
    | error e => exact h2
    | ok p =>
      simp only at h2 ⊢
      by_cases hc : n % cad.checkpoint = 0
      · rw [if_pos hc, T.reports]
        simp only [onConsole]
        rcases hr : sayAll faults (R (v.totals.accumulate p.commandResults) p.strategyState) c2 with ⟨r, c3⟩
        have h3 := T.sayAll h2 hr
        cases r with
        | error e => exact h3
        | ok _ =>
          simp only
          cases writes with
          | false => exact h3
          | true =>
            simp only [if_true]
            rcases hy : say faults (checkpointLine n) c3 with ⟨r, c4⟩
            have h4 := T.say h3 hy
            cases r with
            | error e => exact h4
            | ok _ =>
              simp only
              have h5 := T.checkpoint p.manifold (v.totals.accumulate p.commandResults) p.strategyState n h4
              rcases hk : ops.checkpoint p.manifold (v.totals.accumulate p.commandResults) p.strategyState n (w2, c4)
                with ⟨r, w5, c5⟩
              rw [hk] at h5
              cases r <;> exact h5
      · rw [if_neg hc]
        exact h2

theorem runLoopAloud_lasting {R : CommandResults → S → List Bytes} (T : Lasting faults ops R I) :
    ∀ (n : ℕ) (k : ℤ) (v : RunVars M S) {w : W} {c : Console}, I w c.text →
    I (runLoopAloud faults ops cad writes n k v (w, c)).2.1 (runLoopAloud faults ops cad writes n k v (w, c)).2.2.text
  | 0, _, _, _, _, h => h
  | n + 1, k, v, w, c, h => by
    unfold runLoopAloud
    have h1 := runPassAloud_lasting (cad := cad) (writes := writes) T (k + 1) v h
    rcases hp : runPassAloud faults ops cad writes (k + 1) v (w, c) with ⟨r, w1, c1⟩
    rw [hp] at h1
    cases r with
    | error e => exact h1
    | ok v' => exact runLoopAloud_lasting T n (k + 1) v' h1

theorem executeMoveRunAloud_lasting {R : CommandResults → S → List Bytes} (T : Lasting faults ops R I)
    (identity : RunIdentity) (m : M) (s : S) {w : W} {c : Console} (h : I w c.text) :
    I (executeMoveRunAloud faults ops cad identity writes m s (w, c)).2.1
      (executeMoveRunAloud faults ops cad identity writes m s (w, c)).2.2.text := by
  unfold executeMoveRunAloud
  simp only [onConsole]
  rcases hs : sayAll faults identity.lines c with ⟨r, c1⟩
  have h1 := T.sayAll h hs
  cases r with
  | error e => exact h1
  | ok _ =>
    simp only
    have h2 := runLoopAloud_lasting (cad := cad) (writes := writes) T cad.passes.toNat 0 ⟨m, {}, s, 0⟩ h1
    rcases hp : runLoopAloud faults ops cad writes cad.passes.toNat 0 ⟨m, {}, s, 0⟩ (w, c1) with ⟨r, w2, c2⟩
    rw [hp] at h2
    cases r with
    | error e => exact h2
    | ok v =>
      simp only
      rcases hy : say faults runResultsLine c2 with ⟨r, c3⟩
      have h3 := T.say h2 hy
      cases r with
      | error e => exact h3
      | ok _ =>
        simp only
        rw [T.reports]
        simp only [onConsole]
        rcases hr : sayAll faults (R v.totals v.state) c3 with ⟨r, c4⟩
        have h4 := T.sayAll h3 hr
        cases r <;> exact h4
end

/-! ### A run ended by a failed print -/

section
variable {M S W : Type} {faults : PrintFaults} {ops : RunOps M S (W × Console)} {ops0 : RunOps M S W} {cad : Cadence}
  {writes : Bool} {R : CommandResults → S → List Bytes} {K : W → W → Prop}

/-- A pass that ends with an exception is the silent one, or has stopped before writing. -/
theorem runPassAloud_error (T : Erases faults ops ops0 R) (refl : ∀ w, K w w)
    (pass : ∀ m s n w, K w (ops0.pass m s n w).2)
    (checkpoint : ∀ m cmd s n w w' c e, (ops.checkpoint m cmd s n (w, c)).1 = .error e → K w' w →
      K w' (ops.checkpoint m cmd s n (w, c)).2.1 ∨
      ops0.checkpoint m cmd s n w = (.error e, (ops.checkpoint m cmd s n (w, c)).2.1))
    (n : ℤ) (v : RunVars M S) {w w' : W} {c c' : Console} {e : Exc}
    (h : runPassAloud faults ops cad writes n v (w, c) = (.error e, (w', c'))) :
    K w w' ∨ runPass ops0 cad writes n v w = (.error e, w') := by
  unfold runPassAloud at h
  unfold runPass
  simp only [onConsole] at h
  rcases hs : say faults (passLine n) c with ⟨r, c1⟩
  rw [hs] at h
  cases r with
  | error e => cases h; exact .inl (refl _)
  | ok _ =>
    simp only at h
    have hp0 := T.pass v.current v.state (ops.n3 v.current) w c1
    have hk0 := pass v.current v.state (ops.n3 v.current) w
    simp only [← T.n3, ← hp0] at hk0 ⊢
    rcases hp : ops.pass v.current v.state (ops.n3 v.current) (w, c1) with ⟨r, w2, c2⟩
    simp only [hp] at h hk0 ⊢
    cases r with
    | error e => cases h; exact .inl hk0
    | ok p =>
      simp only at h ⊢
      by_cases hc : n % cad.checkpoint = 0
      · simp only [hc, if_true, T.reports, T.quiet, onConsole] at h ⊢
        rcases hr : sayAll faults (R (v.totals.accumulate p.commandResults) p.strategyState) c2 with ⟨r, c3⟩
        rw [hr] at h
        cases r with
        | error e => cases h; exact .inl hk0
        | ok _ =>
          simp only at h
          cases writes with
          | false => cases h
          | true =>
            simp only [if_true] at h ⊢
            rcases hy : say faults (checkpointLine n) c3 with ⟨r, c4⟩
            rw [hy] at h
            cases r with
            | error e => cases h; exact .inl hk0
            | ok _ =>
              simp only at h
              have hcp := checkpoint p.manifold (v.totals.accumulate p.commandResults) p.strategyState n w2 w c4
              rcases hk : ops.checkpoint p.manifold (v.totals.accumulate p.commandResults) p.strategyState n (w2, c4)
                with ⟨r, w5, c5⟩
              simp only [hk] at h hcp
              cases r with
              | ok _ => cases h
              | error e =>
                cases h
                rcases hcp e rfl hk0 with h1 | h1
                · exact .inl h1
                · rw [h1]; exact .inr rfl
      · simp [hc] at h

/-- The loop with its output, by cases. -/
theorem runLoopAloud_cases (T : Erases faults ops ops0 R) (refl : ∀ w, K w w)
    (pass : ∀ m s n w, K w (ops0.pass m s n w).2)
    (checkpoint : ∀ m cmd s n w w' c e, (ops.checkpoint m cmd s n (w, c)).1 = .error e → K w' w →
      K w' (ops.checkpoint m cmd s n (w, c)).2.1 ∨
      ops0.checkpoint m cmd s n w = (.error e, (ops.checkpoint m cmd s n (w, c)).2.1))
    (J : ℕ → RunVars M S → W → Prop) (Z : ℕ → W → Prop)
    (step : ∀ (k : ℕ) v w v' w', J k v w → runPass ops0 cad writes ((k : ℤ) + 1) v w = (.ok v', w') → J (k + 1) v' w')
    (fail : ∀ (k : ℕ) v w e w', J k v w → runPass ops0 cad writes ((k : ℤ) + 1) v w = (.error e, w') → Z k w')
    (stop : ∀ (k : ℕ) v w w', J k v w → K w w' → Z k w') :
    ∀ (n k : ℕ) (v : RunVars M S) (w : W) (c : Console), J k v w →
    (∃ v' w' c', runLoopAloud faults ops cad writes n (k : ℤ) v (w, c) = (.ok v', (w', c')) ∧ J (k + n) v' w') ∨
    ∃ e w' c' j, runLoopAloud faults ops cad writes n (k : ℤ) v (w, c) = (.error e, (w', c')) ∧ j < k + n ∧ Z j w'
  | 0, k, v, w, c, h => .inl ⟨v, w, c, rfl, h⟩
  | n + 1, k, v, w, c, h => by
    unfold runLoopAloud
    rcases hp : runPassAloud faults ops cad writes ((k : ℤ) + 1) v (w, c) with ⟨r, w1, c1⟩
    cases r with
    | error e =>
      refine .inr ⟨e, w1, c1, k, rfl, by omega, ?_⟩
      rcases runPassAloud_error T refl pass checkpoint _ _ hp with h1 | h1
      · exact stop k v w w1 h h1
      · exact fail k v w e w1 h h1
    | ok v' =>
      have h0 := runPassAloud_erases (cad := cad) (writes := writes) T ((k : ℤ) + 1) v w c (by simp [hp])
      rw [hp] at h0
      have hj := step k v w v' w1 h h0.symm
      rcases runLoopAloud_cases T refl pass checkpoint J Z step fail stop n (k + 1) v' w1 c1 hj with
        ⟨v2, w2, c2, e2, hj2⟩ | ⟨e, w2, c2, j, e2, hlt, hz⟩
      · refine .inl ⟨v2, w2, c2, ?_, by rw [show k + (n + 1) = k + 1 + n by omega]; exact hj2⟩
        rw [← e2]; push_cast; rfl
      · refine .inr ⟨e, w2, c2, j, ?_, by omega, hz⟩
        rw [← e2]; push_cast; rfl
end


/-! ### Reading the numbers back -/

/-- A character of a written number. -/
def isNumeric (b : Byte) : Bool := b = minusSign || (decide (48 ≤ b.toNat) && decide (b.toNat ≤ 57))

theorem decimalInt_numeric (i : ℤ) : ∀ b ∈ decimalInt i, isNumeric b = true := by
  intro b hb
  unfold isNumeric
  rcases mem_decimalInt hb with rfl | ⟨h1, h2⟩
  · simp
  · simp [h1, h2]

theorem decimalInt_injective : Function.Injective decimalInt := by
  intro a b h
  have key : ∀ n : ℕ, ∀ m : ℕ, minusSign :: decimal n ≠ decimal m := fun n m e => by
    have := mem_decimal (n := m) (b := minusSign) (by rw [← e]; simp)
    simp [minusSign] at this
  unfold decimalInt at h
  split at h <;> split at h
  · have := decimal_injective (List.cons.inj h).2; omega
  · exact absurd h (key _ _)
  · exact absurd h.symm (key _ _)
  · have := decimal_injective h; omega

/-- Words that cannot be taken for parts of a number. -/
def Fenced (w : String) : Bool := match ascii w with
  | [] => false
  | b :: _ => !isNumeric b

theorem split_number {a b : ℤ} {p q r r' : Bytes} (hp : p = q) (hf : ∃ x xs, p = x :: xs ∧ isNumeric x = false)
    (h : decimalInt a ++ (p ++ r) = decimalInt b ++ (q ++ r')) : a = b ∧ r = r' := by
  subst hp
  obtain ⟨x, xs, rfl, hx⟩ := hf
  have tw : ∀ (i : ℤ) (s : Bytes), (decimalInt i ++ (x :: xs ++ s)).takeWhile isNumeric = decimalInt i := fun i s => by
    rw [List.takeWhile_append_of_pos (decimalInt_numeric i)]; simp [hx]
  have e : decimalInt a = decimalInt b := by rw [← tw a r, h, tw b r']
  have := decimalInt_injective e
  subst this
  rw [List.append_cancel_left_eq, List.append_cancel_left_eq] at h
  exact ⟨rfl, h⟩

theorem sentence_inj : ∀ (w : String) (ws : List String), (∀ x ∈ ws, Fenced x = true) → ∀ (ns ms : List ℤ) (r r' : Bytes),
    ns.length = ws.length → ms.length = ws.length →
    sentence (w :: ws) (ns.map decimalInt) ++ r = sentence (w :: ws) (ms.map decimalInt) ++ r' → ns = ms ∧ r = r'
  | w, [], _, ns, ms, r, r', hn, hm, h => by
    have h1 := List.length_eq_zero_iff.1 hn
    have h2 := List.length_eq_zero_iff.1 hm
    subst h1; subst h2
    exact ⟨rfl, by simpa [sentence] using h⟩
  | w, x :: xs, hf, n :: ns, m :: ms, r, r', hn, hm, h => by
    simp only [List.map_cons, sentence, List.append_assoc, List.append_cancel_left_eq] at h
    have hx : ∃ y ys, ascii x = y :: ys ∧ isNumeric y = false := by
      have := hf x (by simp)
      unfold Fenced at this
      rcases e : ascii x with _ | ⟨y, ys⟩
      · simp [e] at this
      · exact ⟨y, ys, rfl, by simpa [e] using this⟩
    have key : ∀ l : List ℤ, sentence (x :: xs) (l.map decimalInt) =
        ascii x ++ (match l with | [] => sentence xs [] | a :: as => decimalInt a ++ sentence xs (as.map decimalInt)) := by
      intro l; cases l <;> simp [sentence]
    have h' := h
    rw [key, key, List.append_assoc, List.append_assoc] at h'
    obtain ⟨e1, _⟩ := split_number rfl hx h'
    subst e1
    rw [List.append_cancel_left_eq] at h
    obtain ⟨e2, e3⟩ := sentence_inj x xs (fun y hy => hf y (by simp [hy])) ns ms r r' (by simpa using hn)
      (by simpa using hm) h
    exact ⟨by rw [e2], e3⟩

theorem tracker_ext {a b : Tracker} (h1 : a.twoThreeMoves = b.twoThreeMoves) (h2 : a.threeTwoMoves = b.threeTwoMoves)
    (h3 : a.twoSixMoves = b.twoSixMoves) (h4 : a.sixTwoMoves = b.sixTwoMoves)
    (h5 : a.fourFourMoves = b.fourFourMoves) : a = b := by
  funext i
  match i with
  | 0 => exact h1
  | 1 => exact h2
  | 2 => exact h3
  | 3 => exact h4
  | 4 => exact h5

theorem metroReport_inj {c c' : CommandResults} {s s' : RunStats} {r r' : Bytes}
    (h : (metroResultLines c s).flatten ++ r = (metroResultLines c' s').flatten ++ r') :
    c = c' ∧ s.proposed = s'.proposed ∧ s.accepted = s'.accepted ∧ s.rejected = s'.rejected ∧ r = r' := by
  unfold metroResultLines at h
  simp only [List.flatten_cons, List.flatten_nil, List.append_nil] at h
  rw [format_eq _ ["=== Move Results ===\n"] _ (by decide +kernel) rfl,
    format_eq _ ["There were ", " proposed moves with ", " accepted moves and ", " rejected moves.\n"] _
      (by decide +kernel) rfl,
    format_eq _ ["There were ", " candidate construction attempts with ", " successful candidates and ",
      " failed candidates.\n"] _ (by decide +kernel) rfl,
    metroMoveLine_eq "(2,3)" _ _ _ _ _ _ (by decide +kernel), metroMoveLine_eq "(3,2)" _ _ _ _ _ _ (by decide +kernel),
    metroMoveLine_eq "(2,6)" _ _ _ _ _ _ (by decide +kernel), metroMoveLine_eq "(6,2)" _ _ _ _ _ _ (by decide +kernel),
    metroMoveLine_eq "(4,4)" _ _ _ _ _ _ (by decide +kernel),
    format_eq _ ["There were ", " proposed moves with ", " accepted moves and ", " rejected moves.\n"] _
      (by decide +kernel) rfl,
    format_eq _ ["There were ", " candidate construction attempts with ", " successful candidates and ",
      " failed candidates.\n"] _ (by decide +kernel) rfl,
    metroMoveLine_eq "(2,3)" _ _ _ _ _ _ (by decide +kernel), metroMoveLine_eq "(3,2)" _ _ _ _ _ _ (by decide +kernel),
    metroMoveLine_eq "(2,6)" _ _ _ _ _ _ (by decide +kernel), metroMoveLine_eq "(6,2)" _ _ _ _ _ _ (by decide +kernel),
    metroMoveLine_eq "(4,4)" _ _ _ _ _ _ (by decide +kernel)] at h
  simp only [List.append_assoc, List.append_cancel_left_eq] at h
  obtain ⟨-, h⟩ := sentence_inj _ _ (by decide +kernel) _ _ _ _ rfl rfl h
  obtain ⟨-, h⟩ := sentence_inj _ _ (by decide +kernel) _ _ _ _ rfl rfl h
  obtain ⟨e1, h⟩ := sentence_inj _ _ (by decide +kernel) _ _ _ _ rfl rfl h
  obtain ⟨e2, h⟩ := sentence_inj _ _ (by decide +kernel) _ _ _ _ rfl rfl h
  obtain ⟨e3, h⟩ := sentence_inj _ _ (by decide +kernel) _ _ _ _ rfl rfl h
  obtain ⟨e4, h⟩ := sentence_inj _ _ (by decide +kernel) _ _ _ _ rfl rfl h
  obtain ⟨e5, h⟩ := sentence_inj _ _ (by decide +kernel) _ _ _ _ rfl rfl h
  simp only [List.cons.injEq, and_true] at e1 e2 e3 e4 e5
  obtain ⟨p1, a1, r1, t1, s1, f1⟩ := e1
  obtain ⟨p2, a2, r2, t2, s2, f2⟩ := e2
  obtain ⟨p3, a3, r3, t3, s3, f3⟩ := e3
  obtain ⟨p4, a4, r4, t4, s4, f4⟩ := e4
  obtain ⟨p5, a5, r5, t5, s5, f5⟩ := e5
  refine ⟨?_, tracker_ext p1 p2 p3 p4 p5, tracker_ext a1 a2 a3 a4 a5, tracker_ext r1 r2 r3 r4 r5, h⟩
  obtain ⟨x, y, z⟩ := c
  obtain ⟨x', y', z'⟩ := c'
  obtain rfl := tracker_ext t1 t2 t3 t4 t5
  obtain rfl := tracker_ext s1 s2 s3 s4 s5
  obtain rfl := tracker_ext f1 f2 f3 f4 f5
  rfl

theorem alwaysReport_inj {c c' : CommandResults} {r r' : Bytes}
    (h : (alwaysResultLines c).flatten ++ r = (alwaysResultLines c').flatten ++ r') : c = c' ∧ r = r' := by
  unfold alwaysResultLines at h
  simp only [List.flatten_cons, List.flatten_nil, List.append_nil] at h
  rw [alwaysMoveLine_eq "(2,3)" _ _ _ (by decide +kernel), alwaysMoveLine_eq "(3,2)" _ _ _ (by decide +kernel),
    alwaysMoveLine_eq "(2,6)" _ _ _ (by decide +kernel), alwaysMoveLine_eq "(6,2)" _ _ _ (by decide +kernel),
    alwaysMoveLine_eq "(4,4)" _ _ _ (by decide +kernel),
    alwaysMoveLine_eq "(2,3)" _ _ _ (by decide +kernel), alwaysMoveLine_eq "(3,2)" _ _ _ (by decide +kernel),
    alwaysMoveLine_eq "(2,6)" _ _ _ (by decide +kernel), alwaysMoveLine_eq "(6,2)" _ _ _ (by decide +kernel),
    alwaysMoveLine_eq "(4,4)" _ _ _ (by decide +kernel)] at h
  simp only [List.append_assoc, List.append_cancel_left_eq] at h
  obtain ⟨e1, h⟩ := sentence_inj _ _ (by decide +kernel) _ _ _ _ rfl rfl h
  obtain ⟨e2, h⟩ := sentence_inj _ _ (by decide +kernel) _ _ _ _ rfl rfl h
  obtain ⟨e3, h⟩ := sentence_inj _ _ (by decide +kernel) _ _ _ _ rfl rfl h
  obtain ⟨e4, h⟩ := sentence_inj _ _ (by decide +kernel) _ _ _ _ rfl rfl h
  obtain ⟨e5, h⟩ := sentence_inj _ _ (by decide +kernel) _ _ _ _ rfl rfl h
  simp only [List.cons.injEq, and_true] at e1 e2 e3 e4 e5
  obtain ⟨t1, s1, f1⟩ := e1
  obtain ⟨t2, s2, f2⟩ := e2
  obtain ⟨t3, s3, f3⟩ := e3
  obtain ⟨t4, s4, f4⟩ := e4
  obtain ⟨t5, s5, f5⟩ := e5
  refine ⟨?_, h⟩
  obtain ⟨x, y, z⟩ := c
  obtain ⟨x', y', z'⟩ := c'
  obtain rfl := tracker_ext t1 t2 t3 t4 t5
  obtain rfl := tracker_ext s1 s2 s3 s4 s5
  obtain rfl := tracker_ext f1 f2 f3 f4 f5
  rfl

end CDT

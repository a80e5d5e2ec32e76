import Verif.Model.Program
import Verif.Model.Viewer
/-
The command lines of the three programs, from the words after the program's name to the values
`main` sees.

The option tables are those of the programs.  The reading of the words is that of
Boost.Program_options in its default style (`unix_style`), which is not part of /repo: the functions
below follow Boost's `cmdline::run`, `parse_long_option`, `parse_short_option`, `parse_terminator`,
`finish_option`, `options_description::find_nothrow`, `store` and `lexical_cast`, as far as the three
programs use them (every option takes no value or exactly one; no positional options are described).
Every exception of that library ends in a handler of `main` that returns 1; it is `none` here.
-/
namespace CDT

/-- A described option: long name, letter, whether it takes a value. -/
structure CliOption where
  long : Bytes
  letter : Option Byte
  valued : Bool
  deriving DecidableEq

/-- An option on the command line with its value, by its long name. -/
structure CliUse where
  name : Bytes
  value : Option Bytes
  deriving DecidableEq

/-- `option_description::match` with a full match: the long name, or a dash and the letter. -/
def CliOption.called (o : CliOption) (name : Bytes) : Bool :=
  o.long == name || (match o.letter with | some c => name == [minusSign, c] | none => false)

/-- `options_description::find_nothrow` (Boost): a full match, else (with `guess`) the only long name that
begins so; `none` if it throws. -/
def findCli (table : List CliOption) (guess : Bool) (name : Bytes) : Option (Option CliOption) :=
  match table.filter (·.called name) with
  | [o] => some (some o)
  | _ :: _ :: _ => none
  | [] =>
    match if guess then table.filter (fun o => name.isPrefixOf o.long) else [] with
    | [] => some none
    | [o] => some (some o)
    | _ :: _ :: _ => none

/-- `cmdline::parse_long_option` (Boost) on one word: not such a word, or `none` if it throws, or the name
and the adjacent value. -/
def longWord (word : Bytes) : Option (Option (Bytes × Option Bytes)) :=
  match word with
  | a :: b :: c :: rest =>
    if a = minusSign ∧ b = minusSign then
      match (c :: rest).span (· != equalsSign) with
      | (name, []) => some (some (name, none))
      | (_, [_]) => none
      | (name, _ :: v) => some (some (name, some v))
    else some none
  | _ => some none

/-- The loop of `cmdline::parse_short_option` (Boost) after the first letter `c`: the letters before the
last one, the last one, and what follows it. -/
def shortGroup (table : List CliOption) : Byte → Bytes → Option (List Bytes × Bytes × Option Bytes)
  | c, [] => some ([], [minusSign, c], none)
  | c, d :: more =>
    match findCli table false [minusSign, c] with
    | none => none
    | some found =>
      if (match found with | some o => !o.valued | none => false) then
        (shortGroup table d more).map fun (before, last) => ([minusSign, c] :: before, last)
      else some ([], [minusSign, c], some (d :: more))

/-- Whether a word is of the form of an option (Boost's style parsers applied to it alone); `none` if one
of them throws. -/
def looksLikeOption (table : List CliOption) (word : Bytes) : Option Bool :=
  match longWord word with
  | none => none
  | some (some _) => some true
  | some none =>
    match word with
    | a :: b :: rest =>
      if a = minusSign ∧ b ≠ minusSign then (shortGroup table b rest).map fun _ => true else some false
    | _ => some false

/-- `cmdline::finish_option` (Boost): the option a name stands for with its value, and whether the next word
was taken as the value. -/
def finishCli (table : List CliOption) (name : Bytes) (adjacent : Option Bytes) (rest : List Bytes) :
    Option (CliUse × Bool) :=
  match findCli table true name with
  | none => none
  | some none => none
  | some (some o) =>
    match o.valued, adjacent, rest with
    | false, none, _ => some (⟨o.long, none⟩, false)
    | false, some _, _ => none
    | true, some v, _ => some (⟨o.long, some v⟩, false)
    | true, none, [] => none
    | true, none, v :: _ =>
      match looksLikeOption table v with
      | none => none
      | some false => some (⟨o.long, some v⟩, true)
      | some true =>
        match findCli table true v with
        | some none => some (⟨o.long, some v⟩, true)
        | _ => none

/-- `cmdline::run` (Boost): the options on the command line.  Words that are not options and follow none
are put aside; nothing looks at them. -/
def readWords (table : List CliOption) : List Bytes → Option (List CliUse)
  | [] => some []
  | word :: rest =>
    match longWord word with
    | none => none
    | some (some (name, adjacent)) =>
      if name = [] then readWords table rest
      else match finishCli table name adjacent rest with
        | none => none
        | some (u, false) => (readWords table rest).map (u :: ·)
        | some (u, true) =>
          match rest with
          | [] => none
          | _ :: rest' => (readWords table rest').map (u :: ·)
    | some none =>
      match word with
      | a :: b :: more =>
        if a = minusSign ∧ b ≠ minusSign then
          match shortGroup table b more with
          | none => none
          | some (before, name, adjacent) =>
            match before.mapM (fun n => finishCli table n none []) with
            | none => none
            | some us =>
              match finishCli table name adjacent rest with
              | none => none
              | some (u, false) => (readWords table rest).map (us.map Prod.fst ++ [u] ++ ·)
              | some (u, true) =>
                match rest with
                | [] => none
                | _ :: rest' => (readWords table rest').map (us.map Prod.fst ++ [u] ++ ·)
        else if word = [minusSign, minusSign] then some []
        else readWords table rest
      | _ => readWords table rest

/-- `boost::lexical_cast` to a signed 64-bit integer. -/
def castInt64 (text : Bytes) : Option ℤ :=
  match text with
  | [] => none
  | b :: rest =>
    if b = minusSign then (wholeNumeral 10 rest).bind fun n => if n ≤ 2 ^ 63 then some (-(n : ℤ)) else none
    else (wholeNumeral 10 (if b = 43#8 then rest else b :: rest)).bind fun n => if n < 2 ^ 63 then some (n : ℤ) else none

/-- `boost::lexical_cast` to an unsigned 64-bit integer: a minus sign is accepted and negates modulo
`2 ^ 64`. -/
def castUInt64 (text : Bytes) : Option (BitVec 64) :=
  match text with
  | [] => none
  | b :: rest =>
    if b = minusSign then (wholeNumeral 10 rest).bind fun n => if n < 2 ^ 64 then some (-(BitVec.ofNat 64 n)) else none
    else (wholeNumeral 10 (if b = 43#8 then rest else b :: rest)).bind fun n =>
      if n < 2 ^ 64 then some (BitVec.ofNat 64 n) else none

/-- `boost::lexical_cast` to `double` and to `long double`, arbitrary. -/
structure CastFloats where
  double : Bytes → Option LD
  longDouble : Bytes → Option LD

/-- The options of `cdt` (src/cdt.cpp:89-120). -/
def cdtTable : List CliOption :=
  [⟨ascii "help", some 104#8, false⟩, ⟨ascii "version", some 118#8, false⟩, ⟨ascii "spherical", some 115#8, false⟩,
   ⟨ascii "toroidal", some 101#8, false⟩, ⟨ascii "simplices", some 110#8, true⟩, ⟨ascii "timeslices", some 116#8, true⟩,
   ⟨ascii "dimensions", some 100#8, true⟩, ⟨ascii "init", some 105#8, true⟩, ⟨ascii "foliate", some 102#8, true⟩,
   ⟨ascii "no-output", none, false⟩, ⟨ascii "seed", none, true⟩, ⟨ascii "threads", none, true⟩,
   ⟨ascii "alpha", some 97#8, true⟩, ⟨ascii "k", some 107#8, true⟩, ⟨ascii "lambda", some 108#8, true⟩,
   ⟨ascii "passes", some 112#8, true⟩, ⟨ascii "checkpoint", some 99#8, true⟩]

/-- The options of `initialize` (src/initialize.cpp:68-86). -/
def initializeTable : List CliOption :=
  [⟨ascii "help", some 104#8, false⟩, ⟨ascii "version", some 118#8, false⟩, ⟨ascii "spherical", some 115#8, false⟩,
   ⟨ascii "toroidal", some 101#8, false⟩, ⟨ascii "simplices", some 110#8, true⟩, ⟨ascii "timeslices", some 116#8, true⟩,
   ⟨ascii "dimensions", some 100#8, true⟩, ⟨ascii "init", some 105#8, true⟩, ⟨ascii "foliate", some 102#8, true⟩,
   ⟨ascii "seed", none, true⟩, ⟨ascii "threads", none, true⟩, ⟨ascii "output", some 111#8, false⟩]

/-- `po::store` (Boost) of one option into the variables of the programs (src/cdt.cpp:77-120,
src/initialize.cpp:60-86). -/
def storeUse (F : CastFloats) (o : Options) (u : CliUse) : Option Options :=
  let v := u.value.getD []
  if u.name = ascii "help" then some { o with help := true }
  else if u.name = ascii "version" then some { o with version := true }
  else if u.name = ascii "spherical" then some { o with spherical := true }
  else if u.name = ascii "toroidal" then some { o with toroidal := true }
  else if u.name = ascii "simplices" then (castInt64 v).map fun n => { o with simplices := some n }
  else if u.name = ascii "timeslices" then (castInt64 v).map fun n => { o with timeslices := some n }
  else if u.name = ascii "dimensions" then (castInt64 v).map fun n => { o with dimensions := n }
  else if u.name = ascii "init" then (F.double v).map fun x => { o with initialRadius := x }
  else if u.name = ascii "foliate" then (F.double v).map fun x => { o with foliationSpacing := x }
  else if u.name = ascii "no-output" then some { o with noOutput := true }
  else if u.name = ascii "output" then some { o with output := true }
  else if u.name = ascii "seed" then (castUInt64 v).map fun n => { o with seed := some n }
  else if u.name = ascii "threads" then (castInt64 v).map fun n => { o with threads := n }
  else if u.name = ascii "alpha" then (F.longDouble v).map fun x => { o with alpha := some x }
  else if u.name = ascii "k" then (F.longDouble v).map fun x => { o with k := some x }
  else if u.name = ascii "lambda" then (F.longDouble v).map fun x => { o with lambda := some x }
  else if u.name = ascii "passes" then (castInt64 v).map fun n => { o with passes := n }
  else if u.name = ascii "checkpoint" then (castInt64 v).map fun n => { o with checkpoint := n }
  else none

/-- The options of `cdt-viewer` (src/cdt-viewer.cpp:1047-1056). -/
def viewerTable : List CliOption :=
  [⟨ascii "help", some 104#8, false⟩, ⟨ascii "version", some 118#8, false⟩, ⟨ascii "manifest", some 109#8, true⟩,
   ⟨ascii "fixture", some 102#8, true⟩, ⟨ascii "output", some 111#8, true⟩]

/-- `po::store` (Boost) of one option into the variables of the viewer (src/cdt-viewer.cpp:1043-1056). -/
def storeViewerUse (o : ViewerOptions) (u : CliUse) : Option ViewerOptions :=
  let v := u.value.getD []
  if u.name = ascii "help" then some { o with help := true }
  else if u.name = ascii "version" then some { o with version := true }
  else if u.name = ascii "manifest" then some { o with manifest := some v }
  else if u.name = ascii "fixture" then some { o with fixture := v }
  else if u.name = ascii "output" then some { o with output := v }
  else none

/-- `po::store` (Boost) of them all; an option given twice throws `multiple_occurrences`. -/
def storeUses {σ : Type} (store : σ → CliUse → Option σ) : List Bytes → σ → List CliUse → Option σ
  | _, o, [] => some o
  | seen, o, u :: us =>
    if u.name ∈ seen then none
    else match store o u with
      | none => none
      | some o' => storeUses store (u.name :: seen) o' us

/-- `po::parse_command_line` and `po::store` (src/cdt.cpp:122-123, src/initialize.cpp:88-89) on the words
after the program's name. -/
def readCommandLine (table : List CliOption) (F : CastFloats) (words : List Bytes) : Option Options :=
  (readWords table words).bind (storeUses (storeUse F) [] {})

/-- The same for the viewer (src/cdt-viewer.cpp:1058-1059). -/
def readViewerCommandLine (words : List Bytes) : Option ViewerOptions :=
  (readWords viewerTable words).bind (storeUses storeViewerUse [] {})

section
variable {M S P T : Type} (host : Host M S P T) (out : Outside M S) (F : CastFloats)

/-- `cdt` from its command line (src/cdt.cpp:72-280). -/
def cdtProgram (words : List Bytes) (disk : Disk) : ℤ × Machine :=
  cdtMain host out (readCommandLine cdtTable F words) disk

/-- `initialize` from its command line (src/initialize.cpp:55-174). -/
def initializeProgram (words : List Bytes) (disk : Disk) : ℤ × Machine :=
  initializeMain host out (readCommandLine initializeTable F words) disk

end

/-- `cdt-viewer` from its command line (src/cdt-viewer.cpp:1040-1120). -/
def viewerProgram {T : Type} (host : ViewerHost T) (words : List Bytes) (events : List UiEvent) (fs : Files) : Option (ℤ × Files) :=
  viewerMain host (readViewerCommandLine words) events fs

end CDT

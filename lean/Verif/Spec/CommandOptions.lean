import Verif.Model.CommandLine
/-
The options of the programs, as the help texts list them.
-/
namespace CDT.Spec

/-- How the help text names an option (Boost's `option_description::format_name` and `format_parameter`,
without the default): `-a [ --alpha ] arg`, `--no-output`. -/
def helpColumn (o : CliOption) : Bytes :=
  (match o.letter with
    | some c => ascii "-" ++ [c] ++ ascii " [ --" ++ o.long ++ ascii " ]"
    | none => ascii "--" ++ o.long) ++
  if o.valued then ascii " arg" else []

/-- The option columns of `cdt --help`, as README.md:469-490 shows them, without the defaults. -/
def documentedCdt : List String :=
  ["-h [ --help ]", "-v [ --version ]", "-s [ --spherical ]", "-e [ --toroidal ]", "-n [ --simplices ] arg",
   "-t [ --timeslices ] arg", "-d [ --dimensions ] arg", "-i [ --init ] arg", "-f [ --foliate ] arg", "--no-output",
   "--seed arg", "--threads arg", "-a [ --alpha ] arg", "-k [ --k ] arg", "-l [ --lambda ] arg",
   "-p [ --passes ] arg", "-c [ --checkpoint ] arg"]

/-- The option columns of `initialize --help` (src/initialize.cpp:69-86). -/
def documentedInitialize : List String :=
  ["-h [ --help ]", "-v [ --version ]", "-s [ --spherical ]", "-e [ --toroidal ]", "-n [ --simplices ] arg",
   "-t [ --timeslices ] arg", "-d [ --dimensions ] arg", "-i [ --init ] arg", "-f [ --foliate ] arg",
   "--seed arg", "--threads arg", "-o [ --output ]"]

/-- The option columns of `cdt-viewer --help` (src/cdt-viewer.cpp:1047-1055). -/
def documentedViewer : List String :=
  ["-h [ --help ]", "-v [ --version ]", "-m [ --manifest ] arg", "-f [ --fixture ] arg", "-o [ --output ] arg"]

end CDT.Spec

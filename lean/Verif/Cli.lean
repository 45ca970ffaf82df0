import Verif.Api
/-!
# ramrod/scripts/ramrod_update.py
-/

namespace Ramrod

/-- Parsed command line arguments (ramrod/scripts/ramrod_update.py:166-230). -/
structure CliArgs where
  infile : String
  outfile : Option String := none
  from_ : Option String := none
  to_ : Option String := none
  disableVocabUpdate : Bool := false
  disableRemoveOptionals : Bool := false
  force : Bool := false

/-- How the process ends: normal return, `sys.exit(EXIT_FAILURE)`, or an uncaught exception. -/
inductive CliExit where
  | ok
  | failure
  | uncaught (x : Err)

/-- Observable effects of the tool: the document written and its destination (`none`: standard output), the removed
nodes and remapped ids it prints, and the way it ends. -/
structure CliOut where
  written : Option (Option String × Node)
  removed : List Node
  remapped : List (String × List String)
  exit : CliExit

/-- `_get_options` (ramrod/scripts/ramrod_update.py:148-163); `newId` is the default id function. -/
def cliOptions (newId : Nat → String → String) (a : CliArgs) : Options where
  removeOptionals := !a.disableRemoveOptionals
  updateVocabularies := !a.disableVocabUpdate
  checkVersions := falsy a.from_
  newId := newId

/-- `out = outfn or bin_stdout` (ramrod/scripts/ramrod_update.py:53). -/
def cliTarget (a : CliArgs) : Option String := if falsy a.outfile then none else a.outfile

/-- `main` (ramrod/scripts/ramrod_update.py:245-278).  `fs` gives the document of an existing file
(`none`: `_validate_args` raises `ValueError`, lines 233-242; the inner `none`: the file does not parse,
`XMLSyntaxError`).  Simplification: writing does not fail, and printing the report has no other effect. -/
def cliMain (w : World) (newId : Nat → String → String) (fs : String → Option (Option Node)) (a : CliArgs) :
    CliOut :=
  match fs a.infile with
  | none => ⟨none, [], [], .uncaught .valueError⟩
  | some none => ⟨none, [], [], .uncaught .xmlSyntax⟩
  | some (some t) =>
    match update w t a.from_ a.to_ (cliOptions newId a) a.force 0 with
    | .ok (r, _) => ⟨some (cliTarget a, r.doc), r.removed, r.remapped, .ok⟩
    | .error x => ⟨none, [], [], if refusable x then .failure else .uncaught x⟩

/-- The files after the run: `tree.write(out)` (ramrod/scripts/ramrod_update.py:55) puts the document into the output file. -/
def cliFiles (fs : String → Option (Option Node)) (out : CliOut) : String → Option (Option Node) :=
  match out.written with
  | some (some p, d) => fun q => if q = p then some (some d) else fs q
  | _ => fs

end Ramrod

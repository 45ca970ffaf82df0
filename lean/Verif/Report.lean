import Verif.Cli
/-!
# ramrod/scripts/ramrod_update.py: what is printed where
-/

namespace Ramrod

/-- What Python's formatting and lxml supply to the report and the model does not keep: `node.sourceline`, `str(err)`, the
`repr` of a list of line numbers and of a list of ids, and the traceback of an uncaught exception. -/
structure Printer where
  line : Node → String
  message : Err → String
  lines : List String → String
  ids : List String → String
  traceback : Err → List String

/-- What is sent to a stream: a serialised document, or a line of text. -/
inductive Item where
  | doc (d : Node)
  | text (s : String)
deriving DecidableEq

/-- Both standard streams, in order of writing. -/
structure Streams where
  out : List Item
  err : List String
deriving DecidableEq

/-- `node.tag` of lxml: `{ns}name`, as formatted by `%s` (ramrod/scripts/ramrod_update.py:72, 126).  Comments have no tag name;
none is ever listed. -/
def tagText : Node → String
  | .elem e _ =>
    match e.tag.ns with
    | none => e.tag.name
    | some n => "{" ++ n ++ "}" ++ e.tag.name
  | .other _ _ => ""

/-- `_print_update_error` (ramrod/scripts/ramrod_update.py:57-77).  The heading of the duplicates is printed with `print`, that
is, to standard output (line 75). -/
def printUpdateError (p : Printer) (message : String) (dis : Option (List Ctx)) (dups : Option Dups) : Streams where
  out :=
    match dups with
    | none => []
    | some d => if d.isEmpty then [] else [.text "[!] Found items with duplicate ids:"]
  err :=
    ("[!] " ++ message) ::
      ((match dis with
        | none => []
        | some l =>
          if l.isEmpty then []
          else "[!] Found the following untranslatable items:" ::
            l.map (fun c => "  Line " ++ p.line c.node ++ ": " ++ tagText c.node)) ++
       (match dups with
        | none => []
        | some d => d.map (fun g => "  '" ++ g.1 ++ "' on lines " ++ p.lines (g.2.map (fun c => p.line c.node)))))

/-- `bool(node)` of lxml (ramrod/scripts/ramrod_update.py:93): an element is true when it has child nodes. -/
def Node.truthy : Node → Bool
  | .elem _ ks => !ks.isEmpty
  | .other _ _ => false

/-- `_print_invalid_version_error` (ramrod/scripts/ramrod_update.py:80-98). -/
def printInvalidVersion (p : Printer) (message : String) (node : Option Node) (expected found : Option String) :
    List String :=
  ("[!] " ++ message) ::
    ((match node with
      | none => []
      | some n => if n.truthy then ["  Node: " ++ tagText n ++ " on line " ++ p.line n] else []) ++
     (if falsy expected then [] else ["  Expected: '" ++ expected.getD "" ++ "'"]) ++
     (if falsy found then [] else ["  Found: '" ++ found.getD "" ++ "'"]))

/-- `_write_removed` (ramrod/scripts/ramrod_update.py:111-126). -/
def writeRemoved (p : Printer) (removed : List Node) : List Item :=
  if removed.isEmpty then []
  else .text "\n[!] The following nodes were removed from the source document during the update process:" ::
    removed.map (fun n => .text ("    Line " ++ p.line n ++ ": " ++ tagText n))

/-- `_write_remapped_ids` (ramrod/scripts/ramrod_update.py:129-145). -/
def writeRemapped (p : Printer) (remapped : List (String × List String)) : List Item :=
  if remapped.isEmpty then []
  else .text "\n[!] The following ids were duplicated in the source document and remapped during the update process:" ::
    remapped.map (fun g => .text ("'" ++ g.1 ++ "': " ++ p.ids g.2))

/-- What a successful run prints (ramrod/scripts/ramrod_update.py:39-54, 266-268). -/
def printResult (p : Printer) (target : Option String) (x : Result) : Streams where
  out := (match target with | none => [.doc x.doc] | some _ => []) ++ writeRemoved p x.removed ++
    writeRemapped p x.remapped
  err := []

/-- What a run that raised prints (ramrod/scripts/ramrod_update.py:270-278; an exception that is not caught gives a traceback
on standard error). -/
def printError (p : Printer) (x : Err) : Streams :=
  match x with
  | .update d g => printUpdateError p (p.message x) d g
  | .invalidVersion n e f => ⟨[], printInvalidVersion p (p.message x) (n.map Ctx.node) e f⟩
  | .unknownVersion => ⟨[], ["[!] " ++ p.message x]⟩
  | x => ⟨[], p.traceback x⟩

/-- The streams after `main` (ramrod/scripts/ramrod_update.py:245-278); arguments as for `cliMain`. -/
def cliStreams (p : Printer) (w : World) (newId : Nat → String → String)
    (fs : String → Option (Option Node)) (a : CliArgs) : Streams :=
  match fs a.infile with
  | none => printError p .valueError
  | some none => printError p .xmlSyntax
  | some (some t) =>
    match update w t a.from_ a.to_ (cliOptions newId a) a.force 0 with
    | .ok (x, _) => printResult p (cliTarget a) x
    | .error x => printError p x

end Ramrod

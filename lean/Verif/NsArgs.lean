import Verif.Args
import Verif.UpdateNs
/-!
# The command line of ramrod/scripts/update_ns.py

The parser is built and run by `parse_args` (ramrod/scripts/update_ns.py:269-305).  As in `Verif.Args` the rules of `argparse`
are those of CPython 3.11, and only what this parser can reach is modelled.  The parser differs from that of `ramrod_update` in
that single-dash options take values and that there is a positional argument.
-/

namespace Ramrod

/-- The actions of the parser (ramrod/scripts/update_ns.py:281-293), and `-h`/`--help`, which `argparse` adds; the positional
argument (ramrod/scripts/update_ns.py:300-303) is not among them. -/
inductive NsOpt where
  | help | from_ | to_ | pretty
  deriving DecidableEq, Repr

/-- Whether the action takes a value (ramrod/scripts/update_ns.py:281-293). -/
def NsOpt.takesValue : NsOpt → Bool
  | .from_ | .to_ => true
  | _ => false

/-- `_option_string_actions`: the option strings in the order in which they are added (ramrod/scripts/update_ns.py:271-293). -/
def nsOptNames : List (List Char × NsOpt) :=
  [("-h".toList, .help), ("--help".toList, .help), ("-f".toList, .from_), ("--from".toList, .from_), ("-t".toList, .to_),
   ("--to".toList, .to_), ("-p".toList, .pretty), ("--pretty".toList, .pretty)]

/-- Lookup in `_option_string_actions` (table of ramrod/scripts/update_ns.py:271-293). -/
def nsExact (p : List Char) : Option NsOpt := (nsOptNames.find? (fun e => e.1 == p)).map (·.2)

/-- What an argument string is taken for: a plain argument, the string `--`, an option (action, whether the option string has a
single dash, and the attached value with whether `=` precedes it), or an option the parser does not have (argparse
`_parse_known_args`, called from ramrod/scripts/update_ns.py:305). -/
inductive NsTok where
  | plain
  | stop
  | opt (o : NsOpt) (short : Bool) (attached : Option (Bool × List Char))
  | unknown
  deriving DecidableEq, Repr

/-- `_get_option_tuples` (argparse, called from ramrod/scripts/update_ns.py:305): the options an argument can be an abbreviation
of, or, for a single dash, the option with its attached value. -/
def nsTuples (s : List Char) : List NsTok :=
  if optShort s then
    nsOptNames.filterMap (fun e =>
      if e.1 = s.take 2 then some (.opt e.2 (optShort e.1) (some (false, s.drop 2)))
      else if s.isPrefixOf e.1 then some (.opt e.2 (optShort e.1) none)
      else none)
  else
    (nsOptNames.filter (fun e => (partitionEq s).1.isPrefixOf e.1)).map
      (fun e => .opt e.2 (optShort e.1) ((partitionEq s).2.map (fun x => (true, x))))

/-- `_parse_optional` (argparse, called from ramrod/scripts/update_ns.py:305); `none` is the error for an ambiguous option.
`neg` says whether a string looks like a negative number (`_negative_number_matcher`; left open). -/
def nsReadArg (neg : String → Bool) (s : String) : Option NsTok :=
  match s.toList with
  | [] => some .plain
  | c :: cs =>
    if c ≠ '-' then some .plain
    else
      match nsExact (c :: cs) with
      | some o => some (.opt o (optShort (c :: cs)) none)
      | none =>
        if cs = [] then some .plain
        else
          match (partitionEq (c :: cs)).2, nsExact (partitionEq (c :: cs)).1 with
          | some x, some o => some (.opt o (optShort (partitionEq (c :: cs)).1) (some (true, x)))
          | _, _ =>
            match nsTuples (c :: cs) with
            | [t] => some t
            | _ :: _ :: _ => none
            | [] => if neg s then some .plain else if ' ' ∈ c :: cs then some .plain else some .unknown

/-- The first pass of `_parse_known_args` (argparse, called from ramrod/scripts/update_ns.py:305): after `--` everything is a plain
argument. -/
def nsReadArgs (neg : String → Bool) : List String → Option (List (String × NsTok))
  | [] => some []
  | s :: rest =>
    if s = "--" then some ((s, .stop) :: rest.map (fun r => (r, .plain)))
    else
      match nsReadArg neg s, nsReadArgs neg rest with
      | some t, some ts => some ((s, t) :: ts)
      | _, _ => none

/-- How a string of several single-dash options ends: with a switch, with something unknown, with an option and its value, or with
an option whose value is the next argument (`consume_optional`, argparse, called from ramrod/scripts/update_ns.py:305). -/
inductive NsEnd where
  | done
  | left
  | value (o : NsOpt) (v : List Char)
  | next (o : NsOpt)
  deriving DecidableEq

/-- Several single-dash options in one string, as in `-pf` (`consume_optional`, argparse, called from
ramrod/scripts/update_ns.py:305): the switches in it and how it ends; `none` is the error about an ignored value.  `o` is the switch
before the rest; `eq` says that `=` stands between them. -/
def nsCluster (o : NsOpt) (eq : Bool) : List Char → Option (List NsOpt × NsEnd)
  | [] => none
  | c :: cs =>
    if eq || c = '-' then none
    else
      match nsExact ['-', c] with
      | none => some ([o], .left)
      | some o' =>
        if o'.takesValue then
          match cs with
          | [] => some ([o], .next o')
          | '=' :: ds => some ([o], .value o' ds)
          | ds => some ([o], .value o' ds)
        else
          match cs with
          | [] => some ([o, o'], .done)
          | '=' :: _ => none
          | d :: ds => (nsCluster o' false (d :: ds)).map (fun r => (o :: r.1, r.2))

/-- The namespace object while parsing (ramrod/scripts/update_ns.py:281-303); `taken` says that the positional argument has been
matched. -/
structure NsState where
  from_ : Option String := none
  to_ : Option String := none
  pretty : Bool := false
  file : Option String := none
  taken : Bool := false

/-- Storing the value of an option that takes one (ramrod/scripts/update_ns.py:281-289). -/
def NsState.store (st : NsState) (o : NsOpt) (v : String) : NsState :=
  match o with
  | .from_ => { st with from_ := some v }
  | .to_ => { st with to_ := some v }
  | _ => st

/-- `store_true` (ramrod/scripts/update_ns.py:291-293). -/
def NsState.switch (st : NsState) (o : NsOpt) : NsState :=
  match o with
  | .pretty => { st with pretty := true }
  | _ => st

/-- Storing the positional argument (ramrod/scripts/update_ns.py:300-303). -/
def NsState.take (st : NsState) (v : String) : NsState := { st with file := some v, taken := true }

/-- The parsed arguments (ramrod/scripts/update_ns.py:305): `file` is the name of the file, `none` if it is to be the standard
input. -/
structure NsArgs where
  from_ : String
  to_ : String
  pretty : Bool := false
  file : Option String := none
  deriving DecidableEq

/-- Result of `parse_args` (ramrod/scripts/update_ns.py:305): the arguments, or the end of the process with a status (0 after
printing the help, 2 after an error). -/
inductive NsArgOut where
  | args (a : NsArgs)
  | exit (status : Nat)

/-- The end of `parse_args`: `-f` and `-t` are required (ramrod/scripts/update_ns.py:281-289) and nothing may be left over.  The name
`-` stands for the standard input (`FileType`, ramrod/scripts/update_ns.py:300). -/
def nsFinish (st : NsState) (extra : Bool) : NsArgOut :=
  match st.from_, st.to_ with
  | some f, some t =>
    if extra then .exit 2
    else .args { from_ := f, to_ := t, pretty := st.pretty, file := if st.file = some "-" then none else st.file }
  | _, _ => .exit 2

/-- The second pass of `_parse_known_args` (argparse, called from ramrod/scripts/update_ns.py:305), from left to right; `extra` says
that something was left over.  The first plain argument that is no value of an option is the file, and is opened then
(`FileType`, ramrod/scripts/update_ns.py:300; `opens` says which names can be opened); a `--` is accepted beside it only.
Simplification: the file keeps its name here and is read later. -/
def nsConsume (opens : String → Bool) : List (String × NsTok) → NsState → Bool → NsArgOut
  | [], st, extra => nsFinish st extra
  | (v, .plain) :: rest, st, extra =>
    if st.taken then nsConsume opens rest st true
    else if opens v then
      match rest with
      | (_, .stop) :: rest => nsConsume opens rest (st.take v) extra
      | rest => nsConsume opens rest (st.take v) extra
    else .exit 2
  | (_, .stop) :: rest, st, extra =>
    if st.taken then nsConsume opens rest st true
    else
      match rest with
      | [] => nsFinish st extra
      | (v, _) :: rest => if opens v then nsConsume opens rest (st.take v) extra else .exit 2
  | (_, .unknown) :: rest, st, _ => nsConsume opens rest st true
  | (_, .opt o short attached) :: rest, st, extra =>
    if o.takesValue then
      match attached, rest with
      | some x, rest => nsConsume opens rest (st.store o (String.ofList x.2)) extra
      | none, (v, .plain) :: rest => nsConsume opens rest (st.store o v) extra
      | none, _ => .exit 2
    else
      match attached with
      | none => if o = .help then .exit 0 else nsConsume opens rest (st.switch o) extra
      | some x =>
        if short then
          match nsCluster o x.1 x.2 with
          | none => .exit 2
          | some (os, .done) =>
            if .help ∈ os then .exit 0 else nsConsume opens rest (os.foldl NsState.switch st) extra
          | some (os, .left) =>
            if .help ∈ os then .exit 0 else nsConsume opens rest (os.foldl NsState.switch st) true
          | some (os, .value o' v) =>
            if .help ∈ os then .exit 0
            else nsConsume opens rest ((os.foldl NsState.switch st).store o' (String.ofList v)) extra
          | some (os, .next o') =>
            match rest with
            | (v, .plain) :: rest =>
              if .help ∈ os then .exit 0
              else nsConsume opens rest ((os.foldl NsState.switch st).store o' v) extra
            | _ => .exit 2
        else .exit 2

/-- `parser.parse_args()` (ramrod/scripts/update_ns.py:305) on the arguments after the program name. -/
def nsParseArgs (opens : String → Bool) (neg : String → Bool) (argv : List String) : NsArgOut :=
  match nsReadArgs neg argv with
  | none => .exit 2
  | some ts => nsConsume opens ts {} false

/-- How the script ends (ramrod/scripts/update_ns.py:328-360): in `argparse` with a status, with an exception and nothing printed, or
by printing a document, pretty-printed or not. -/
inductive NsOut where
  | exit (status : Nat)
  | failed
  | printed (doc : Node) (pretty : Bool)

/-- What the script finds outside: `docs` are the files as documents (`none`: cannot be opened; `some none`: not well-formed), `lines`
the files as lines of text (`none`: cannot be opened), and `stdin` is the standard input as a document
(ramrod/scripts/update_ns.py:255-264, 295-303, 342).  Simplification: reading is done by lxml and not modelled. -/
structure NsWorld where
  docs : String → Option (Option Node)
  lines : String → Option (List String)
  stdin : Option Node

/-- `get_namespace_list` finds its file, or needs none (ramrod/scripts/update_ns.py:244-256). -/
def NsWorld.hasList (w : NsWorld) (id_ : String) : Bool :=
  id_ == "stix1.2" || id_ == "stix1.2.1" || (w.lines id_).isSome

/-- The tree of `ET.parse(args.file, parser)` (ramrod/scripts/update_ns.py:342). -/
def NsWorld.tree (w : NsWorld) : Option String → Option Node
  | none => w.stdin
  | some f => (w.docs f).join

/-- The script (ramrod/scripts/update_ns.py:328-360).  Simplification: writing to the standard output does not fail. -/
def nsProgram (w : NsWorld) (neg : String → Bool) (argv : List String) : NsOut :=
  match nsParseArgs (fun v => v == "-" || (w.docs v).isSome) neg argv with
  | .exit n => .exit n
  | .args a =>
    match w.tree a.file with
    | none => .failed
    | some t =>
      if w.hasList a.from_ && w.hasList a.to_ then
        match updateNsMain (fun f => (w.lines f).getD []) t a.from_ a.to_ with
        | .error _ => .failed
        | .ok t' => .printed t' a.pretty
      else .failed

end Ramrod

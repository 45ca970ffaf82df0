import Verif.Cli
/-!
# The command line of ramrod/scripts/ramrod_update.py

The parser is built by `_get_arg_parser` (ramrod/scripts/ramrod_update.py:166-230) and run by `parse_args` of the standard
module `argparse` (ramrod/scripts/ramrod_update.py:247).  The rules of `argparse` are those of CPython 3.11
(`Lib/argparse.py`); only what the options of this parser can reach is modelled.
-/

namespace Ramrod

/-- The actions of the parser (ramrod/scripts/ramrod_update.py:173-228), and `-h`/`--help`, which `argparse` adds. -/
inductive Opt where
  | help | infile | outfile | from_ | to_ | noVocab | noOptionals | force
  deriving DecidableEq, Repr

/-- Whether the action takes a value; the others are `store_true` or help (ramrod/scripts/ramrod_update.py:173-228). -/
def Opt.takesValue : Opt → Bool
  | .infile | .outfile | .from_ | .to_ => true
  | _ => false

/-- `_option_string_actions`: the option strings in the order in which they are added
(ramrod/scripts/ramrod_update.py:171-228). -/
def optNames : List (List Char × Opt) :=
  [("-h".toList, .help), ("--help".toList, .help), ("--infile".toList, .infile), ("--outfile".toList, .outfile),
   ("--from".toList, .from_), ("--to".toList, .to_), ("--disable-vocab-update".toList, .noVocab),
   ("--disable-remove-optionals".toList, .noOptionals), ("-f".toList, .force), ("--force".toList, .force)]

/-- Lookup in `_option_string_actions` (table of ramrod/scripts/ramrod_update.py:171-228). -/
def optExact (p : List Char) : Option Opt := (optNames.find? (fun e => e.1 == p)).map (·.2)

/-- `option_string[1] not in chars`: a single-dash option string (argparse; table of
ramrod/scripts/ramrod_update.py:171-228). -/
def optShort (p : List Char) : Bool := (p.drop 1).head? != some '-'

/-- `arg_string.partition('=')`: what stands before the first `=` and, if there is one, after it (argparse
`_parse_optional`, called from ramrod/scripts/ramrod_update.py:247). -/
def partitionEq : List Char → List Char × Option (List Char)
  | [] => ([], none)
  | c :: cs => if c = '=' then ([], some cs) else ((c :: (partitionEq cs).1), (partitionEq cs).2)

/-- What an argument string is taken for: a plain argument, the string `--`, an option (action, whether the option string has
a single dash, and the attached value with whether `=` precedes it), or an option the parser does not have. -/
inductive ArgTok where
  | plain
  | stop
  | opt (o : Opt) (short : Bool) (attached : Option (Bool × List Char))
  | unknown
  deriving DecidableEq, Repr

/-- `_get_option_tuples` (argparse, called from ramrod/scripts/ramrod_update.py:247): the options an argument can be an
abbreviation of, or, for a single dash, the option with its attached value. -/
def optTuples (s : List Char) : List ArgTok :=
  if optShort s then
    optNames.filterMap (fun e =>
      if e.1 = s.take 2 then some (.opt e.2 (optShort e.1) (some (false, s.drop 2)))
      else if s.isPrefixOf e.1 then some (.opt e.2 (optShort e.1) none)
      else none)
  else
    (optNames.filter (fun e => (partitionEq s).1.isPrefixOf e.1)).map
      (fun e => .opt e.2 (optShort e.1) ((partitionEq s).2.map (fun x => (true, x))))

/-- `_parse_optional` (argparse, called from ramrod/scripts/ramrod_update.py:247); `none` is the error for an ambiguous option.
`neg` says whether a string looks like a negative number (`_negative_number_matcher`; left open). -/
def readArg (neg : String → Bool) (s : String) : Option ArgTok :=
  match s.toList with
  | [] => some .plain
  | c :: cs =>
    if c ≠ '-' then some .plain
    else
      match optExact (c :: cs) with
      | some o => some (.opt o (optShort (c :: cs)) none)
      | none =>
        if cs = [] then some .plain
        else
          match (partitionEq (c :: cs)).2, optExact (partitionEq (c :: cs)).1 with
          | some x, some o => some (.opt o (optShort (partitionEq (c :: cs)).1) (some (true, x)))
          | _, _ =>
            match optTuples (c :: cs) with
            | [t] => some t
            | _ :: _ :: _ => none
            | [] => if neg s then some .plain else if ' ' ∈ c :: cs then some .plain else some .unknown

/-- The first pass of `_parse_known_args` (argparse, called from ramrod/scripts/ramrod_update.py:247): after `--` everything is
a plain argument. -/
def readArgs (neg : String → Bool) : List String → Option (List (String × ArgTok))
  | [] => some []
  | s :: rest =>
    if s = "--" then some ((s, .stop) :: rest.map (fun r => (r, .plain)))
    else
      match readArg neg s, readArgs neg rest with
      | some t, some ts => some ((s, t) :: ts)
      | _, _ => none

/-- Several single-dash options in one string, as in `-ff` (`consume_optional`, argparse, called from
ramrod/scripts/ramrod_update.py:247): the actions to take and whether something unknown is left over; `none` is the error about
an ignored value.  `eq` says that `=` precedes the rest.  Simplification: neither `-h` nor `-f` takes a value. -/
def optCluster (o : Opt) (eq : Bool) : List Char → Option (List Opt × Bool)
  | [] => none
  | c :: cs =>
    if eq || c = '-' then none
    else
      match optExact ['-', c] with
      | none => some ([o], true)
      | some o' =>
        match cs with
        | [] => some ([o, o'], false)
        | '=' :: _ => none
        | d :: ds => (optCluster o' false (d :: ds)).map (fun r => (o :: r.1, r.2))

/-- The namespace object while parsing; the defaults are those of ramrod/scripts/ramrod_update.py:173-228. -/
structure ArgState where
  infile : Option String := none
  outfile : Option String := none
  from_ : Option String := none
  to_ : Option String := none
  noVocab : Bool := false
  noOptionals : Bool := false
  force : Bool := false

/-- Storing the value of an option that takes one (ramrod/scripts/ramrod_update.py:173-204). -/
def ArgState.store (st : ArgState) (o : Opt) (v : String) : ArgState :=
  match o with
  | .infile => { st with infile := some v }
  | .outfile => { st with outfile := some v }
  | .from_ => { st with from_ := some v }
  | .to_ => { st with to_ := some v }
  | _ => st

/-- `store_true` (ramrod/scripts/ramrod_update.py:206-228). -/
def ArgState.switch (st : ArgState) (o : Opt) : ArgState :=
  match o with
  | .noVocab => { st with noVocab := true }
  | .noOptionals => { st with noOptionals := true }
  | .force => { st with force := true }
  | _ => st

/-- Result of `parse_args` (ramrod/scripts/ramrod_update.py:247): the arguments, or the end of the process with a status
(0 after printing the help, 2 after an error). -/
inductive ArgOut where
  | args (a : CliArgs)
  | exit (status : Nat)

/-- The end of `parse_args`: `--infile` is required (ramrod/scripts/ramrod_update.py:173-178) and nothing may be left over. -/
def finishArgs (st : ArgState) (extra : Bool) : ArgOut :=
  match st.infile with
  | none => .exit 2
  | some i =>
    if extra then .exit 2
    else .args { infile := i, outfile := st.outfile, from_ := st.from_, to_ := st.to_, disableVocabUpdate := st.noVocab,
                 disableRemoveOptionals := st.noOptionals, force := st.force }

/-- The second pass of `_parse_known_args` (argparse, called from ramrod/scripts/ramrod_update.py:247): the options take
effect from left to right; `extra` says that something was left over.  The parser has no positional arguments. -/
def consumeArgs : List (String × ArgTok) → ArgState → Bool → ArgOut
  | [], st, extra => finishArgs st extra
  | (_, .plain) :: rest, st, _ => consumeArgs rest st true
  | (_, .stop) :: rest, st, _ => consumeArgs rest st true
  | (_, .unknown) :: rest, st, _ => consumeArgs rest st true
  | (_, .opt o short attached) :: rest, st, extra =>
    if o.takesValue then
      match attached, rest with
      | some x, rest => consumeArgs rest (st.store o (String.ofList x.2)) extra
      | none, (v, .plain) :: rest => consumeArgs rest (st.store o v) extra
      | none, _ => .exit 2
    else
      match attached with
      | none => if o = .help then .exit 0 else consumeArgs rest (st.switch o) extra
      | some x =>
        if short then
          match optCluster o x.1 x.2 with
          | none => .exit 2
          | some (os, more) =>
            if .help ∈ os then .exit 0 else consumeArgs rest (os.foldl ArgState.switch st) (extra || more)
        else .exit 2

/-- `parser.parse_args()` (ramrod/scripts/ramrod_update.py:246-247) on the arguments after the program name. -/
def parseArgs (neg : String → Bool) (argv : List String) : ArgOut :=
  match readArgs neg argv with
  | none => .exit 2
  | some ts => consumeArgs ts {} false

/-- The whole program (`main`, ramrod/scripts/ramrod_update.py:245-278): parse the command line, then run; `Sum.inl` is the
exit status of `argparse`. -/
def cliProgram (w : World) (newId : Nat → String → String) (fs : String → Option (Option Node)) (neg : String → Bool)
    (argv : List String) : Nat ⊕ CliOut :=
  match parseArgs neg argv with
  | .exit n => .inl n
  | .args a => .inr (cliMain w newId fs a)

end Ramrod

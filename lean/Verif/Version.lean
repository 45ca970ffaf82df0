import Verif.PyStr
/-!
# Versions: `distutils.version.StrictVersion` and the version validation of ramrod/utils.py
-/

namespace Ramrod

/-- Exceptions raised by the modelled code, as values.  `ctx` is the type of the nodes recorded in an
`UpdateError` (ramrod/errors.py:12-26).  The three classes caught by `BaseUpdater.update`
(ramrod/base.py:980) are `update`, `unknownVersion`, `invalidVersion`; message texts are dropped. -/
inductive PyErr (ctx : Type) where
  /-- `errors.UpdateError` (ramrod/errors.py:12-26); `none` models the attribute value `None`. -/
  | update (disallowed : Option (List ctx)) (duplicates : Option (List (String × List ctx)))
  /-- `errors.UnknownVersionError` (ramrod/errors.py:4-9) -/
  | unknownVersion
  /-- `errors.InvalidVersionError` (ramrod/errors.py:29-45) with `node`, `expected` and `found`; `none` models `None`. -/
  | invalidVersion (node : Option ctx) (expected found : Option String)
  /-- Python `ValueError` -/
  | valueError
  /-- Python `KeyError` -/
  | keyError
  /-- Python `TypeError` -/
  | typeError
  /-- Python `IndexError` -/
  | indexError
  /-- Python `AttributeError` -/
  | attributeError
  /-- Python `NotImplementedError` -/
  | notImplemented
  /-- `lxml.etree.XMLSyntaxError` -/
  | xmlSyntax
deriving Repr, DecidableEq

/-- The parsed fields of a `StrictVersion` (CPython Lib/distutils/version.py, `StrictVersion.parse`;
used through ramrod/utils.py:8).  `pre` is `some (isB, n)` for a pre-release tag `aN`/`bN`. -/
structure Ver where
  major : Nat
  minor : Nat
  patch : Nat
  pre : Option (Bool × Nat)
deriving DecidableEq, Repr

/-- ASCII digit, `\d` under `re.ASCII` in `StrictVersion.version_re`. -/
def isDigitC (c : Char) : Bool := '0'.toNat ≤ c.toNat && c.toNat ≤ '9'.toNat

/-- `int()` of a digit string (`StrictVersion.parse`). -/
def natOfDigits (cs : List Char) : Nat :=
  cs.foldl (fun n c => 10 * n + (c.toNat - '0'.toNat)) 0

/-- One `(\d+)` group: the longest digit prefix, which must be non-empty. -/
def takeNum (cs : List Char) : Option (Nat × List Char) :=
  match cs.takeWhile isDigitC with
  | [] => none
  | ds => some (natOfDigits ds, cs.dropWhile isDigitC)

/-- The optional `([ab](\d+))?$` tail of `StrictVersion.version_re`; `$` also matches before a final
newline. -/
def parsePre : List Char → Option (Option (Bool × Nat))
  | [] => some none
  | ['\n'] => some none
  | c :: cs =>
    if c == 'a' || c == 'b' then
      match takeNum cs with
      | some (n, []) => some (some (c == 'b', n))
      | some (n, ['\n']) => some (some (c == 'b', n))
      | _ => none
    else none

/-- `StrictVersion(s)` for a non-empty string: regular expression
`^(\d+)\.(\d+)(\.(\d+))?([ab](\d+))?$`; a missing patch number is 0; no match raises `ValueError`
(`none` here).  Used at ramrod/utils.py:268 and ramrod/utils.py:303. -/
def parseVer (s : String) : Option Ver :=
  match takeNum s.toList with
  | some (ma, '.' :: r1) =>
    match takeNum r1 with
    | some (mi, '.' :: r2) =>
      match takeNum r2 with
      | some (pa, r3) => (parsePre r3).map fun p => ⟨ma, mi, pa, p⟩
      | none => none
    | some (mi, r2) => (parsePre r2).map fun p => ⟨ma, mi, 0, p⟩
    | none => none
  | _ => none

/-- `StrictVersion._cmp` on the pre-release component: a version without one is newer. -/
def cmpPre : Option (Bool × Nat) → Option (Bool × Nat) → Ordering
  | none, none => .eq
  | some _, none => .lt
  | none, some _ => .gt
  | some (b, n), some (b', n') => (compare b.toNat b'.toNat).then (compare n n')

/-- `StrictVersion._cmp`: the number triple first, then the pre-release component. -/
def Ver.cmp (a b : Ver) : Ordering :=
  (((compare a.major b.major).then (compare a.minor b.minor)).then (compare a.patch b.patch)).then
    (cmpPre a.pre b.pre)

/-- `utils.is_version_equal` (ramrod/utils.py:256-268); a malformed version raises `ValueError`. -/
def isVersionEqual {ctx : Type} (x y : String) : Except (PyErr ctx) Bool :=
  match parseVer x, parseVer y with
  | some a, some b => .ok (a.cmp b == .eq)
  | _, _ => .error .valueError

/-- `utils.validate_version` (ramrod/utils.py:271-287); `none` models Python `None`. -/
def validateVersion {ctx : Type} (version : Option String) (allowed : List String) :
    Except (PyErr ctx) String :=
  match version with
  | none => .error .unknownVersion
  | some v =>
    if v = "" then .error .unknownVersion
    else if v ∈ allowed then .ok v
    else .error (.invalidVersion none none none)

/-- `utils.validate_versions` (ramrod/utils.py:290-306).  Returns the two validated strings. -/
def validateVersions {ctx : Type} (from_ to_ : Option String) (allowed : List String) :
    Except (PyErr ctx) (String × String) := do
  let f ← validateVersion from_ allowed
  let t ← validateVersion to_ allowed
  match parseVer f, parseVer t with
  | some a, some b =>
    if a.cmp b == .lt then .ok (f, t) else .error (.invalidVersion none none none)
  | _, _ => .error .valueError

example : parseVer "1.2.1" = some ⟨1, 2, 1, none⟩ := by decide
example : parseVer "2.1" = some ⟨2, 1, 0, none⟩ := by decide
example : parseVer "2.1b3" = some ⟨2, 1, 0, some (true, 3)⟩ := by decide
example : parseVer "2" = none := by decide
example : parseVer "2.x" = none := by decide
example : parseVer "1.2.3.4" = none := by decide

end Ramrod

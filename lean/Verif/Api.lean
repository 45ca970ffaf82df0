import Verif.Stix
/-!
# ramrod/__init__.py, ramrod/stix/__init__.py, ramrod/cybox/__init__.py
-/

namespace Ramrod

/-- `from_ or default` for an optional string argument (ramrod/stix/__init__.py:56-57,
ramrod/__init__.py:75). -/
def pyOr (x dflt : Option String) : Option String := if falsy x then dflt else x

/-- `versions[idx(from_):idx(to_)]` (ramrod/stix/__init__.py:62-64). -/
def versionSlice (versions : List String) (from_ to_ : String) : List String :=
  (versions.take (versions.idxOf to_)).drop (versions.idxOf from_)

/-- The loop of `stix.update` / `cybox.update` (ramrod/stix/__init__.py:61-70,
ramrod/cybox/__init__.py:61-71).  `acc` holds `root`, `removed` and `remapped`; `k` counts the calls of
`new_id_func`. -/
def chainLoop (reg : List (String × Updater)) (o : Options) (force : Bool) :
    List String → Result → Nat → Except Err (Result × Nat)
  | [], acc, k => .ok (acc, k)
  | v :: vs, acc, k =>
    match assoc reg v with
    | none => .error .keyError
    | some u =>
      match stepUpdate u o force k acc.doc with
      | .error x => .error x
      | .ok (r, k') =>
        chainLoop reg o force vs
          ⟨r.doc, acc.removed ++ r.removed, dictUpdate acc.remapped r.remapped⟩ k'

/-- Body of `stix.update` / `cybox.update` once the two versions are known
(ramrod/stix/__init__.py:59-78, ramrod/cybox/__init__.py:59-79). -/
def runChain (versions : List String) (reg : List (String × Updater)) (t : Node)
    (from_ to_ : Option String) (o : Options) (force : Bool) (k : Nat) : Except Err (Result × Nat) :=
  match validateVersions from_ to_ versions with
  | .error x => .error x
  | .ok (f, g) => chainLoop reg o force (versionSlice versions f g) ⟨t, [], []⟩ k

/-- The root element's data; a document root is always an element. -/
def Node.root? : Node → Option Elem
  | .elem e _ => some e
  | .other _ _ => none

/-- `stix.get_version(root)` (ramrod/stix/__init__.py:15-18, 56). -/
def stixRootVersion (t : Node) : Option String := t.root?.bind stixGetVersion

/-- `cybox.get_version(root)` (ramrod/cybox/__init__.py:15-18, 56). -/
def cyboxRootVersion (t : Node) : Except Err String :=
  match t.root? with
  | none => .error .attributeError
  | some e => cyboxGetVersion e

/-- `stix.update` (ramrod/stix/__init__.py:21-78). -/
def stixUpdate (w : World) (t : Node) (from_ to_ : Option String) (o : Options) (force : Bool) (k : Nat) :
    Except Err (Result × Nat) :=
  runChain stixVersions (stixUpdaters w) t (pyOr from_ (stixRootVersion t))
    (pyOr to_ stixVersions.getLast?) o force k

/-- `from_ or BaseCyboxUpdater.get_version(root)` (ramrod/cybox/__init__.py:56); reading the version of the
root may raise. -/
def cyboxFrom (t : Node) (from_ : Option String) : Except Err (Option String) :=
  if falsy from_ then (cyboxRootVersion t).map some else .ok from_

/-- `cybox.update` (ramrod/cybox/__init__.py:21-79). -/
def cyboxUpdate (t : Node) (from_ to_ : Option String) (o : Options) (force : Bool) (k : Nat) :
    Except Err (Result × Nat) :=
  match cyboxFrom t from_ with
  | .error x => .error x
  | .ok f => runChain cyboxVersions cyboxUpdaters t f (pyOr to_ cyboxVersions.getLast?) o force k

/-- `ramrod.update` (ramrod/__init__.py:14-82).  The `KeyError` of an unknown root name becomes an
`UpdateError` with a message only (lines 76-79). -/
def update (w : World) (t : Node) (from_ to_ : Option String) (o : Options) (force : Bool) (k : Nat) :
    Except Err (Result × Nat) :=
  match t.root? with
  | none => .error .attributeError
  | some e =>
    if e.tag.name = "STIX_Package" then
      stixUpdate w t (pyOr from_ (stixRootVersion t)) to_ o force k
    else if e.tag.name = "Observables" then
      match cyboxFrom t from_ with
      | .error x => .error x
      | .ok f => cyboxUpdate t f to_ o force k
    else .error (.update none none)

/-! ## Documents in memory

The functions above work on a private copy.  This layer models which document object each operation
reads and writes. -/

/-- Documents in memory; a document object is its index. -/
structure Store where
  docs : List Node

/-- Content of a document object. -/
def Store.read (s : Store) (h : Nat) : Option Node := s.docs[h]?

/-- In-place change of a document object. -/
def Store.write (s : Store) (h : Nat) (t : Node) : Store := ⟨s.docs.set h t⟩

/-- A new document object. -/
def Store.alloc (s : Store) (t : Node) : Store × Nat := (⟨s.docs ++ [t]⟩, s.docs.length)

/-- `utils.get_etree_root(root, make_copy=…)` (ramrod/utils.py:43-68) on an element or element tree. -/
def Store.getRoot (s : Store) (makeCopy : Bool) (h : Nat) : Store × Nat :=
  if makeCopy then
    match s.read h with
    | some t => s.alloc t
    | none => (s, h)
  else (s, h)

/-- What a call on document objects returns: the result's document object with removed nodes, remapped
ids and the number of ids generated so far. -/
structure HResult where
  doc : Nat
  removed : List Node
  remapped : List (String × List String)
  count : Nat

/-- `BaseUpdater._update` on the document object `h`, in place.  `junk` stands for the partial changes
left behind by an update that raises.  Simplification: a replaced root element
(ramrod/base.py:784-786) keeps its document object. -/
def heapInner (u : Updater) (o : Options) (junk : Node → Node) (h : Nat) (s : Store) :
    Store × Except Err Unit :=
  match s.read h with
  | none => (s, .error .valueError)
  | some t =>
    match u.update o t with
    | .ok d => (s.write h d, .ok ())
    | .error x => (s.write h (junk t), .error x)

/-- `BaseUpdater._clean` on the document object `h`, in place (ramrod/base.py:818-838).  The searches that
can raise come before any change. -/
def heapCleanInner (u : Updater) (o : Options) (k : Nat) (h : Nat) (s : Store) :
    Store × Except Err HResult :=
  match s.read h with
  | none => (s, .error .valueError)
  | some t =>
    match clean u o k t with
    | .error x => (s, .error x)
    | .ok (r, k') => (s.write h r.doc, .ok ⟨h, r.removed, r.remapped, k'⟩)

/-- `BaseUpdater._force_update` (ramrod/base.py:891-913). -/
def heapForce (u : Updater) (o : Options) (k : Nat) (junk : Node → Node) (h : Nat) (s : Store) :
    Store × Except Err HResult :=
  match heapCleanInner u o k h s with
  | (s1, .error x) => (s1, .error x)
  | (s1, .ok r) =>
    match heapInner u o junk h s1 with
    | (s2, .error x) => (s2, .error x)
    | (s2, .ok ()) => (s2, .ok r)

/-- `BaseUpdater.update` (ramrod/base.py:922-986) on a document object. -/
def heapStep (u : Updater) (o : Options) (force : Bool) (k : Nat) (junk : Node → Node) (h : Nat)
    (s : Store) : Store × Except Err HResult :=
  let (s1, h1) := s.getRoot true h
  match s1.read h1 with
  | none => (s1, .error .valueError)
  | some t =>
    let (s2, out) : Store × Except Err Unit :=
      match u.check o t with
      | .error x => (s1, .error x)
      | .ok () => heapInner u o junk h1 s1
    match out with
    | .ok () => (s2, .ok ⟨h1, [], [], k⟩)
    | .error x => if refusable x && force then heapForce u o k junk h1 s2 else (s2, .error x)

/-- `BaseUpdater.clean` (ramrod/base.py:840-877) on a document object. -/
def heapClean (u : Updater) (o : Options) (k : Nat) (h : Nat) (s : Store) : Store × Except Err HResult :=
  let (s1, h1) := s.getRoot true h
  heapCleanInner u o k h1 s1

/-- The loop of `stix.update` / `cybox.update` on document objects (ramrod/stix/__init__.py:61-70). -/
def heapChain (reg : List (String × Updater)) (o : Options) (force : Bool) (junk : Node → Node) :
    List String → HResult → Store → Store × Except Err HResult
  | [], acc, s => (s, .ok acc)
  | v :: vs, acc, s =>
    match assoc reg v with
    | none => (s, .error .keyError)
    | some u =>
      match heapStep u o force acc.count junk acc.doc s with
      | (s1, .error x) => (s1, .error x)
      | (s1, .ok r) =>
        heapChain reg o force junk vs
          ⟨r.doc, acc.removed ++ r.removed, dictUpdate acc.remapped r.remapped, r.count⟩ s1

/-- Body of `stix.update` / `cybox.update` on document objects. -/
def heapRunChain (versions : List String) (reg : List (String × Updater)) (h : Nat)
    (from_ to_ : Option String) (o : Options) (force : Bool) (k : Nat) (junk : Node → Node) (s : Store) :
    Store × Except Err HResult :=
  match validateVersions from_ to_ versions with
  | .error x => (s, .error x)
  | .ok (f, g) => heapChain reg o force junk (versionSlice versions f g) ⟨h, [], [], k⟩ s

/-- `stix.update` (ramrod/stix/__init__.py:21-78) on a document object with content `t`. -/
def heapStixUpdate (w : World) (h : Nat) (t : Node) (from_ to_ : Option String) (o : Options) (force : Bool)
    (k : Nat) (junk : Node → Node) (s : Store) : Store × Except Err HResult :=
  heapRunChain stixVersions (stixUpdaters w) h (pyOr from_ (stixRootVersion t))
    (pyOr to_ stixVersions.getLast?) o force k junk s

/-- `cybox.update` (ramrod/cybox/__init__.py:21-79) on a document object with content `t`. -/
def heapCyboxUpdate (h : Nat) (t : Node) (from_ to_ : Option String) (o : Options) (force : Bool)
    (k : Nat) (junk : Node → Node) (s : Store) : Store × Except Err HResult :=
  match cyboxFrom t from_ with
  | .error x => (s, .error x)
  | .ok f => heapRunChain cyboxVersions cyboxUpdaters h f (pyOr to_ cyboxVersions.getLast?) o force k junk s

/-- `ramrod.update` (ramrod/__init__.py:14-82) on a document object. -/
def heapUpdate (w : World) (h : Nat) (from_ to_ : Option String) (o : Options) (force : Bool) (k : Nat)
    (junk : Node → Node) (s : Store) : Store × Except Err HResult :=
  let (s, h) := s.getRoot false h
  match s.read h with
  | none => (s, .error .valueError)
  | some t =>
    match t.root? with
    | none => (s, .error .attributeError)
    | some e =>
      if e.tag.name = "STIX_Package" then
        heapStixUpdate w h t (pyOr from_ (stixRootVersion t)) to_ o force k junk s
      else if e.tag.name = "Observables" then
        match cyboxFrom t from_ with
        | .error x => (s, .error x)
        | .ok f => heapCyboxUpdate h t f to_ o force k junk s
      else (s, .error (.update none none))

end Ramrod

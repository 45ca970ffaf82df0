import Verif.Api
import Verif.UpdateNs
/-!
# Whole documents

An XML document is a root element with comments and processing instructions before and after it.  This layer models what
becomes of those when the library copies a root element and when the namespace script replaces one.
-/

namespace Ramrod

/-- A parsed document (`etree._ElementTree`).  `before` and `after` hold the contents of the comments and processing
instructions beside the root element.  Simplification: the XML declaration and a document type are not represented. -/
structure Document where
  before : List String
  root : Node
  after : List String

/-- `copy.deepcopy(root)` (ramrod/utils.py:57-62): lxml makes a new document that holds a copy of the element alone; the
siblings of a root element stay behind. -/
def Document.copyRoot (d : Document) : Document := ⟨[], d.root, []⟩

/-- `ramrod.UpdateResults` (ramrod/results.py:10-28) around the whole document: `ResultDocument` keeps the tree of the element
it is given (lines 64-73), `as_element` is the root of that tree (lines 80-85). -/
structure DocResult where
  document : Document
  removed : List Node
  remapped : List (String × List String)

/-- `BaseUpdater.update` (ramrod/base.py:972-986) on a document: the copy is updated, in place or by a new root element in a
document of its own (ramrod/base.py:784-786). -/
def stepDocument (u : Updater) (o : Options) (force : Bool) (k : Nat) (d : Document) : Except Err (DocResult × Nat) :=
  let c := d.copyRoot
  match stepUpdate u o force k c.root with
  | .error x => .error x
  | .ok (r, k') => .ok (⟨⟨c.before, r.doc, c.after⟩, r.removed, r.remapped⟩, k')

/-- The loop of `stix.update` / `cybox.update` (ramrod/stix/__init__.py:61-70, ramrod/cybox/__init__.py:61-71) on documents. -/
def chainDocument (reg : List (String × Updater)) (o : Options) (force : Bool) :
    List String → DocResult → Nat → Except Err (DocResult × Nat)
  | [], acc, k => .ok (acc, k)
  | v :: vs, acc, k =>
    match assoc reg v with
    | none => .error .keyError
    | some u =>
      match stepDocument u o force k acc.document with
      | .error x => .error x
      | .ok (r, k') =>
        chainDocument reg o force vs ⟨r.document, acc.removed ++ r.removed, dictUpdate acc.remapped r.remapped⟩ k'

/-- The body of `stix.update` / `cybox.update` (ramrod/stix/__init__.py:59-78, ramrod/cybox/__init__.py:59-79) on documents. -/
def runDocument (versions : List String) (reg : List (String × Updater)) (d : Document) (from_ to_ : Option String)
    (o : Options) (force : Bool) (k : Nat) : Except Err (DocResult × Nat) :=
  match validateVersions from_ to_ versions with
  | .error x => .error x
  | .ok (f, g) => chainDocument reg o force (versionSlice versions f g) ⟨d, [], []⟩ k

/-- `ramrod.update` (ramrod/__init__.py:14-82) on documents. -/
def updateDocument (w : World) (d : Document) (from_ to_ : Option String) (o : Options) (force : Bool) (k : Nat) :
    Except Err (DocResult × Nat) :=
  match d.root.root? with
  | none => .error .attributeError
  | some e =>
    if e.tag.name = "STIX_Package" then
      runDocument stixVersions (stixUpdaters w) d (pyOr (pyOr from_ (stixRootVersion d.root)) (stixRootVersion d.root))
        (pyOr to_ stixVersions.getLast?) o force k
    else if e.tag.name = "Observables" then
      match cyboxFrom d.root from_ with
      | .error x => .error x
      | .ok f =>
        match cyboxFrom d.root f with
        | .error x => .error x
        | .ok f => runDocument cyboxVersions cyboxUpdaters d f (pyOr to_ cyboxVersions.getLast?) o force k
    else .error (.update none none)

/-- `need_replace_elt` for the root (ramrod/scripts/update_ns.py:129-133): some namespace declared there is to be renamed. -/
def rootReplaced (m : List (String × String)) : Node → Bool
  | .elem e _ => (NsMap.dedup e.decls).any (fun p => (assoc m p.2).isSome)
  | .other _ _ => false

/-- `main` of the namespace script (ramrod/scripts/update_ns.py:308-326) on documents: a replaced root is a new element
(`makeelement`, line 162) in a document of its own, and `tree._setroot` (lines 312-314) makes the tree that document. -/
def updateNsDocument (file : String → List String) (d : Document) (fromId toId : String) : Except Err Document :=
  match updateNsMain file d.root fromId toId with
  | .error x => .error x
  | .ok t =>
    if rootReplaced (zipDict (getNamespaceList file fromId) (getNamespaceList file toId)) d.root then .ok ⟨[], t, []⟩
    else .ok ⟨d.before, t, d.after⟩

end Ramrod

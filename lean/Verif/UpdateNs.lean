import Verif.Base
import Verif.Tables
/-!
# ramrod/scripts/update_ns.py
-/

namespace Ramrod

/-- `dict(zip(from_ns, to_ns))` (ramrod/scripts/update_ns.py:310).  For a key occurring twice the last
value wins, as in Python. -/
def zipDict (from_ to_ : List String) : List (String × String) := dictUpdate [] (from_.zip to_)

/-- `ns_mapping.get(ns, ns)` (ramrod/scripts/update_ns.py:139, 151, 159, 186, 193, 224). -/
def mapNs (m : List (String × String)) (ns : String) : String := (assoc m ns).getD ns

/-- Renaming of an element or attribute name (ramrod/scripts/update_ns.py:147-151, 155-160, 184-186,
190-194 with `split_braced_name` 89-99).  Names are kept split, so the `}` search is not modelled. -/
def mapQName (m : List (String × String)) (q : QName) : QName := ⟨q.ns.map (mapNs m), q.name⟩

/-- `new_attrib` of a replaced element (ramrod/scripts/update_ns.py:153-160): a dictionary filled in
order. -/
def mapAttrsNew (m : List (String × String)) (as : Attrs) : Attrs :=
  as.foldl (fun acc p => Attrs.set acc (mapQName m p.1) p.2) []

/-- The in-place attribute update (ramrod/scripts/update_ns.py:189-194): an attribute with a namespace is
deleted and set again, which moves it to the end. -/
def mapAttrsInPlace (m : List (String × String)) (as : Attrs) : Attrs :=
  as.foldl (fun acc p =>
    match p.1.ns with
    | none => acc
    | some _ => Attrs.set (Attrs.del acc p.1) (mapQName m p.1) p.2) as

/-- A child that is not an element: comments and entities pass (line 124), a processing instruction, shown
here by a content starting with `?`, has no string tag, so `name[0]` (line 94) raises `TypeError`. -/
def isPI (content : String) : Bool := content.toList.head? == some '?'

/-- The data of the updated element (ramrod/scripts/update_ns.py:127-194) from its in-scope namespaces
`env`. -/
def updNsElem (m : List (String × String)) (env : NsMap) (e : Elem) : Elem :=
  if env.any (fun p => (assoc m p.2).isSome) then
    { e with tag := mapQName m e.tag, decls := (NsMap.dedup env).map (fun p => (p.1, mapNs m p.2)),
             attrs := mapAttrsNew m e.attrs }
  else { e with tag := mapQName m e.tag, attrs := mapAttrsInPlace m e.attrs }

mutual
/-- `update_namespaces` (ramrod/scripts/update_ns.py:102-200).  `env` is the scope of the already updated
parent.  Simplification: declarations that lxml adds by itself when children move to a new parent are not
represented (they only add prefixes). -/
def updNs (m : List (String × String)) (env : NsMap) : Node → Except Err Node
  | .other c t => if isPI c then .error .typeError else .ok (.other c t)
  | .elem e ks =>
    let e' := updNsElem m (NsMap.dedup (e.decls ++ env)) e
    match updNss m (e'.decls ++ env) ks with
    | .error x => .error x
    | .ok ks' => .ok (.elem e' ks')
/-- `for child in elt: update_namespaces(child, ns_mapping)` (ramrod/scripts/update_ns.py:197-198). -/
def updNss (m : List (String × String)) (env : NsMap) : List Node → Except Err (List Node)
  | [] => .ok []
  | k :: ks =>
    match updNs m env k with
    | .error x => .error x
    | .ok k' =>
      match updNss m env ks with
      | .error x => .error x
      | .ok ks' => .ok (k' :: ks')
end

/-- `for i, val in enumerate(vals): if i % 2 == 0: …` (ramrod/scripts/update_ns.py:222-224). -/
def mapEven (m : List (String × String)) : List String → List String
  | a :: b :: rest => mapNs m a :: b :: mapEven m rest
  | [a] => [mapNs m a]
  | [] => []

/-- Body of `update_schemalocations` (ramrod/scripts/update_ns.py:216-225). -/
def updSchemalocElem (m : List (String × String)) (e : Elem) : Elem :=
  match e.get? tagSchemaLoc with
  | none => e
  | some v => e.set tagSchemaLoc (pyJoin " " (mapEven m (pySplitWs v)))

/-- `update_schemalocations` (ramrod/scripts/update_ns.py:205-225): every element. -/
def updSchemalocs (m : List (String × String)) (t : Node) : Node :=
  t.mapPos (fun _ e => updSchemalocElem m e) []

/-- `update_from_lists` (ramrod/scripts/update_ns.py:308-316). -/
def updateFromLists (t : Node) (from_ to_ : List String) : Except Err Node :=
  let m := zipDict from_ to_
  match updNs m [] t with
  | .error x => .error x
  | .ok t' => .ok (updSchemalocs m t')

/-- `root.get("version") is not None` then set (ramrod/scripts/update_ns.py:237-241). -/
def specialVersion (v : String) : Node → Node
  | .elem e ks => if e.has (.plain "version") then .elem (e.set (.plain "version") v) ks else .elem e ks
  | .other c t => .other c t

/-- `special_case_version_update` (ramrod/scripts/update_ns.py:228-241). -/
def specialCaseVersionUpdate (toId : String) (t : Node) : Node :=
  if toId = "stix1.2" then specialVersion "1.2" t
  else if toId = "stix1.2.1" then specialVersion "1.2.1" t
  else t

/-- One line of a namespace file (ramrod/scripts/update_ns.py:258-264): stripped; `none` for blank and
comment lines. -/
def nsLine (line : String) : Option String :=
  let s := String.ofList ((line.toList.dropWhile isSpace).reverse.dropWhile isSpace).reverse
  match s.toList with
  | [] => none
  | c :: _ => if c == '#' then none else some s

/-- `get_namespace_list` (ramrod/scripts/update_ns.py:244-266); `file id` gives the lines of a file. -/
def getNamespaceList (file : String → List String) (id_ : String) : List String :=
  if id_ = "stix1.2" then Tables.updateNs_12
  else if id_ = "stix1.2.1" then Tables.updateNs_121
  else (file id_).filterMap nsLine

/-- `main` (ramrod/scripts/update_ns.py:319-326). -/
def updateNsMain (file : String → List String) (t : Node) (fromId toId : String) : Except Err Node :=
  match updateFromLists t (getNamespaceList file fromId) (getNamespaceList file toId) with
  | .error x => .error x
  | .ok t' => .ok (specialCaseVersionUpdate toId t')

example : mapEven [("a", "b")] ["a", "a", "c", "a", "a"] = ["b", "a", "c", "a", "b"] := by decide
example : nsLine "  # x" = none ∧ nsLine " u v \n" = some "u v" ∧ nsLine " \n" = none := by decide

end Ramrod

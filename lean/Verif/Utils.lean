import Verif.Xml
/-!
# ramrod/utils.py and ramrod/xmlconst.py
-/

namespace Ramrod

/-- `xmlconst.NS_XSI` (ramrod/xmlconst.py:10). -/
def nsXsi : String := "http://www.w3.org/2001/XMLSchema-instance"
/-- `xmlconst.TAG_XSI_TYPE` (ramrod/xmlconst.py:16). -/
def tagXsiType : QName := ⟨some nsXsi, "type"⟩
/-- `xmlconst.TAG_SCHEMALOCATION` (ramrod/xmlconst.py:17). -/
def tagSchemaLoc : QName := ⟨some nsXsi, "schemaLocation"⟩
/-- The attribute name `id` (ramrod/utils.py:203, ramrod/base.py:513). -/
def attrId : QName := .plain "id"

/-- `utils.get_type_info` (ramrod/utils.py:125-136): `(alias, typename)`; a missing attribute raises
`KeyError`, a value without exactly one colon `ValueError`. -/
def getTypeInfo (e : Elem) : Except Err (String × String) :=
  match e.get? tagXsiType with
  | none => .error .keyError
  | some v =>
    match pySplit ':' v with
    | [alias, typename] => .ok (alias, typename)
    | _ => .error .valueError

/-- `utils.get_typed_nodes` (ramrod/utils.py:139-149): `.//*[@xsi:type]`, i.e. without the root. -/
def getTypedNodes (t : Node) : List Ctx := t.descs.filter (fun c => c.e.has tagXsiType)

/-- `utils.get_ext_namespace` (ramrod/utils.py:152-174): the namespace bound to the prefix of the
`xsi:type` value; `KeyError` if the attribute is missing or the prefix is not bound. -/
def getExtNamespace (c : Ctx) : Except Err String :=
  match c.e.get? tagXsiType with
  | none => .error .keyError
  | some v =>
    match NsMap.get? c.env (some ((pySplit ':' v).headD "")) with
    | none => .error .keyError
    | some ns => .ok ns

/-- `utils.create_new_id` (ramrod/utils.py:177-186); `uuid` is the value of `uuid.uuid4()`. -/
def createNewId (uuid orig : String) : String := orig ++ "-cleaned-" ++ uuid

/-- `utils.new_id` (ramrod/utils.py:189-207) for an id generator `gen` (the default one is
`createNewId uuid`); `KeyError` on a node without id cannot happen, the callers pass nodes that have one,
so a missing id is treated as empty. -/
def newId (gen : String → String) (e : Elem) : Elem :=
  e.set attrId (gen ((e.get? attrId).getD ""))

/-- `utils.get_node_text` (ramrod/utils.py:220-236): `None` when the node has any child node (comments
count, `len(node) > 0`), else its text.  Simplification: CDATA marking is not represented. -/
def getNodeText (e : Elem) (kids : List Node) : Option String :=
  if kids.length > 0 then none else e.text

/-- `zip(l[::2], l[1::2])` (ramrod/utils.py:251): consecutive pairs, a last odd item is dropped. -/
def pairUp : List String → List (String × String)
  | a :: b :: rest => (a, b) :: pairUp rest
  | _ => []

/-- `utils.get_schemaloc_pairs` on the attribute value (ramrod/utils.py:239-253). -/
def getSchemalocPairs (v : String) : List (String × String) := pairUp (pySplitWs v)

/-- `utils.copy_xml_element(node, tag)` (ramrod/utils.py:97-104) on an element: a deep copy (with tail)
under a new tag. -/
def copyRetag (tag : QName) (e : Elem) (kids : List Node) : Node := .elem { e with tag := tag } kids

/-- `etree.Element(tag)` with text: a new element (ramrod/base.py:189). -/
def newElem (tag : QName) (attrs : Attrs) (text : Option String) (kids : List Node) : Node :=
  .elem ⟨tag, [], attrs, text, none⟩ kids

example : getSchemalocPairs "a b c d e" = [("a", "b"), ("c", "d")] := by decide

end Ramrod

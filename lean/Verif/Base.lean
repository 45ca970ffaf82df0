import Verif.Utils
/-!
# ramrod/base.py, ramrod/options.py, ramrod/results.py
-/

namespace Ramrod

/-- `[x for x in l if p(x)]` where `p` may raise; the first exception wins. -/
def filterE {α ε : Type} (p : α → Except ε Bool) : List α → Except ε (List α)
  | [] => .ok []
  | a :: as =>
    match p a with
    | .error x => .error x
    | .ok b =>
      match filterE p as with
      | .error x => .error x
      | .ok r => .ok (if b then a :: r else r)

/-- `[f(x) for x in l]` where `f` may raise; the first exception wins. -/
def mapE {α β ε : Type} (f : α → Except ε β) : List α → Except ε (List β)
  | [] => .ok []
  | a :: as =>
    match f a with
    | .error x => .error x
    | .ok b =>
      match mapE f as with
      | .error x => .error x
      | .ok r => .ok (b :: r)

/-- `for x in l: s = f(s, x)` where `f` may raise. -/
def foldE {α σ ε : Type} (f : σ → α → Except ε σ) : σ → List α → Except ε σ
  | s, [] => .ok s
  | s, a :: as =>
    match f s a with
    | .error x => .error x
    | .ok s' => foldE f s' as

/-! ## Controlled vocabularies -/

/-- `base.Vocab` (ramrod/base.py:21-43).  `reference = none` models a class attribute that is not a
string (a tuple because of a trailing comma), for which lxml raises `TypeError` on assignment. -/
structure Vocab where
  ns : String
  oldTypes : List String
  newType : String
  reference : Option String
  name : String
  terms : List (String × String)
deriving Repr, DecidableEq

/-- `TAG_VOCAB_REFERENCE` (ramrod/base.py:17). -/
def attrVocabReference : QName := .plain "vocab_reference"
/-- `TAG_VOCAB_NAME` (ramrod/base.py:18). -/
def attrVocabName : QName := .plain "vocab_name"

/-- Body of the loop in `Vocab.find` (ramrod/base.py:55-64). -/
def Vocab.wanted (v : Vocab) (c : Ctx) : Except Err Bool :=
  match getTypeInfo c.e with
  | .error x => .error x
  | .ok (_, typename) =>
    match getExtNamespace c with
    | .error x => .error x
    | .ok extNs =>
      if extNs ≠ v.ns then .ok false
      else if typename ∉ v.oldTypes then .ok false
      else .ok true

/-- `Vocab.find` (ramrod/base.py:45-66). -/
def Vocab.find (v : Vocab) (typed : List Ctx) : Except Err (List Ctx) := filterE v.wanted typed

/-- Body of the loop in `Vocab.update` (ramrod/base.py:84-110), on one node. -/
def Vocab.updateNode (v : Vocab) (e : Elem) : Except Err Elem :=
  match getTypeInfo e with
  | .error x => .error x
  | .ok (alias, _) =>
    let e1 := e.set tagXsiType (alias ++ ":" ++ v.newType)
    let e2 : Except Err Elem :=
      if e1.has attrVocabReference then
        match v.reference with
        | some r => .ok (e1.set attrVocabReference r)
        | none => .error .typeError
      else .ok e1
    match e2 with
    | .error x => .error x
    | .ok e2 =>
      let e3 := if e2.has attrVocabName then e2.set attrVocabName v.name else e2
      match e3.text with
      | some value =>
        match assoc v.terms value with
        | some new => .ok { e3 with text := some new }
        | none => .ok e3
      | none => .ok e3

/-- `Vocab.update` (ramrod/base.py:68-110).  The list `typed` of live nodes is recomputed here: no
vocabulary update adds or removes an `xsi:type` attribute, so the nodes are the same, with their current
attributes. -/
def Vocab.update (v : Vocab) (t : Node) : Except Err Node :=
  match v.find (getTypedNodes t) with
  | .error x => .error x
  | .ok found =>
    foldE (fun t c =>
      match v.updateNode c.e with
      | .error x => .error x
      | .ok e' => .ok (t.modifyAt c.pos (fun _ => e'))) t found

/-! ## Finders -/

/-- The XPaths occurring in finder classes: `.`, `./*` and unions of descendant paths. -/
inductive XPath where
  | self
  | children
  | union (alts : List XAlt)
deriving Repr, DecidableEq

/-- The element children of an element (`node.iterchildren('*')`, XPath `./*`; ramrod/utils.py:309-313),
numbering all child nodes from `i`. -/
def childCtxs (c : Ctx) : Nat → List Node → List Ctx
  | _, [] => []
  | i, .other _ _ :: ks => childCtxs c (i + 1) ks
  | i, .elem e es :: ks => ⟨i :: c.pos, e.decls ++ c.env, c.e.tag :: c.anc, e, es⟩ :: childCtxs c (i + 1) ks

/-- `ctx.xpath(xpath, namespaces=nsmap)` (ramrod/base.py:325).  Simplification: a union is evaluated from
the document root; in the code unions are only used by classes without `CTX_TYPES`, whose only context is
the root. -/
def XPath.eval (root : Node) (m : List (String × String)) (x : XPath) (c : Ctx) : List Ctx :=
  match x with
  | .self => [c]
  | .children => childCtxs c 0 c.kids
  | .union alts => root.xpath m alts

/-- `base.DisallowedFields` and its subclasses (ramrod/base.py:234-254): `CTX_TYPES`, `XPATH`, `NSMAP` and
the overridable `_interrogate`, which also gets the document (for `getparent()`). -/
structure Finder where
  ctxTypes : List (String × String)
  xpath : XPath
  nsmap : List (String × String)
  interrogate : Node → List Ctx → List Ctx

/-- Body of the loop in `_get_contexts` (ramrod/base.py:303-308). -/
def Finder.isContext (f : Finder) (c : Ctx) : Except Err Bool :=
  match getTypeInfo c.e with
  | .error x => .error x
  | .ok (_, ty) =>
    match getExtNamespace c with
    | .error x => .error x
    | .ok ns => .ok (decide (assoc f.ctxTypes ty = some ns))

/-- `DisallowedFields._get_contexts` (ramrod/base.py:275-310).  `t.elems.take 1` is the root node. -/
def Finder.contexts (f : Finder) (t : Node) : Except Err (List Ctx) :=
  if f.ctxTypes.isEmpty then .ok (t.elems.take 1)
  else filterE f.isContext (getTypedNodes t)

/-- `DisallowedFields.find` (ramrod/base.py:312-329). -/
def Finder.find (f : Finder) (t : Node) : Except Err (List Ctx) :=
  match f.contexts t with
  | .error x => .error x
  | .ok cs => .ok (cs.flatMap (fun c => f.interrogate t (f.xpath.eval t f.nsmap c)))

mutual
/-- `OptionalElements._is_empty` (ramrod/base.py:392-400): no element of the subtree has attributes or
non-blank text. -/
def Node.isEmptyElem : Node → Bool
  | .other _ _ => true
  | .elem e ks =>
    e.attrs.isEmpty && (match e.text with | none => true | some s => stripWhitespace s == "") &&
      Node.areEmptyElems ks
/-- `_is_empty` on all children. -/
def Node.areEmptyElems : List Node → Bool
  | [] => true
  | k :: ks => k.isEmptyElem && Node.areEmptyElems ks
end

/-- `OptionalElements._interrogate` (ramrod/base.py:402-415). -/
def keepEmpty (_ : Node) (cs : List Ctx) : List Ctx := cs.filter (fun c => c.node.isEmptyElem)

/-- The default `_interrogate` (ramrod/base.py:256-273). -/
def keepAll (_ : Node) (cs : List Ctx) : List Ctx := cs

/-- `for optional in OPTIONAL_ELEMENTS: remove_xml_elements(optional.find(root))`, the common body of the
`_update_optionals` methods (ramrod/cybox/cybox_2_0_1.py:549-556, ramrod/stix/stix_1_0_1.py:406-411,
ramrod/stix/stix_1_1.py:304-309).  The loop over optional attributes is over an empty tuple everywhere.
Simplification: `typed` nodes are recomputed per class; only one class in any list has `CTX_TYPES`. -/
def removeOptionals (fs : List Finder) (t : Node) : Except Err Node :=
  foldE (fun t f =>
    match f.find t with
    | .error x => .error x
    | .ok found => .ok (t.removeAll (found.map (·.pos)))) t fs

/-! ## Translatable fields -/

/-- Subclasses of `base.TranslatableField` (ramrod/base.py:113-231). -/
inductive TransKind where
  /-- The inherited `_translate_fields`: value XPath (`none` is `'.'`, `some x` is `./x`), `NEW_TAG`,
  `COPY_ATTRIBUTES`, `OVERRIDE_ATTRIBUTES`. -/
  | value (valuePath : Option XName) (newTag : Option QName) (copyAttrs : Bool)
      (overrides : List (QName × String))
  /-- `base.RenamedField` (ramrod/base.py:218-231). -/
  | renamed (newTag : QName)
  /-- An overridden `_translate_fields`. -/
  | custom (f : Ctx → Except Err Node)
  /-- An overridden `translate` that replaces the parent of each found node by the result
  (`TransWinMailslotHandle`, ramrod/cybox/cybox_2_0_1.py:209-223). -/
  | parent (f : Ctx → Except Err Node)

/-- A translatable field class: `XPATH_NODE`, `NSMAP` and what it does. -/
structure Trans where
  xpath : List XAlt
  nsmap : List (String × String)
  kind : TransKind

/-- `old.xpath(XPATH_VALUE)[0]` (ramrod/base.py:148, 168): the node itself, or its first child element
with the given name; `IndexError` when there is none. -/
def valueNode (m : List (String × String)) (p : Option XName) (c : Ctx) : Except Err Elem :=
  match p with
  | none => .ok c.e
  | some x =>
    match (childCtxs c 0 c.kids).find? (fun k => k.e.tag = x.resolve m) with
    | some k => .ok k.e
    | none => .error .indexError

/-- The loop over `OVERRIDE_ATTRIBUTES` (ramrod/base.py:175-178). -/
def overrideAttrs (src : Elem) : List (QName × String) → Attrs → Attrs
  | [], as => as
  | (n, v) :: rest, as => overrideAttrs src rest (if src.has n then Attrs.set as n v else as)

/-- `TranslatableField._translate_fields` with `_translate_value` and `_translate_attributes`
(ramrod/base.py:144-194). -/
def translateValue (m : List (String × String)) (p : Option XName) (newTag : Option QName)
    (copyAttrs : Bool) (overrides : List (QName × String)) (c : Ctx) : Except Err Node :=
  match valueNode m p c with
  | .error x => .error x
  | .ok src =>
    let attrs := overrideAttrs src overrides (if copyAttrs then Attrs.updateAll [] src.attrs else [])
    .ok (newElem (newTag.getD c.e.tag) attrs src.text [])

/-- `TranslatableField.translate` (ramrod/base.py:206-215), `RenamedField.translate` (226-231) and
`TransWinMailslotHandle.translate` (ramrod/cybox/cybox_2_0_1.py:219-223).  Each found node is translated
in turn (an exception aborts), and replaced in the document. -/
def Trans.translate (f : Trans) (t : Node) : Except Err Node :=
  let found := t.xpath f.nsmap f.xpath
  match f.kind with
  | .renamed tag => .ok (t.modifyAll (found.map (·.pos)) (fun e => { e with tag := tag }))
  | .value p nt ca ov =>
    match mapE (fun c => (translateValue f.nsmap p nt ca ov c).map (fun n => (c.pos, n))) found with
    | .error x => .error x
    | .ok l => .ok (t.replaceAll l)
  | .custom g =>
    match mapE (fun c => (g c).map (fun n => (c.pos, n))) found with
    | .error x => .error x
    | .ok l => .ok (t.replaceAll l)
  | .parent g =>
    match mapE (fun c => (g c).map (fun n => (c.pos.tail, n))) found with
    | .error x => .error x
    | .ok l => .ok (t.replaceAll l)

/-- `for field in TRANSLATABLE_FIELDS: field.translate(root)`, the `_translate_fields` methods of the
updaters (ramrod/cybox/cybox_2_0_1.py:534-539, ramrod/stix/stix_1_0_1.py:394-396,
ramrod/stix/stix_1_1.py:292-294). -/
def translateFields (fs : List Trans) (t : Node) : Except Err Node :=
  foldE (fun t f => f.translate t) t fs

/-! ## Updater classes -/

/-- `options.UpdateOptions` (ramrod/options.py:7-44).  `newId n orig` is the id given by the `n`-th call of
`new_id_func` to a node whose id is `orig`; for the default function it is `createNewId (uuid n) orig`.
Simplification: the function sees only the id of the node. -/
structure Options where
  checkVersions : Bool := true
  newId : Nat → String → String
  updateVocabularies : Bool := true
  removeOptionals : Bool := true

/-- Class-level tables of `BaseUpdater` (ramrod/base.py:462-479). -/
structure Cls where
  version : String
  nsmap : List (String × String)
  disallowedNs : List String
  updateNsMap : List (String × String)
  schemalocMap : List (String × String)
  vocabs : List Vocab
  xpathVersioned : List XAlt
  xpathRoots : List XAlt
  disallowed : List Finder
  optionals : List Finder
  translatable : List Trans

/-- `BaseUpdater._get_versioned_nodes` (ramrod/base.py:531-545). -/
def Cls.versionedNodes (u : Cls) (t : Node) : List Ctx := t.xpath u.nsmap u.xpathVersioned

/-- `BaseUpdater._get_root_nodes` (ramrod/base.py:547-562). -/
def Cls.rootNodes (u : Cls) (t : Node) : List Ctx := t.xpath u.nsmap u.xpathRoots

/-- A table `{ id: [nodes] }`. -/
abbrev Dups := List (String × List Ctx)

/-- `id_nodes` restricted to groups of more than one node (ramrod/base.py:510-529): grouping in order of
first occurrence. -/
def groupDups (cs : List Ctx) : Dups :=
  let ids := (cs.filterMap (fun c => c.e.get? attrId)).eraseDups
  (ids.map (fun i => (i, cs.filter (fun c => c.e.get? attrId = some i)))).filter
    (fun g => decide (1 < g.2.length))

/-- `BaseUpdater._get_duplicates` (ramrod/base.py:501-529): descendants with an `id` attribute whose
namespace is one of `NSMAP.values()`. -/
def getDuplicates (nsmap : List (String × String)) (t : Node) : Dups :=
  groupDups (t.descs.filter (fun c =>
    c.e.has attrId && (match c.e.tag.ns with | none => false | some n => n ∈ nsmap.map (·.2))))

/-- `BaseUpdater._update_vocabs` (ramrod/base.py:578-595). -/
def updateVocabs (vs : List Vocab) (t : Node) : Except Err Node := foldE (fun t v => v.update t) t vs

/-- `BaseUpdater._create_schemaloc_str` (ramrod/base.py:601-613). -/
def createSchemalocStr (pairs : List (String × String)) : String :=
  pyJoin "   " (pairs.map (fun p => p.1 ++ " " ++ p.2))

/-- `BaseUpdater._clean_schemalocs` (ramrod/base.py:615-628). -/
def Cls.cleanSchemalocs (u : Cls) (pairs : List (String × String)) : List (String × String) :=
  pairs.filter (fun p => decide (p.1 ∉ u.disallowedNs))

/-- `BaseUpdater._remap_schemalocs` (ramrod/base.py:630-648). -/
def Cls.remapSchemalocs (u : Cls) (pairs : List (String × String)) : List (String × String) :=
  pairs.map (fun p =>
    let ns := (assoc u.updateNsMap p.1).getD p.1
    let loc := (assoc u.schemalocMap ns).getD p.2
    (ns, loc))

/-- `BaseUpdater._update_schemalocs` on the data of the root element (ramrod/base.py:661-669). -/
def Cls.updateSchemalocsElem (u : Cls) (e : Elem) : Elem :=
  match e.get? tagSchemaLoc with
  | none => e
  | some v => e.set tagSchemaLoc (createSchemalocStr (u.remapSchemalocs (u.cleanSchemalocs (getSchemalocPairs v))))

/-- `BaseUpdater._update_schemalocs` (ramrod/base.py:650-669): the root element only. -/
def Cls.updateSchemalocs (u : Cls) : Node → Node
  | .elem e ks => .elem (u.updateSchemalocsElem e) ks
  | .other c t => .other c t

/-- `node.nsmap` as a dictionary: for each prefix the nearest declaration (lxml). -/
def NsMap.dedup : NsMap → NsMap
  | [] => []
  | (p, u) :: rest => (p, u) :: (NsMap.dedup rest).filter (fun q => q.1 ≠ p)

/-- `BaseUpdater._remap_namespaces` (ramrod/base.py:687-710), from the in-scope namespaces of the node. -/
def Cls.remapNamespaces (u : Cls) (env : NsMap) : NsMap :=
  ((NsMap.dedup env).filter (fun p => decide (p.2 ∉ u.disallowedNs))).map
    (fun p => (p.1, (assoc u.updateNsMap p.2).getD p.2))

/-- `BaseUpdater._get_remapped_tag` (ramrod/base.py:712-725).  A tag without namespace is left alone; the
only caller checks that the namespace is a key of `UPDATE_NS_MAP`. -/
def Cls.remappedTag (u : Cls) (q : QName) : QName :=
  ⟨q.ns.map (fun n => (assoc u.updateNsMap n).getD n), q.name⟩

/-- `ns in self.UPDATE_NS_MAP` (ramrod/base.py:783). -/
def Cls.nsUpdated (u : Cls) (q : QName) : Bool :=
  match q.ns with
  | none => false
  | some n => (assoc u.updateNsMap n).isSome

/-- The data of the element made by `BaseUpdater._update_nsmap` (ramrod/base.py:739-761): remapped tag and
declarations, the same attributes, the text only when there are no child nodes, no tail. -/
def Cls.updateNsmapElem (u : Cls) (env : NsMap) (e : Elem) (kids : List Node) : Elem :=
  { tag := u.remappedTag e.tag, decls := u.remapNamespaces env, attrs := e.attrs,
    text := getNodeText e kids, tail := none }

mutual
/-- `BaseUpdater._update_namespaces` (ramrod/base.py:763-788): children first (comments are not visited,
but stay); then the node itself is replaced when its namespace is renamed.  `env` is the outer scope. -/
def Cls.updateNamespaces (u : Cls) (env : NsMap) : Node → Node
  | .other c t => .other c t
  | .elem e ks =>
    if u.nsUpdated e.tag then
      .elem (u.updateNsmapElem (e.decls ++ env) e ks) (Cls.updateNamespacess u (e.decls ++ env) ks)
    else .elem e (Cls.updateNamespacess u (e.decls ++ env) ks)
/-- `for child in children(node): self._update_namespaces(child)` (ramrod/base.py:778-779). -/
def Cls.updateNamespacess (u : Cls) (env : NsMap) : List Node → List Node
  | [] => []
  | k :: ks => Cls.updateNamespaces u env k :: Cls.updateNamespacess u env ks
end

/-! ## Cleaning and updating -/

/-- `results.UpdateResults` (ramrod/results.py:9-36): the document, the removed nodes, and the remapped
ids; for each old id the ids its nodes have now. -/
structure Result where
  doc : Node
  removed : List Node
  remapped : List (String × List String)
deriving DecidableEq

/-- The methods of a concrete updater class used by `BaseUpdater` (ramrod/base.py:809-920). -/
structure Updater where
  /-- class-level tables -/
  cls : Cls
  /-- `check_update` -/
  check : Options → Node → Except Err Unit
  /-- `_get_disallowed`; `none` models `None` -/
  disallowed : Node → Except Err (Option (List Ctx))
  /-- `_get_duplicates`; `none` models `None` -/
  duplicates : Node → Option Dups
  /-- `_update` -/
  update : Options → Node → Except Err Node

/-- `for node in nodes: new_id(node)` for one group (ramrod/cybox/cybox_2_0_1.py:612-613,
ramrod/stix/stix_1_0_1.py:507-508).  `k` counts the calls of `new_id_func`. -/
def remapGroup (gen : Nat → String → String) : List Ctx → Nat → Node → Node × Nat × List String
  | [], k, t => (t, k, [])
  | c :: cs, k, t =>
    let nid := gen k ((c.e.get? attrId).getD "")
    let r := remapGroup gen cs (k + 1) (t.modifyAt c.pos (fun e => e.set attrId nid))
    (r.1, r.2.1, nid :: r.2.2)

/-- `_clean_duplicates` (ramrod/cybox/cybox_2_0_1.py:600-615, ramrod/stix/stix_1_0_1.py:494-510). -/
def cleanDuplicates (gen : Nat → String → String) :
    Dups → Nat → Node → Node × Nat × List (String × List String)
  | [], k, t => (t, k, [])
  | g :: gs, k, t =>
    let r := remapGroup gen g.2 k t
    let r' := cleanDuplicates gen gs r.2.1 r.1
    (r'.1, r'.2.1, (g.1, r.2.2) :: r'.2.2)

/-- The copies collected by `_clean_disallowed` (ramrod/cybox/cybox_2_0_1.py:592-596): each node is copied
just before it is unlinked, so parts of it unlinked earlier (`done`) are missing from the copy. -/
def removedCopies (t : Node) (done : List Pos) : List Pos → List Node
  | [] => []
  | p :: ps =>
    match t.ctxAt p with
    | some c => c.node.prune (fun q => q ∈ done) p :: removedCopies t (p :: done) ps
    | none => removedCopies t (p :: done) ps

/-- `_clean_disallowed` (ramrod/cybox/cybox_2_0_1.py:582-598, ramrod/stix/stix_1_0.py:259-275,
ramrod/stix/stix_1_0_1.py:476-492): remove the nodes, return their copies. -/
def cleanDisallowed (t : Node) (ps : List Pos) : Node × List Node :=
  (t.removeAll ps, removedCopies t [] ps)

/-- `BaseUpdater._clean` (ramrod/base.py:818-838).  Both searches happen before any change; `k` counts the
calls of `new_id_func`. -/
def clean (u : Updater) (o : Options) (k : Nat) (t : Node) : Except Err (Result × Nat) :=
  match u.disallowed t with
  | .error x => .error x
  | .ok dis =>
    let (t1, k1, remapped) :=
      match u.duplicates t with
      | none => (t, k, [])
      | some dups => cleanDuplicates o.newId dups k t
    let (t2, removed) :=
      match dis with
      | none => (t1, [])
      | some cs => if cs.isEmpty then (t1, []) else cleanDisallowed t1 (cs.map (·.pos))
    .ok (⟨t2, removed, remapped⟩, k1)

/-- `BaseUpdater._force_update` (ramrod/base.py:891-913). -/
def forceUpdate (u : Updater) (o : Options) (k : Nat) (t : Node) : Except Err (Result × Nat) :=
  match clean u o k t with
  | .error x => .error x
  | .ok (r, k') =>
    match u.update o r.doc with
    | .error x => .error x
    | .ok doc => .ok (⟨doc, r.removed, r.remapped⟩, k')

/-- The `try` body of `BaseUpdater.update` (ramrod/base.py:977-979). -/
def tryUpdate (u : Updater) (o : Options) (t : Node) : Except Err Node :=
  match u.check o t with
  | .error x => .error x
  | .ok () => u.update o t

/-- `BaseUpdater.update` (ramrod/base.py:922-986) on the private copy of the document. -/
def stepUpdate (u : Updater) (o : Options) (force : Bool) (k : Nat) (t : Node) :
    Except Err (Result × Nat) :=
  match tryUpdate u o t with
  | .ok doc => .ok (⟨doc, [], []⟩, k)
  | .error x => if refusable x && force then forceUpdate u o k t else .error x

/-- `{k: v}` update of one key, keeping the place of an existing key (Python `dict.update`). -/
def dictSet {β : Type} (m : List (String × β)) (k : String) (v : β) : List (String × β) :=
  match m with
  | [] => [(k, v)]
  | (k', v') :: rest => if k' = k then (k', v) :: rest else (k', v') :: dictSet rest k v

/-- `a.update(b)` / `dict(list(a.items()) + list(b.items()))` (ramrod/stix/__init__.py:70,
ramrod/stix/stix_1_0_1.py:448). -/
def dictUpdate {β : Type} (a b : List (String × β)) : List (String × β) :=
  b.foldl (fun acc p => dictSet acc p.1 p.2) a

end Ramrod

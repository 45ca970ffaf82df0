import Verif.Version
/-!
# The part of lxml the code uses

A document is a tree of nodes; see DESIGN.md section 1 for the conventions.
-/

namespace Ramrod

/-- An expanded XML name; lxml writes it `{ns}name` (used everywhere, e.g. ramrod/utils.py:210-217). -/
structure QName where
  ns : Option String
  name : String
deriving DecidableEq, Repr, Inhabited

/-- Attribute or element name without namespace. -/
def QName.plain (s : String) : QName := ⟨none, s⟩

/-- Namespace declarations `prefix ↦ namespace`; the default namespace has prefix `none`, as the key
`None` of lxml's `nsmap`. -/
abbrev NsMap := List (Option String × String)

/-- Attributes in document order (lxml `_Attrib`). -/
abbrev Attrs := List (QName × String)

/-- The data lxml keeps on one element apart from its children.  `decls` are the namespace declarations
written on this element; `tail` is the text following its end tag. -/
structure Elem where
  tag : QName
  decls : NsMap
  attrs : Attrs
  text : Option String
  tail : Option String
deriving DecidableEq, Repr, Inhabited

/-- XML nodes: elements, and everything else lxml lists among the children (comments, processing
instructions, unresolved entities), which the code never inspects. -/
inductive Node where
  | elem (e : Elem) (kids : List Node)
  | other (content : String) (tail : Option String)
deriving Repr, Inhabited

mutual
/-- Structural equality test, used only to evaluate examples. -/
def Node.beq : Node → Node → Bool
  | .elem e ks, .elem e' ks' => decide (e = e') && Node.beqs ks ks'
  | .other c t, .other c' t' => decide (c = c') && decide (t = t')
  | _, _ => false
/-- Structural equality test on lists of nodes. -/
def Node.beqs : List Node → List Node → Bool
  | [], [] => true
  | a :: as, b :: bs => Node.beq a b && Node.beqs as bs
  | _, _ => false
end

mutual
theorem Node.beq_iff : ∀ a b : Node, Node.beq a b = true ↔ a = b
  | .elem e ks, .elem e' ks' => by
    simp [Node.beq, Node.beqs_iff ks ks']
  | .other c t, .other c' t' => by simp [Node.beq]
  | .elem e ks, .other c t => by simp [Node.beq]
  | .other c t, .elem e ks => by simp [Node.beq]
theorem Node.beqs_iff : ∀ a b : List Node, Node.beqs a b = true ↔ a = b
  | [], [] => by simp [Node.beqs]
  | [], b :: bs => by simp [Node.beqs]
  | a :: as, [] => by simp [Node.beqs]
  | a :: as, b :: bs => by simp [Node.beqs, Node.beq_iff a b, Node.beqs_iff as bs]
end

instance : DecidableEq Node := fun a b => decidable_of_iff _ (Node.beq_iff a b)

/-- Induction over nodes with the hypothesis for every child. -/
theorem Node.ind {P : Node → Prop} (helem : ∀ e ks, (∀ k ∈ ks, P k) → P (.elem e ks))
    (hother : ∀ c t, P (.other c t)) : ∀ n, P n := by
  intro n
  exact Node.rec (motive_1 := P) (motive_2 := fun ks => ∀ k ∈ ks, P k)
    (fun e ks h => helem e ks h) hother (by simp)
    (by intro a b h1 h2; simp; exact ⟨h1, h2⟩) n

/-! ## Attributes -/

/-- `attrib.get(name)` / `attrib[name]` (lxml `_Attrib`). -/
def Attrs.get? (as : Attrs) (k : QName) : Option String :=
  match as with
  | [] => none
  | (k', v) :: rest => if k' = k then some v else Attrs.get? rest k

/-- `attrib[name] = value`: overwrite in place, append when absent. -/
def Attrs.set (as : Attrs) (k : QName) (v : String) : Attrs :=
  match as with
  | [] => [(k, v)]
  | (k', v') :: rest => if k' = k then (k', v) :: rest else (k', v') :: Attrs.set rest k v

/-- `del attrib[name]`, ignoring a missing key. -/
def Attrs.del (as : Attrs) (k : QName) : Attrs := as.filter (fun p => p.1 ≠ k)

/-- `name in attrib`. -/
def Attrs.has (as : Attrs) (k : QName) : Bool := (as.get? k).isSome

/-- `attrib.update(other)`. -/
def Attrs.updateAll (as bs : Attrs) : Attrs := bs.foldl (fun acc p => Attrs.set acc p.1 p.2) as

/-- `node.attrib.get(name)`. -/
def Elem.get? (e : Elem) (k : QName) : Option String := Attrs.get? e.attrs k
/-- `node.attrib[name] = value`. -/
def Elem.set (e : Elem) (k : QName) (v : String) : Elem := { e with attrs := Attrs.set e.attrs k v }
/-- `del node.attrib[name]` under `ignored(KeyError)` (ramrod/utils.py:107-116). -/
def Elem.del (e : Elem) (k : QName) : Elem := { e with attrs := Attrs.del e.attrs k }
/-- `name in node.attrib`. -/
def Elem.has (e : Elem) (k : QName) : Bool := Attrs.has e.attrs k

/-- Association-list lookup: `dict.get`. -/
def assoc {β : Type} (m : List (String × β)) (k : String) : Option β :=
  match m with
  | [] => none
  | (k', v) :: rest => if k' = k then some v else assoc rest k

/-- `node.nsmap.get(prefix)`: nearest declaration first. -/
def NsMap.get? (m : NsMap) (p : Option String) : Option String :=
  match m with
  | [] => none
  | (p', u) :: rest => if p' = p then some u else NsMap.get? rest p

/-! ## Positions and traversal -/

/-- Identity of a node inside a document: child indices, innermost first; the root is `[]`. -/
abbrev Pos := List Nat

/-- An element as seen by the code: where it is, its in-scope namespaces (`node.nsmap`), the tags of its
ancestors (nearest first) and its content. -/
structure Ctx where
  pos : Pos
  env : NsMap
  anc : List QName
  e : Elem
  kids : List Node
deriving Repr, DecidableEq

/-- The node itself. -/
def Ctx.node (c : Ctx) : Node := .elem c.e c.kids

mutual
/-- All elements of a subtree in document order (lxml `iter('*')`, XPath `descendant-or-self::*`). -/
def Node.walk (pos : Pos) (env : NsMap) (anc : List QName) : Node → List Ctx
  | .other _ _ => []
  | .elem e ks => ⟨pos, e.decls ++ env, anc, e, ks⟩ :: Node.walks pos 0 (e.decls ++ env) (e.tag :: anc) ks
/-- The elements below the children `i, i+1, …` of the node at `pos`. -/
def Node.walks (pos : Pos) (i : Nat) (env : NsMap) (anc : List QName) : List Node → List Ctx
  | [] => []
  | k :: ks => Node.walk (i :: pos) env anc k ++ Node.walks pos (i + 1) env anc ks
end

/-- All elements of a document in document order, root first. -/
def Node.elems (t : Node) : List Ctx := t.walk [] [] []

/-- `iterdescendants('*')` of the root (ramrod/utils.py:324-328): all elements except the root. -/
def Node.descs (t : Node) : List Ctx := t.elems.tail

mutual
/-- Apply `f` to the data of every element, knowing its position. -/
def Node.mapPos (f : Pos → Elem → Elem) (pos : Pos) : Node → Node
  | .other c t => .other c t
  | .elem e ks => .elem (f pos e) (Node.mapPoss f pos 0 ks)
/-- `mapPos` on the children `i, i+1, …`. -/
def Node.mapPoss (f : Pos → Elem → Elem) (pos : Pos) (i : Nat) : List Node → List Node
  | [] => []
  | k :: ks => Node.mapPos f (i :: pos) k :: Node.mapPoss f pos (i + 1) ks
end

/-- In-place change (tag, attributes, text) of the element at position `p`. -/
def Node.modifyAt (t : Node) (p : Pos) (g : Elem → Elem) : Node :=
  t.mapPos (fun q e => if q = p then g e else e) []

/-- `for node in nodes: <in-place change g of node>`. -/
def Node.modifyAll (t : Node) (ps : List Pos) (g : Elem → Elem) : Node :=
  ps.foldl (fun t p => t.modifyAt p g) t

mutual
/-- Subtree with the elements at the positions selected by `r` replaced.  A replaced node is not
searched further: nodes inside it are detached from the document. -/
def Node.subst (r : Pos → Option Node) (pos : Pos) : Node → Node
  | .other c t => .other c t
  | .elem e ks =>
    match r pos with
    | some n => n
    | none => .elem e (Node.substs r pos 0 ks)
/-- `subst` on the children `i, i+1, …`. -/
def Node.substs (r : Pos → Option Node) (pos : Pos) (i : Nat) : List Node → List Node
  | [] => []
  | k :: ks => Node.subst r (i :: pos) k :: Node.substs r pos (i + 1) ks
end

/-- Position lookup in a list of replacements (first match wins: a node is replaced when it is first
reached; afterwards it is detached). -/
def posLookup (l : List (Pos × Node)) (p : Pos) : Option Node :=
  match l with
  | [] => none
  | (q, n) :: rest => if q = p then some n else posLookup rest p

/-- `for old, new in l: utils.replace_xml_element(old, new)` (ramrod/utils.py:71-80), the `old`s being
found in the original document in document order.  `parent.insert(idx, new); parent.remove(old)` puts
`new` (with its own tail) at the place of `old`; the tail of `old` goes away with `old`.  A node inside
an already replaced one is detached, so replacing it does not touch the document.  A root (`[]`) has no
parent and is never replaced. -/
def Node.replaceAll (t : Node) (l : List (Pos × Node)) : Node :=
  t.subst (fun p => if p = [] then none else posLookup l p) []

mutual
/-- Subtree with the elements at the positions selected by `s` removed (the root of the subtree is
kept). -/
def Node.prune (s : Pos → Bool) (pos : Pos) : Node → Node
  | .other c t => .other c t
  | .elem e ks => .elem e (Node.prunes s pos 0 ks)
/-- `prune` on the children `i, i+1, …` (positions refer to the original tree). -/
def Node.prunes (s : Pos → Bool) (pos : Pos) (i : Nat) : List Node → List Node
  | [] => []
  | .other c t :: ks => .other c t :: Node.prunes s pos (i + 1) ks
  | .elem e es :: ks =>
    if s (i :: pos) then Node.prunes s pos (i + 1) ks
    else Node.prune s (i :: pos) (.elem e es) :: Node.prunes s pos (i + 1) ks
end

/-- `utils.remove_xml_elements(nodes)` (ramrod/utils.py:91-94, with remove_xml_element 83-88): every
node that has a parent is unlinked together with its tail.  Nodes found inside an already removed
node are unlinked from the removed part, which does not change the document. -/
def Node.removeAll (t : Node) (ps : List Pos) : Node := t.prune (fun p => p ∈ ps) []

/-- The element at a position, with its in-scope namespaces. -/
def Node.ctxAt (t : Node) (p : Pos) : Option Ctx := t.elems.find? (fun c => c.pos = p)

/-! ## XPath subset -/

/-- `prefix:name` in an XPath. -/
structure XName where
  pre : String
  name : String
deriving DecidableEq, Repr

/-- Prefix resolution through the `namespaces` argument of `xpath()`.  Simplification: an unbound prefix
(which raises in lxml) resolves to a name without namespace; `Verif/Tables.lean` checks that all prefixes
used are bound. -/
def XName.resolve (m : List (String × String)) (x : XName) : QName := ⟨assoc m x.pre, x.name⟩

/-- Predicates used in the code's XPaths: none, `[@name]`, `[p:child]`. -/
inductive XPred where
  | none
  | hasAttr (a : String)
  | hasChild (x : XName)
deriving DecidableEq, Repr

/-- One alternative of a union: `//A`, `//A/B` (`abs = true`), `.//A`, `.//A/B` (`abs = false`), with an
optional predicate on the last step. -/
structure XAlt where
  abs : Bool
  parent : Option XName
  tag : XName
  pred : XPred
deriving DecidableEq, Repr

/-- Is a node an element with this tag? -/
def Node.hasTag (q : QName) : Node → Bool
  | .elem e _ => e.tag = q
  | .other _ _ => false

/-- Does the element satisfy the predicate? -/
def XPred.holds (m : List (String × String)) (p : XPred) (c : Ctx) : Bool :=
  match p with
  | .none => true
  | .hasAttr a => c.e.has (.plain a)
  | .hasChild x => c.kids.any (Node.hasTag (x.resolve m))

/-- Does alternative `a`, evaluated from the document root, select the element?  `.//A` selects proper
descendants of the context node, `.//A/B` children of proper descendants, `//…` starts above the root
element. -/
def XAlt.selects (m : List (String × String)) (a : XAlt) (c : Ctx) : Bool :=
  (c.e.tag = a.tag.resolve m) &&
  (match a.parent with
   | none => a.abs || decide (1 ≤ c.anc.length)
   | some p => decide (c.anc.head? = some (p.resolve m)) && (a.abs || decide (2 ≤ c.anc.length))) &&
  a.pred.holds m c

/-- `root.xpath(alts, namespaces=m)`: the selected elements in document order, each once. -/
def Node.xpath (t : Node) (m : List (String × String)) (alts : List XAlt) : List Ctx :=
  t.elems.filter (fun c => alts.any (fun a => a.selects m c))

/-! ## Exceptions -/

/-- Exceptions of the modelled code; nodes listed in an `UpdateError` are positions with content. -/
abbrev Err := PyErr Ctx

/-- The three exception classes caught by `BaseUpdater.update` (ramrod/base.py:980) and by the command
line tool (ramrod/scripts/ramrod_update.py:266-278). -/
def refusable : Err → Bool
  | .update _ _ => true
  | .unknownVersion => true
  | .invalidVersion _ _ _ => true
  | _ => false

end Ramrod

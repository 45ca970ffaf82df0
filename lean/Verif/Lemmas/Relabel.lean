import Verif.Api
import Verif.Lemmas.Attrs
import Verif.Lemmas.Words
/-!
# Relabelling documents: prefixes, ids, values of other attributes, comments

The spec of C49 and the lemmas that every part of the model commutes with it.
-/

namespace Ramrod

/-- A change of everything in a document the updates ought to be blind to: the namespace prefixes, the ids,
the values of attributes no step manages, and the contents of comments. -/
structure Relabel where
  pre : String → String
  id : String → String
  other : QName → String → String
  comment : String → String

/-- The attributes whose values mean something to some step: schema locations, versions, vocabulary names and
references, the datatype of a header field (the attributes of ramrod/xmlconst.py:17, ramrod/base.py:17-18,
ramrod/stix/base.py:80, ramrod/cybox/base.py:38-40, ramrod/cybox/cybox_2_0_1.py:191). -/
def readNames : List QName :=
  [⟨some "http://www.w3.org/2001/XMLSchema-instance", "schemaLocation"⟩, ⟨none, "version"⟩,
   ⟨none, "cybox_major_version"⟩, ⟨none, "cybox_minor_version"⟩, ⟨none, "cybox_update_version"⟩,
   ⟨none, "vocab_reference"⟩, ⟨none, "vocab_name"⟩, ⟨none, "datatype"⟩]

namespace Relabel

/-- A relabelling keeps different prefixes different, and prefixes stay free of colons. -/
structure Legible (r : Relabel) : Prop where
  pre_inj : ∀ a b, r.pre a = r.pre b → a = b
  pre_colon : ∀ a, ':' ∉ a.toList → ':' ∉ (r.pre a).toList

/-- A legible relabelling that keeps different ids different. -/
structure Faithful (r : Relabel) : Prop extends r.Legible where
  id_inj : ∀ a b, r.id a = r.id b → a = b

/-- An `xsi:type` value: the part before the first colon is the prefix. -/
def type (r : Relabel) (v : String) : String :=
  r.pre (String.ofList (v.toList.takeWhile (fun c => c != ':'))) ++
    String.ofList (v.toList.dropWhile (fun c => c != ':'))

/-- The value of an attribute. -/
def val (r : Relabel) (k : QName) (v : String) : String :=
  if k = ⟨some "http://www.w3.org/2001/XMLSchema-instance", "type"⟩ then r.type v
  else if k = ⟨none, "id"⟩ then r.id v
  else if k ∈ readNames then v
  else r.other k v

/-- The attributes of an element. -/
def attrs (r : Relabel) (as : Attrs) : Attrs := as.map (fun p => (p.1, r.val p.1 p.2))

/-- Namespace declarations. -/
def nss (r : Relabel) (m : NsMap) : NsMap := m.map (fun p => (p.1.map r.pre, p.2))

/-- An element: the tag, the text and the tail stay. -/
def elem (r : Relabel) (e : Elem) : Elem :=
  { e with decls := r.nss e.decls, attrs := r.attrs e.attrs }

mutual
/-- A node with everything below it. -/
def node (r : Relabel) : Node → Node
  | .elem e ks => .elem (r.elem e) (nodes r ks)
  | .other c t => .other (r.comment c) t
/-- A list of nodes. -/
def nodes (r : Relabel) : List Node → List Node
  | [] => []
  | k :: ks => node r k :: nodes r ks
end

/-- An element with its place. -/
def ctx (r : Relabel) (c : Ctx) : Ctx := ⟨c.pos, r.nss c.env, c.anc, r.elem c.e, r.nodes c.kids⟩

/-- A table of shared ids. -/
def dups (r : Relabel) (d : Dups) : Dups := d.map (fun g => (r.id g.1, g.2.map r.ctx))

/-- An exception: only the listed nodes and ids change. -/
def err (r : Relabel) : Err → Err
  | .update d g => .update (d.map (fun l => l.map r.ctx)) (g.map r.dups)
  | .invalidVersion n a b => .invalidVersion (n.map r.ctx) a b
  | x => x

/-- An outcome. -/
def out (r : Relabel) {α β : Type} (f : α → β) : Except Err α → Except Err β
  | .ok a => .ok (f a)
  | .error x => .error (r.err x)

/-- The results of an update. -/
def result (r : Relabel) (x : Result) : Result :=
  ⟨r.node x.doc, x.removed.map r.node, x.remapped.map (fun p => (r.id p.1, p.2.map r.id))⟩

/-- Options for the relabelled document: the same, with the new ids relabelled. -/
structure Opts (r : Relabel) (o o' : Options) : Prop where
  check : o'.checkVersions = o.checkVersions
  vocabs : o'.updateVocabularies = o.updateVocabularies
  optionals : o'.removeOptionals = o.removeOptionals
  newId : ∀ k s, o'.newId k (r.id s) = r.id (o.newId k s)

variable (r : Relabel)

/-! ## Attributes -/

theorem val_type (v : String) : r.val tagXsiType v = r.type v := rfl
theorem val_id (v : String) : r.val attrId v = r.id v := rfl
theorem val_read {k : QName} (h : k ∈ readNames) (v : String) : r.val k v = v := by
  have h1 : k ≠ ⟨some "http://www.w3.org/2001/XMLSchema-instance", "type"⟩ := by
    intro e; subst e; revert h; decide
  have h2 : k ≠ ⟨none, "id"⟩ := by intro e; subst e; revert h; decide
  simp [val, h1, h2, h]

theorem get?_attrs (k : QName) : ∀ as : Attrs, Attrs.get? (r.attrs as) k = (Attrs.get? as k).map (r.val k)
  | [] => rfl
  | (k', v) :: rest => by
    have ih := get?_attrs k rest
    simp only [attrs, List.map_cons, Attrs.get?] at ih ⊢
    by_cases h : k' = k
    · subst h; simp
    · simp [h, ih]

theorem has_attrs (k : QName) (as : Attrs) : Attrs.has (r.attrs as) k = Attrs.has as k := by
  simp [Attrs.has, get?_attrs]

theorem set_attrs (k : QName) (v : String) : ∀ as : Attrs,
    Attrs.set (r.attrs as) k (r.val k v) = r.attrs (Attrs.set as k v)
  | [] => rfl
  | (k', v') :: rest => by
    have ih := set_attrs k v rest
    simp only [attrs, List.map_cons, Attrs.set] at ih ⊢
    by_cases h : k' = k
    · subst h; simp
    · simp [h, ih]

theorem del_attrs (k : QName) (as : Attrs) : Attrs.del (r.attrs as) k = r.attrs (Attrs.del as k) := by
  simp [Attrs.del, attrs, List.filter_map, Function.comp_def]

theorem updateAll_attrs : ∀ bs as : Attrs,
    Attrs.updateAll (r.attrs as) (r.attrs bs) = r.attrs (Attrs.updateAll as bs)
  | [], as => rfl
  | (k, v) :: bs, as => by
    have ih := updateAll_attrs bs (Attrs.set as k v)
    simp only [Attrs.updateAll, attrs, List.map_cons, List.foldl_cons] at ih ⊢
    have := r.set_attrs k v as
    simp only [attrs] at this
    rw [this]; exact ih

theorem get?_elem (e : Elem) (k : QName) : (r.elem e).get? k = (e.get? k).map (r.val k) := r.get?_attrs k e.attrs
theorem has_elem (e : Elem) (k : QName) : (r.elem e).has k = e.has k := r.has_attrs k e.attrs
theorem get?_read (e : Elem) {k : QName} (h : k ∈ readNames) : (r.elem e).get? k = e.get? k := by
  rw [get?_elem]
  cases e.get? k with
  | none => rfl
  | some v => simp [r.val_read h]
theorem set_elem (e : Elem) (k : QName) (v : String) : (r.elem e).set k (r.val k v) = r.elem (e.set k v) := by
  simp [Elem.set, elem, set_attrs]
theorem set_read (e : Elem) {k : QName} (h : k ∈ readNames) (v : String) :
    (r.elem e).set k v = r.elem (e.set k v) := by
  rw [← set_elem, r.val_read h]
theorem del_elem (e : Elem) (k : QName) : (r.elem e).del k = r.elem (e.del k) := by
  simp [Elem.del, elem, del_attrs]

/-! ## Trees -/

theorem nodes_eq : ∀ ks : List Node, r.nodes ks = ks.map r.node
  | [] => rfl
  | k :: ks => by simp [nodes, nodes_eq ks]

theorem nss_append (a b : NsMap) : r.nss (a ++ b) = r.nss a ++ r.nss b := by simp [nss]

mutual
theorem walk_node (pos : Pos) (env : NsMap) (anc : List QName) : ∀ n : Node,
    (r.node n).walk pos (r.nss env) anc = (n.walk pos env anc).map r.ctx
  | .other _ _ => rfl
  | .elem e ks => by
    simp only [node, Node.walk, List.map_cons]
    have := walks_node pos 0 (e.decls ++ env) (e.tag :: anc) ks
    rw [nss_append] at this
    simp [ctx, nss_append, elem, this]
theorem walks_node (pos : Pos) (i : Nat) (env : NsMap) (anc : List QName) : ∀ ks : List Node,
    Node.walks pos i (r.nss env) anc (r.nodes ks) = (Node.walks pos i env anc ks).map r.ctx
  | [] => rfl
  | k :: ks => by
    simp only [nodes, Node.walks, List.map_append]
    rw [walk_node (i :: pos) env anc k, walks_node pos (i + 1) env anc ks]
end

theorem elems_node (t : Node) : (r.node t).elems = t.elems.map r.ctx := r.walk_node [] [] [] t
theorem descs_node (t : Node) : (r.node t).descs = t.descs.map r.ctx := by
  simp [Node.descs, elems_node]

theorem hasTag_node (q : QName) : ∀ n : Node, (r.node n).hasTag q = n.hasTag q
  | .elem _ _ => rfl
  | .other _ _ => rfl

theorem holds_ctx (m : List (String × String)) (p : XPred) (c : Ctx) : p.holds m (r.ctx c) = p.holds m c := by
  cases p with
  | none => rfl
  | hasAttr a => exact r.has_elem c.e _
  | hasChild x => simp [XPred.holds, ctx, nodes_eq, List.any_map, Function.comp_def, hasTag_node]

theorem selects_ctx (m : List (String × String)) (a : XAlt) (c : Ctx) : a.selects m (r.ctx c) = a.selects m c := by
  have := r.holds_ctx m a.pred c
  simp only [XAlt.selects, this]; rfl

theorem xpath_node (t : Node) (m : List (String × String)) (alts : List XAlt) :
    (r.node t).xpath m alts = (t.xpath m alts).map r.ctx := by
  simp [Node.xpath, elems_node, List.filter_map, Function.comp_def, selects_ctx]

theorem ctxAt_node (t : Node) (p : Pos) : (r.node t).ctxAt p = (t.ctxAt p).map r.ctx := by
  simp only [Node.ctxAt, elems_node, List.find?_map]
  rfl

mutual
theorem mapPos_node {f f' : Pos → Elem → Elem} (h : ∀ p e, f' p (r.elem e) = r.elem (f p e)) (pos : Pos) :
    ∀ n : Node, (r.node n).mapPos f' pos = r.node (n.mapPos f pos)
  | .other _ _ => rfl
  | .elem e ks => by
    simp only [node, Node.mapPos, h]
    rw [mapPoss_node h pos 0 ks]
theorem mapPoss_node {f f' : Pos → Elem → Elem} (h : ∀ p e, f' p (r.elem e) = r.elem (f p e)) (pos : Pos) (i : Nat) :
    ∀ ks : List Node, Node.mapPoss f' pos i (r.nodes ks) = r.nodes (Node.mapPoss f pos i ks)
  | [] => rfl
  | k :: ks => by
    simp only [nodes, Node.mapPoss]
    rw [mapPos_node h (i :: pos) k, mapPoss_node h pos (i + 1) ks]
end

theorem modifyAt_node {g g' : Elem → Elem} (h : ∀ e, g' (r.elem e) = r.elem (g e)) (t : Node) (p : Pos) :
    (r.node t).modifyAt p g' = r.node (t.modifyAt p g) :=
  r.mapPos_node (fun q e => by by_cases hq : q = p <;> simp [hq, h]) [] t

theorem modifyAll_node {g g' : Elem → Elem} (h : ∀ e, g' (r.elem e) = r.elem (g e)) : ∀ (ps : List Pos) (t : Node),
    (r.node t).modifyAll ps g' = r.node (t.modifyAll ps g)
  | [], t => rfl
  | p :: ps, t => by
    simp only [Node.modifyAll, List.foldl_cons]
    rw [r.modifyAt_node h]
    exact modifyAll_node h ps _

mutual
theorem subst_node {f f' : Pos → Option Node} (h : ∀ p, f' p = (f p).map r.node) (pos : Pos) :
    ∀ n : Node, (r.node n).subst f' pos = r.node (n.subst f pos)
  | .other _ _ => rfl
  | .elem e ks => by
    simp only [node, Node.subst, h]
    cases hf : f pos with
    | some n => simp
    | none => simp [node, substs_node h pos 0 ks]
theorem substs_node {f f' : Pos → Option Node} (h : ∀ p, f' p = (f p).map r.node) (pos : Pos) (i : Nat) :
    ∀ ks : List Node, Node.substs f' pos i (r.nodes ks) = r.nodes (Node.substs f pos i ks)
  | [] => rfl
  | k :: ks => by
    simp only [nodes, Node.substs]
    rw [subst_node h (i :: pos) k, substs_node h pos (i + 1) ks]
end

theorem posLookup_map (p : Pos) : ∀ l : List (Pos × Node),
    posLookup (l.map (fun x => (x.1, r.node x.2))) p = (posLookup l p).map r.node
  | [] => rfl
  | (q, n) :: rest => by
    have ih := posLookup_map p rest
    simp only [List.map_cons, posLookup]
    by_cases h : q = p
    · simp [h]
    · simp [h, ih]

theorem replaceAll_node (t : Node) (l : List (Pos × Node)) :
    (r.node t).replaceAll (l.map (fun x => (x.1, r.node x.2))) = r.node (t.replaceAll l) :=
  r.subst_node (fun p => by by_cases h : p = [] <;> simp [h, posLookup_map]) [] t

mutual
theorem prune_node (s : Pos → Bool) (pos : Pos) : ∀ n : Node, (r.node n).prune s pos = r.node (n.prune s pos)
  | .other _ _ => rfl
  | .elem e ks => by
    simp only [node, Node.prune]
    rw [prunes_node s pos 0 ks]
theorem prunes_node (s : Pos → Bool) (pos : Pos) (i : Nat) : ∀ ks : List Node,
    Node.prunes s pos i (r.nodes ks) = r.nodes (Node.prunes s pos i ks)
  | [] => rfl
  | .other c t :: ks => by
    simp only [nodes, node, Node.prunes]
    rw [prunes_node s pos (i + 1) ks]
  | .elem e es :: ks => by
    have h1 := prune_node s (i :: pos) (.elem e es)
    have h2 := prunes_node s pos (i + 1) ks
    simp only [nodes, node, Node.prunes] at h1 ⊢
    by_cases h : s (i :: pos) = true
    · simp [h, h2]
    · simp [h, h1, h2, nodes]
end

theorem removeAll_node (t : Node) (ps : List Pos) : (r.node t).removeAll ps = r.node (t.removeAll ps) :=
  r.prune_node _ _ t

theorem map_pos (cs : List Ctx) : (cs.map r.ctx).map (·.pos) = cs.map (·.pos) := by
  simp [Function.comp_def, ctx]

theorem childCtxs_ctx (c : Ctx) : ∀ (i : Nat) (ks : List Node),
    childCtxs (r.ctx c) i (r.nodes ks) = (childCtxs c i ks).map r.ctx
  | _, [] => rfl
  | i, .other _ _ :: ks => by simp only [nodes, node, childCtxs]; exact childCtxs_ctx c (i + 1) ks
  | i, .elem e es :: ks => by
    simp only [nodes, node, childCtxs, List.map_cons]
    rw [childCtxs_ctx c (i + 1) ks]
    simp [ctx, elem, nss_append]

/-! ## Outcomes -/

theorem filterE_map {p p' : Ctx → Except Err Bool} : ∀ l : List Ctx,
    (∀ c ∈ l, p' (r.ctx c) = r.out (fun b => b) (p c)) →
    filterE p' (l.map r.ctx) = r.out (fun l => l.map r.ctx) (filterE p l)
  | [], _ => rfl
  | c :: l, h => by
    have ih := filterE_map l (fun c hc => h c (List.mem_cons_of_mem _ hc))
    simp only [List.map_cons, filterE, h c List.mem_cons_self, ih]
    cases p c with
    | error x => rfl
    | ok b =>
      cases filterE p l with
      | error x => cases b <;> rfl
      | ok l' => cases b <;> rfl

theorem mapE_map {α β γ δ : Type} {f : α → Except Err β} {f' : γ → Except Err δ} (φ : α → γ) (ψ : β → δ) :
    ∀ l : List α, (∀ a ∈ l, f' (φ a) = r.out ψ (f a)) →
    mapE f' (l.map φ) = r.out (fun l => l.map ψ) (mapE f l)
  | [], _ => rfl
  | a :: l, h => by
    have ih := mapE_map φ ψ l (fun c hc => h c (List.mem_cons_of_mem _ hc))
    simp only [List.map_cons, mapE, h a List.mem_cons_self, ih]
    cases f a with
    | error x => rfl
    | ok b => cases mapE f l <;> rfl

theorem foldE_map {α γ σ τ : Type} {f : σ → α → Except Err σ} {f' : τ → γ → Except Err τ} (φ : α → γ) (ψ : σ → τ) :
    ∀ (l : List α) (s : σ), (∀ s, ∀ a ∈ l, f' (ψ s) (φ a) = r.out ψ (f s a)) →
    foldE f' (ψ s) (l.map φ) = r.out ψ (foldE f s l)
  | [], _, _ => rfl
  | a :: l, s, h => by
    simp only [List.map_cons, foldE, h s a List.mem_cons_self]
    cases f s a with
    | error x => rfl
    | ok s' => exact foldE_map φ ψ l s' (fun s a ha => h s a (List.mem_cons_of_mem _ ha))

theorem foldE_same {α σ τ : Type} {f : σ → α → Except Err σ} {f' : τ → α → Except Err τ} (ψ : σ → τ) (l : List α)
    (s : σ) (h : ∀ s, ∀ a ∈ l, f' (ψ s) a = r.out ψ (f s a)) : foldE f' (ψ s) l = r.out ψ (foldE f s l) := by
  have := r.foldE_map (f := f) (f' := f') (fun a => a) ψ l s h
  simpa using this

/-! ## `xsi:type` -/

theorem span_split : ∀ cs : List Char, splitP (fun c => c == ':') cs =
    cs.takeWhile (fun c => c != ':') ::
      (match cs.dropWhile (fun c => c != ':') with
       | [] => []
       | _ :: rest => splitP (fun c => c == ':') rest)
  | [] => rfl
  | c :: cs => by
    have ih := span_split cs
    by_cases h : c = ':'
    · subst h; simp [splitP]
    · simp [splitP, h, ih]

theorem takeWhile_free : ∀ cs : List Char, ':' ∉ cs.takeWhile (fun c => c != ':')
  | [] => by simp
  | c :: cs => by
    have ih := takeWhile_free cs
    by_cases h : c = ':'
    · simp [h]
    · simp [h, ih]; exact fun e => h e.symm

theorem dropWhile_head : ∀ (cs : List Char) (c : Char) (rest : List Char),
    cs.dropWhile (fun c => c != ':') = c :: rest → c = ':'
  | [], _, _, h => by simp at h
  | a :: cs, c, rest, h => by
    by_cases ha : a = ':'
    · subst ha; simp at h; exact h.1.symm
    · simp [ha] at h; exact dropWhile_head cs c rest h

theorem span_word {w rest : List Char} (hw : ':' ∉ w) (hr : ∀ c l, rest = c :: l → c = ':') :
    (w ++ rest).takeWhile (fun c => c != ':') = w ∧ (w ++ rest).dropWhile (fun c => c != ':') = rest := by
  induction w with
  | nil =>
    cases rest with
    | nil => simp
    | cons c l => have := hr c l rfl; subst this; simp
  | cons a w ih =>
    simp at hw
    have ha : a ≠ ':' := fun h => hw.1 h.symm
    have := ih hw.2
    simp [ha, this.1, this.2]

theorem type_toList (hr : r.Legible) (v : String) :
    (r.type v).toList.takeWhile (fun c => c != ':') =
      (r.pre (String.ofList (v.toList.takeWhile (fun c => c != ':')))).toList ∧
    (r.type v).toList.dropWhile (fun c => c != ':') = v.toList.dropWhile (fun c => c != ':') := by
  have h := span_word (w := (r.pre (String.ofList (v.toList.takeWhile (fun c => c != ':')))).toList)
    (rest := v.toList.dropWhile (fun c => c != ':'))
    (hr.pre_colon _ (by simpa using takeWhile_free v.toList)) (fun c l h => dropWhile_head _ _ _ h)
  simpa [type] using h

/-- Splitting a relabelled value: the first part is relabelled. -/
theorem split_type (hr : r.Legible) (v : String) :
    ∃ p rest, pySplit ':' v = p :: rest ∧ pySplit ':' (r.type v) = r.pre p :: rest := by
  have h := r.type_toList hr v
  refine ⟨String.ofList (v.toList.takeWhile (fun c => c != ':')),
    ((match v.toList.dropWhile (fun c => c != ':') with
       | [] => []
       | _ :: rest => splitP (fun c => c == ':') rest) : List (List Char)).map String.ofList, ?_, ?_⟩
  · simp only [pySplit, span_split v.toList, List.map_cons]
  · simp only [pySplit, span_split (r.type v).toList, List.map_cons, h.1, h.2]
    simp

theorem get?_nss (hr : r.Legible) (p : String) : ∀ m : NsMap,
    NsMap.get? (r.nss m) (some (r.pre p)) = NsMap.get? m (some p)
  | [] => rfl
  | (none, u) :: rest => by
    have ih := get?_nss hr p rest
    simpa [nss, NsMap.get?] using ih
  | (some q, u) :: rest => by
    have ih := get?_nss hr p rest
    simp only [nss, List.map_cons, NsMap.get?, Option.map_some, Option.some.injEq] at ih ⊢
    by_cases h : q = p
    · simp [h]
    · have : r.pre q ≠ r.pre p := fun he => h (hr.pre_inj _ _ he)
      simp [h, this, ih]

theorem getTypeInfo_elem (hr : r.Legible) (e : Elem) :
    getTypeInfo (r.elem e) = r.out (fun x => (r.pre x.1, x.2)) (getTypeInfo e) := by
  simp only [getTypeInfo, get?_elem]
  cases e.get? tagXsiType with
  | none => rfl
  | some v =>
    simp only [Option.map_some, val_type]
    obtain ⟨p, rest, h1, h2⟩ := r.split_type hr v
    rw [h1, h2]
    match rest with
    | [] => rfl
    | [_] => rfl
    | _ :: _ :: _ => rfl

theorem getExtNamespace_ctx (hr : r.Legible) (c : Ctx) :
    getExtNamespace (r.ctx c) = r.out (fun x => x) (getExtNamespace c) := by
  simp only [getExtNamespace, ctx, get?_elem]
  cases c.e.get? tagXsiType with
  | none => rfl
  | some v =>
    simp only [Option.map_some, val_type]
    obtain ⟨p, rest, h1, h2⟩ := r.split_type hr v
    rw [h1, h2]
    simp only [List.headD_cons, r.get?_nss hr]
    cases NsMap.get? c.env (some p) <;> rfl

theorem typedNodes_node (t : Node) : getTypedNodes (r.node t) = (getTypedNodes t).map r.ctx := by
  simp only [getTypedNodes, descs_node, List.filter_map]
  congr 1
  apply List.filter_congr
  intro c _
  simp [ctx, has_elem]

theorem typeInfo_free {e : Elem} {a ty : String} (h : getTypeInfo e = .ok (a, ty)) : ':' ∉ a.toList := by
  simp only [getTypeInfo] at h
  cases hv : e.get? tagXsiType with
  | none => simp [hv] at h
  | some v =>
    simp only [hv, pySplit, span_split v.toList, List.map_cons] at h
    split at h
    · rename_i heq
      simp at heq h
      rw [← h.1, ← heq.1]
      simpa using takeWhile_free v.toList
    · simp at h

theorem type_append {a : String} (ha : ':' ∉ a.toList) (s : String) :
    r.type (a ++ ":" ++ s) = r.pre a ++ ":" ++ s := by
  have h := span_word (w := a.toList) (rest := ':' :: s.toList) ha (by intro c l h; simp at h; exact h.1.symm)
  have e : (a ++ ":" ++ s).toList = a.toList ++ ':' :: s.toList := by simp
  simp only [type, e, h.1, h.2]
  apply String.toList_inj.1
  simp

/-! ## Vocabularies -/

theorem wanted_ctx (hr : r.Legible) (v : Vocab) (c : Ctx) :
    v.wanted (r.ctx c) = r.out (fun b => b) (v.wanted c) := by
  simp only [Vocab.wanted, r.getExtNamespace_ctx hr]
  have h : getTypeInfo (r.ctx c).e = _ := r.getTypeInfo_elem hr c.e
  rw [h]
  cases getTypeInfo c.e with
  | error x => rfl
  | ok p =>
    cases getExtNamespace c with
    | error x => rfl
    | ok n =>
      simp only [out]
      by_cases h1 : n = v.ns
      · by_cases h2 : p.2 ∈ v.oldTypes <;> simp [h1, h2]
      · simp [h1]

theorem updateNode_elem (hr : r.Legible) (v : Vocab) (e : Elem) :
    v.updateNode (r.elem e) = r.out r.elem (v.updateNode e) := by
  simp only [Vocab.updateNode, r.getTypeInfo_elem hr]
  cases ht : getTypeInfo e with
  | error x => rfl
  | ok p =>
    obtain ⟨a, ty⟩ := p
    simp only [out]
    have h1 : (r.elem e).set tagXsiType (r.pre a ++ ":" ++ v.newType) =
        r.elem (e.set tagXsiType (a ++ ":" ++ v.newType)) := by
      rw [← set_elem, val_type, r.type_append (typeInfo_free ht)]
    rw [h1]
    generalize e.set tagXsiType (a ++ ":" ++ v.newType) = e1
    simp only [has_elem]
    have hn : ∀ e2 : Elem, (match ((if (r.elem e2).has attrVocabName = true then
          (r.elem e2).set attrVocabName v.name else r.elem e2)).text with
        | some value => match assoc v.terms value with
          | some new => Except.ok (ε := Err) { (if (r.elem e2).has attrVocabName = true then
              (r.elem e2).set attrVocabName v.name else r.elem e2) with text := some new }
          | none => Except.ok (if (r.elem e2).has attrVocabName = true then
              (r.elem e2).set attrVocabName v.name else r.elem e2)
        | none => Except.ok (if (r.elem e2).has attrVocabName = true then
            (r.elem e2).set attrVocabName v.name else r.elem e2)) =
        r.out r.elem (match ((if e2.has attrVocabName = true then e2.set attrVocabName v.name else e2)).text with
        | some value => match assoc v.terms value with
          | some new => Except.ok { (if e2.has attrVocabName = true then
              e2.set attrVocabName v.name else e2) with text := some new }
          | none => Except.ok (if e2.has attrVocabName = true then e2.set attrVocabName v.name else e2)
        | none => Except.ok (if e2.has attrVocabName = true then e2.set attrVocabName v.name else e2)) := by
      intro e2
      have h3 : (if (r.elem e2).has attrVocabName = true then (r.elem e2).set attrVocabName v.name else r.elem e2) =
          r.elem (if e2.has attrVocabName = true then e2.set attrVocabName v.name else e2) := by
        rw [has_elem, r.set_read e2 (by decide)]
        split <;> rfl
      rw [h3]
      generalize (if e2.has attrVocabName = true then e2.set attrVocabName v.name else e2) = e3
      have ht : (r.elem e3).text = e3.text := rfl
      rw [ht]
      cases e3.text with
      | none => rfl
      | some value => dsimp only; cases assoc v.terms value <;> rfl
    by_cases hh : e1.has attrVocabReference = true
    · simp only [hh, if_true]
      cases v.reference with
      | none => rfl
      | some ref =>
        simp only [r.set_read e1 (show attrVocabReference ∈ readNames by decide)]
        exact hn _
    · simp only [hh]
      exact hn _

theorem vocab_update_node (hr : r.Legible) (v : Vocab) (t : Node) :
    v.update (r.node t) = r.out r.node (v.update t) := by
  simp only [Vocab.update, Vocab.find, typedNodes_node]
  rw [r.filterE_map (p := v.wanted) _ (fun c _ => r.wanted_ctx hr v c)]
  cases filterE v.wanted (getTypedNodes t) with
  | error x => rfl
  | ok found =>
    refine r.foldE_map r.ctx r.node found t ?_
    intro s c _
    have h : v.updateNode (r.ctx c).e = _ := r.updateNode_elem hr v c.e
    simp only [h]
    cases v.updateNode c.e with
    | error x => rfl
    | ok e' =>
      simp only [out]
      rw [r.modifyAt_node (g := fun _ => e') (fun _ => rfl)]
      rfl

theorem updateVocabs_node (hr : r.Legible) (vs : List Vocab) (t : Node) :
    updateVocabs vs (r.node t) = r.out r.node (updateVocabs vs t) :=
  r.foldE_same r.node vs t (fun s v _ => r.vocab_update_node hr v s)

/-! ## Schema locations, namespaces, versions, lists -/

theorem updateSchemalocs_node (u : Cls) : ∀ t : Node, u.updateSchemalocs (r.node t) = r.node (u.updateSchemalocs t)
  | .other _ _ => rfl
  | .elem e ks => by
    simp only [node, Cls.updateSchemalocs, Cls.updateSchemalocsElem]
    rw [r.get?_read e (show tagSchemaLoc ∈ readNames by decide)]
    cases e.get? tagSchemaLoc with
    | none => rfl
    | some v => simp only [r.set_read e (show tagSchemaLoc ∈ readNames by decide)]

theorem pre_ne (hr : r.Legible) (a b : Option String) : (a.map r.pre ≠ b.map r.pre) ↔ (a ≠ b) := by
  cases a <;> cases b <;> simp
  rename_i a b
  constructor
  · intro h e; exact h (by rw [e])
  · intro h e; exact h (hr.pre_inj _ _ e)

theorem dedup_nss (hr : r.Legible) : ∀ m : NsMap, NsMap.dedup (r.nss m) = r.nss (NsMap.dedup m)
  | [] => rfl
  | (p, u) :: rest => by
    have ih := dedup_nss hr rest
    simp only [nss, List.map_cons, NsMap.dedup] at ih ⊢
    rw [ih, List.filter_map]
    congr 2
    apply List.filter_congr
    intro q _
    simp only [Function.comp_apply, decide_eq_decide]
    exact r.pre_ne hr q.1 p

theorem remapNamespaces_nss (hr : r.Legible) (u : Cls) (env : NsMap) :
    u.remapNamespaces (r.nss env) = r.nss (u.remapNamespaces env) := by
  simp only [Cls.remapNamespaces, r.dedup_nss hr]
  simp only [nss, List.filter_map, List.map_map]
  rfl

mutual
theorem updateNamespaces_node (hr : r.Legible) (u : Cls) (env : NsMap) : ∀ t : Node,
    u.updateNamespaces (r.nss env) (r.node t) = r.node (u.updateNamespaces env t)
  | .other _ _ => rfl
  | .elem e ks => by
    have h := updateNamespacess_node hr u (e.decls ++ env) ks
    rw [nss_append] at h
    simp only [node, Cls.updateNamespaces]
    have h0 : (r.elem e).decls = r.nss e.decls := rfl
    have h1 : (r.elem e).tag = e.tag := rfl
    rw [h0, h1, h]
    by_cases hu : u.nsUpdated e.tag = true
    · simp only [hu, if_true, node]
      congr 1
      simp only [Cls.updateNsmapElem, elem, ← nss_append, r.remapNamespaces_nss hr, getNodeText, nodes_eq,
        List.length_map]
    · simp [hu, node]
theorem updateNamespacess_node (hr : r.Legible) (u : Cls) (env : NsMap) : ∀ ks : List Node,
    u.updateNamespacess (r.nss env) (r.nodes ks) = r.nodes (u.updateNamespacess env ks)
  | [] => rfl
  | k :: ks => by
    simp only [nodes, Cls.updateNamespacess]
    rw [updateNamespaces_node hr u env k, updateNamespacess_node hr u env ks]
end

theorem updateNamespaces_root (hr : r.Legible) (u : Cls) (t : Node) :
    u.updateNamespaces [] (r.node t) = r.node (u.updateNamespaces [] t) := r.updateNamespaces_node hr u [] t

theorem versionedNodes_node (u : Cls) (t : Node) : u.versionedNodes (r.node t) = (u.versionedNodes t).map r.ctx :=
  r.xpath_node t _ _

theorem rootNodes_node (u : Cls) (t : Node) : u.rootNodes (r.node t) = (u.rootNodes t).map r.ctx :=
  r.xpath_node t _ _

theorem setVersions_node (u : Cls) {g : Elem → Elem} (h : ∀ e, g (r.elem e) = r.elem (g e)) (t : Node) :
    (r.node t).modifyAll ((u.versionedNodes (r.node t)).map (·.pos)) g =
      r.node (t.modifyAll ((u.versionedNodes t).map (·.pos)) g) := by
  rw [versionedNodes_node, map_pos]
  exact r.modifyAll_node h _ t

theorem setVersion201_elem (e : Elem) : setVersion201 (r.elem e) = r.elem (setVersion201 e) := by
  simp only [setVersion201, r.set_read _ (show attrMajor ∈ readNames by decide),
    r.set_read _ (show attrMinor ∈ readNames by decide), r.set_read _ (show attrUpdate ∈ readNames by decide)]

theorem setVersion21_elem (e : Elem) : setVersion21 (r.elem e) = r.elem (setVersion21 e) := by
  simp only [setVersion21, r.set_read _ (show attrMajor ∈ readNames by decide),
    r.set_read _ (show attrMinor ∈ readNames by decide), del_elem]

theorem setStixVersion_elem (a b : String) (e : Elem) : setStixVersion a b (r.elem e) = r.elem (setStixVersion a b e) := by
  simp only [setStixVersion, r.set_read _ (show attrVersion ∈ readNames by decide)]
  rfl

theorem stixUpdateVersions_node (u : Cls) (a b : String) (t : Node) :
    stixUpdateVersions u a b (r.node t) = r.node (stixUpdateVersions u a b t) :=
  r.setVersions_node u (r.setStixVersion_elem a b) t

theorem setRootVersion_node (v : String) : ∀ t : Node, setRootVersion v (r.node t) = r.node (setRootVersion v t)
  | .other _ _ => rfl
  | .elem e ks => by
    simp only [node, setRootVersion, r.set_read e (show attrVersion ∈ readNames by decide)]

theorem updateListElem_elem (e : Elem) : updateListElem (r.elem e) = r.elem (updateListElem e) := by
  simp only [updateListElem]
  have h : (r.elem e).text = e.text := rfl
  rw [h]
  cases e.text with
  | none => rfl
  | some s => by_cases hs : s = "" <;> simp [hs] <;> rfl

theorem descPositions_ctx (c : Ctx) : descPositions (r.ctx c) = descPositions c := by
  have h := r.walks_node c.pos 0 [] [] c.kids
  simp only [descPositions, ctx]
  have e : Node.walks c.pos 0 [] [] (r.nodes c.kids) = (Node.walks c.pos 0 [] [] c.kids).map r.ctx := h
  rw [e, map_pos]

theorem foldl_lists : ∀ (cs : List Ctx) (t : Node),
    (cs.map r.ctx).foldl (fun t c => t.modifyAll (descPositions c) updateListElem) (r.node t) =
      r.node (cs.foldl (fun t c => t.modifyAll (descPositions c) updateListElem) t)
  | [], _ => rfl
  | c :: cs, t => by
    simp only [List.map_cons, List.foldl_cons, descPositions_ctx]
    rw [r.modifyAll_node r.updateListElem_elem]
    exact foldl_lists cs _

theorem updateLists_node (u : Cls) (t : Node) : updateLists u (r.node t) = r.node (updateLists u t) := by
  simp only [updateLists, xpath_node]
  exact r.foldl_lists _ t

/-! ## Version checks -/

theorem stixGetVersion_elem (e : Elem) : stixGetVersion (r.elem e) = stixGetVersion e :=
  r.get?_read e (by decide)

theorem cyboxGetVersion_elem (e : Elem) : cyboxGetVersion (r.elem e) = cyboxGetVersion e := by
  simp only [cyboxGetVersion, r.get?_read e (show attrMajor ∈ readNames by decide),
    r.get?_read e (show attrMinor ∈ readNames by decide), r.get?_read e (show attrUpdate ∈ readNames by decide)]

/-- An error that lists no node stays. -/
theorem cyboxGetVersion_out (e : Elem) : r.out (fun x => x) (cyboxGetVersion e) = cyboxGetVersion e := by
  simp only [cyboxGetVersion]
  split
  · rfl
  · split <;> rfl

theorem isVersionEqual_out (a b : String) : r.out (fun x => x) (isVersionEqual a b) = isVersionEqual a b := by
  simp only [isVersionEqual]
  split <;> rfl

theorem stixCheckVersion_node (u : Cls) (t : Node) :
    stixCheckVersion u (r.node t) = r.out (fun x => x) (stixCheckVersion u t) := by
  simp only [stixCheckVersion, rootNodes_node]
  cases u.rootNodes t with
  | nil => rfl
  | cons c cs =>
    simp only [List.map_cons]
    have h : stixGetVersion (r.ctx c).e = stixGetVersion c.e := r.stixGetVersion_elem c.e
    rw [h]
    cases stixGetVersion c.e with
    | none => rfl
    | some found =>
      dsimp only
      by_cases hf : found = ""
      · simp [hf, out, err]
      · simp only [hf, if_false]
        have := r.isVersionEqual_out found u.version
        revert this
        cases isVersionEqual (ctx := Ctx) found u.version with
        | error x => intro h; exact congrArg _ (Except.error.inj h).symm
        | ok b => intro _; cases b <;> rfl

theorem cyboxCheckRoots_ctx (v : String) : ∀ cs : List Ctx,
    cyboxCheckRoots v (cs.map r.ctx) = r.out (fun x => x) (cyboxCheckRoots v cs)
  | [] => rfl
  | c :: cs => by
    have ih := cyboxCheckRoots_ctx v cs
    simp only [List.map_cons, cyboxCheckRoots]
    have h : cyboxGetVersion (r.ctx c).e = cyboxGetVersion c.e := r.cyboxGetVersion_elem c.e
    rw [h]
    have := r.cyboxGetVersion_out c.e
    revert this
    cases cyboxGetVersion c.e with
    | error x => intro h; exact congrArg _ (Except.error.inj h).symm
    | ok found =>
      intro _
      dsimp only
      have := r.isVersionEqual_out v found
      revert this
      cases isVersionEqual (ctx := Ctx) v found with
      | error x => intro h; exact congrArg _ (Except.error.inj h).symm
      | ok b =>
        intro _
        cases b with
        | true => exact ih
        | false => rfl

theorem cyboxCheckVersion_node (u : Cls) (t : Node) :
    cyboxCheckVersion u (r.node t) = r.out (fun x => x) (cyboxCheckVersion u t) := by
  simp only [cyboxCheckVersion, rootNodes_node]
  exact r.cyboxCheckRoots_ctx u.version _

/-! ## Finders -/

mutual
theorem isEmptyElem_node : ∀ n : Node, (r.node n).isEmptyElem = n.isEmptyElem
  | .other _ _ => rfl
  | .elem e ks => by
    simp only [node, Node.isEmptyElem, areEmptyElems_nodes ks]
    simp [elem, attrs]
theorem areEmptyElems_nodes : ∀ ks : List Node, Node.areEmptyElems (r.nodes ks) = Node.areEmptyElems ks
  | [] => rfl
  | k :: ks => by simp only [nodes, Node.areEmptyElems, isEmptyElem_node k, areEmptyElems_nodes ks]
end

/-- A finder class whose `_interrogate` is blind to the relabelling. -/
def Blind (f : Finder) : Prop :=
  ∀ t cs, f.interrogate (r.node t) (cs.map r.ctx) = (f.interrogate t cs).map r.ctx

theorem filter_ctx {p : Ctx → Bool} (h : ∀ c, p (r.ctx c) = p c) (cs : List Ctx) :
    (cs.map r.ctx).filter p = (cs.filter p).map r.ctx := by
  simp [List.filter_map, Function.comp_def, h]

theorem keepEmpty_blind {f : Finder} (h : f.interrogate = keepEmpty) : r.Blind f := by
  intro t cs
  rw [h]
  exact r.filter_ctx (fun c => r.isEmptyElem_node c.node) cs

theorem keepAll_blind {f : Finder} (h : f.interrogate = keepAll) : r.Blind f := by
  intro t cs
  rw [h]; rfl

theorem isContext_ctx (hr : r.Legible) (f : Finder) (c : Ctx) :
    f.isContext (r.ctx c) = r.out (fun b => b) (f.isContext c) := by
  simp only [Finder.isContext, r.getExtNamespace_ctx hr]
  have h : getTypeInfo (r.ctx c).e = _ := r.getTypeInfo_elem hr c.e
  rw [h]
  cases getTypeInfo c.e with
  | error x => rfl
  | ok p => cases getExtNamespace c <;> rfl

theorem contexts_node (hr : r.Legible) (f : Finder) (t : Node) :
    f.contexts (r.node t) = r.out (fun l => l.map r.ctx) (f.contexts t) := by
  simp only [Finder.contexts]
  by_cases h : f.ctxTypes.isEmpty = true
  · simp only [h, if_true, elems_node, ← List.map_take]; rfl
  · simp only [h, typedNodes_node]
    exact r.filterE_map _ (fun c _ => r.isContext_ctx hr f c)

theorem eval_ctx (t : Node) (m : List (String × String)) (x : XPath) (c : Ctx) :
    x.eval (r.node t) m (r.ctx c) = (x.eval t m c).map r.ctx := by
  cases x with
  | self => rfl
  | children => exact r.childCtxs_ctx c 0 c.kids
  | union alts => exact r.xpath_node t m alts

theorem find_node (hr : r.Legible) {f : Finder} (hf : r.Blind f) (t : Node) :
    f.find (r.node t) = r.out (fun l => l.map r.ctx) (f.find t) := by
  simp only [Finder.find, r.contexts_node hr]
  cases f.contexts t with
  | error x => rfl
  | ok cs =>
    simp only [out, List.flatMap_map, List.map_flatMap, eval_ctx]
    congr 2
    funext c
    exact hf t _

theorem findAll_node (hr : r.Legible) : ∀ (fs : List Finder), (∀ f ∈ fs, r.Blind f) → ∀ t : Node,
    findAll fs (r.node t) = r.out (fun l => l.map r.ctx) (findAll fs t)
  | [], _, _ => rfl
  | f :: fs, h, t => by
    simp only [findAll, r.find_node hr (h f List.mem_cons_self),
      findAll_node hr fs (fun g hg => h g (List.mem_cons_of_mem _ hg))]
    cases f.find t with
    | error x => rfl
    | ok a =>
      cases findAll fs t with
      | error x => rfl
      | ok b => simp [out]

theorem removeOptionals_node (hr : r.Legible) (fs : List Finder) (h : ∀ f ∈ fs, r.Blind f) (t : Node) :
    removeOptionals fs (r.node t) = r.out r.node (removeOptionals fs t) := by
  refine r.foldE_same r.node fs t ?_
  intro s f hf
  rw [r.find_node hr (h f hf)]
  cases f.find s with
  | error x => rfl
  | ok l => simp only [out]; rw [map_pos, removeAll_node]

/-! ## Translations -/

/-- A translation whose own function, if it has one, commutes with the relabelling, and that overrides only
attributes the relabelling leaves alone. -/
def Commutes (f : Trans) : Prop :=
  match f.kind with
  | .value _ _ _ ov => ∀ p ∈ ov, p.1 ∈ readNames
  | .renamed _ => True
  | .custom g => ∀ c, g (r.ctx c) = r.out r.node (g c)
  | .parent g => ∀ c, g (r.ctx c) = r.out r.node (g c)

theorem valueNode_ctx (m : List (String × String)) (p : Option XName) (c : Ctx) :
    valueNode m p (r.ctx c) = r.out r.elem (valueNode m p c) := by
  cases p with
  | none => rfl
  | some x =>
    have h : childCtxs (r.ctx c) 0 (r.ctx c).kids = _ := r.childCtxs_ctx c 0 c.kids
    simp only [valueNode, h, List.find?_map]
    have : ((fun k : Ctx => decide (k.e.tag = x.resolve m)) ∘ r.ctx) = fun k => decide (k.e.tag = x.resolve m) := rfl
    rw [this]
    cases (childCtxs c 0 c.kids).find? (fun k => decide (k.e.tag = x.resolve m)) <;> rfl

theorem overrideAttrs_elem (src : Elem) : ∀ (ov : List (QName × String)), (∀ p ∈ ov, p.1 ∈ readNames) → ∀ as : Attrs,
    overrideAttrs (r.elem src) ov (r.attrs as) = r.attrs (overrideAttrs src ov as)
  | [], _, _ => rfl
  | (n, v) :: rest, h, as => by
    simp only [overrideAttrs, has_elem]
    have hs : Attrs.set (r.attrs as) n v = r.attrs (Attrs.set as n v) := by
      rw [← set_attrs, r.val_read (h (n, v) List.mem_cons_self)]
    have ih := overrideAttrs_elem src rest (fun p hp => h p (List.mem_cons_of_mem _ hp))
    by_cases hh : src.has n = true
    · simp only [hh, if_true, hs, ih]
    · simp only [Bool.not_eq_true] at hh; simp [hh, ih]

theorem translateValue_ctx (m : List (String × String)) (p : Option XName) (nt : Option QName) (ca : Bool)
    (ov : List (QName × String)) (h : ∀ p ∈ ov, p.1 ∈ readNames) (c : Ctx) :
    translateValue m p nt ca ov (r.ctx c) = r.out r.node (translateValue m p nt ca ov c) := by
  simp only [translateValue, valueNode_ctx]
  cases valueNode m p c with
  | error x => rfl
  | ok src =>
    simp only [out]
    have hb : (if ca = true then Attrs.updateAll [] (r.elem src).attrs else []) =
        r.attrs (if ca = true then Attrs.updateAll [] src.attrs else []) := by
      have := r.updateAll_attrs src.attrs []
      cases ca
      · rfl
      · exact this
    rw [hb, r.overrideAttrs_elem src ov h]
    rfl

theorem mapE_pos {g g' : Ctx → Except Err Node} (pick : Pos → Pos) (h : ∀ c, g' (r.ctx c) = r.out r.node (g c))
    (cs : List Ctx) :
    mapE (fun c => (g' c).map (fun n => (pick c.pos, n))) (cs.map r.ctx) =
      r.out (fun l => l.map (fun x => (x.1, r.node x.2))) (mapE (fun c => (g c).map (fun n => (pick c.pos, n))) cs) := by
  refine r.mapE_map r.ctx _ cs ?_
  intro c _
  rw [h]
  cases g c <;> rfl

theorem translate_node {f : Trans} (hf : r.Commutes f) (t : Node) :
    f.translate (r.node t) = r.out r.node (f.translate t) := by
  obtain ⟨xp, m, kind⟩ := f
  simp only [Commutes] at hf
  simp only [Trans.translate, xpath_node]
  cases kind with
  | renamed tag =>
    dsimp only
    rw [map_pos, r.modifyAll_node (g := fun e => { e with tag := tag }) (fun _ => rfl)]
    rfl
  | value p nt ca ov =>
    dsimp only at hf ⊢
    rw [r.mapE_pos (fun p => p) (fun c => r.translateValue_ctx m p nt ca ov hf c)]
    cases mapE (fun c => (translateValue m p nt ca ov c).map (fun n => (c.pos, n))) (t.xpath m xp) with
    | error x => rfl
    | ok l => simp only [out, replaceAll_node]
  | custom g =>
    dsimp only at hf ⊢
    rw [r.mapE_pos (fun p => p) hf]
    cases mapE (fun c => (g c).map (fun n => (c.pos, n))) (t.xpath m xp) with
    | error x => rfl
    | ok l => simp only [out, replaceAll_node]
  | parent g =>
    dsimp only at hf ⊢
    rw [r.mapE_pos (fun p => p.tail) hf]
    cases mapE (fun c => (g c).map (fun n => (c.pos.tail, n))) (t.xpath m xp) with
    | error x => rfl
    | ok l => simp only [out, replaceAll_node]

theorem translateFields_node (fs : List Trans) (h : ∀ f ∈ fs, r.Commutes f) (t : Node) :
    translateFields fs (r.node t) = r.out r.node (translateFields fs t) :=
  r.foldE_same r.node fs t (fun s f hf => r.translate_node (h f hf) s)

/-! ## Shared ids -/

theorem id_iff (hr : r.Faithful) (a b : String) : r.id a = r.id b ↔ a = b :=
  ⟨hr.id_inj a b, fun h => by rw [h]⟩

theorem eraseDups_id (hr : r.Faithful) : ∀ (n : Nat) (l : List String), l.length ≤ n →
    (l.map r.id).eraseDups = l.eraseDups.map r.id
  | _, [], _ => rfl
  | 0, a :: l, h => by simp at h
  | n + 1, a :: l, h => by
    simp only [List.map_cons, List.eraseDups_cons, List.filter_map]
    have hf : ((fun b => !b == r.id a) ∘ r.id) = fun b => !b == a := by
      funext b
      by_cases hb : b = a
      · simp [hb]
      · have : ¬ r.id b = r.id a := fun e => hb (hr.id_inj _ _ e)
        simp only [beq_eq_false_iff_ne.2 hb, beq_eq_false_iff_ne.2 this, Function.comp_apply]
    rw [hf, eraseDups_id hr n _ (Nat.le_trans (List.length_filter_le _ _) (by simpa using h))]

theorem get?_id (e : Elem) : (r.elem e).get? attrId = (e.get? attrId).map r.id := r.get?_elem e attrId

theorem groupDups_ctx (hr : r.Faithful) (cs : List Ctx) : groupDups (cs.map r.ctx) = r.dups (groupDups cs) := by
  have h1 : (cs.map r.ctx).filterMap (fun c => c.e.get? attrId) =
      (cs.filterMap (fun c => c.e.get? attrId)).map r.id := by
    rw [List.filterMap_map, List.map_filterMap]
    congr 1
    funext c
    exact r.get?_id c.e
  have h2 : ∀ i, (cs.map r.ctx).filter (fun c => decide (c.e.get? attrId = some (r.id i))) =
      (cs.filter (fun c => decide (c.e.get? attrId = some i))).map r.ctx := by
    intro i
    rw [List.filter_map]
    congr 1
    apply List.filter_congr
    intro c _
    simp only [Function.comp_apply, decide_eq_decide]
    have : (r.ctx c).e.get? attrId = (c.e.get? attrId).map r.id := r.get?_id c.e
    rw [this]
    cases c.e.get? attrId with
    | none => simp
    | some v => simp [r.id_iff hr]
  simp only [groupDups, h1, r.eraseDups_id hr _ _ (Nat.le_refl _), dups]
  rw [List.map_map, List.filter_map, List.filter_map, List.map_map]
  simp only [Function.comp_def, h2, List.length_map]

theorem getDuplicates_node (hr : r.Faithful) (m : List (String × String)) (t : Node) :
    getDuplicates m (r.node t) = r.dups (getDuplicates m t) := by
  simp only [getDuplicates, descs_node]
  rw [r.filter_ctx]
  · exact r.groupDups_ctx hr _
  · intro c
    have : (r.ctx c).e.has attrId = c.e.has attrId := r.has_elem c.e attrId
    rw [this]
    rfl

/-- A table of shared ids lists only nodes with an id. -/
def HaveIds (d : Dups) : Prop := ∀ g ∈ d, ∀ c ∈ g.2, ∃ v, c.e.get? attrId = some v

theorem getDuplicates_ids (m : List (String × String)) (t : Node) : HaveIds (getDuplicates m t) := by
  intro g hg c hc
  simp only [getDuplicates, groupDups, List.mem_filter, List.mem_map] at hg
  obtain ⟨⟨i, _, rfl⟩, _⟩ := hg
  simp only [List.mem_filter, decide_eq_true_eq] at hc
  exact ⟨i, hc.2⟩

theorem dictSet_map (hr : r.Faithful) {α β : Type} (f : α → β) (k : String) (v : α) : ∀ m : List (String × α),
    dictSet (m.map (fun p => (r.id p.1, f p.2))) (r.id k) (f v) = (dictSet m k v).map (fun p => (r.id p.1, f p.2))
  | [] => rfl
  | (k', v') :: rest => by
    have ih := dictSet_map hr f k v rest
    simp only [List.map_cons, dictSet, r.id_iff hr]
    by_cases h : k' = k
    · simp [h]
    · simp [h, ih]

theorem dictUpdate_map (hr : r.Faithful) {α β : Type} (f : α → β) : ∀ b a : List (String × α),
    dictUpdate (a.map (fun p => (r.id p.1, f p.2))) (b.map (fun p => (r.id p.1, f p.2))) =
      (dictUpdate a b).map (fun p => (r.id p.1, f p.2))
  | [], _ => rfl
  | (k, v) :: b, a => by
    have ih := dictUpdate_map hr f b (dictSet a k v)
    simp only [dictUpdate, List.map_cons, List.foldl_cons] at ih ⊢
    rw [← ih, r.dictSet_map hr]

theorem dictSet_mem {β : Type} (k : String) (v : β) : ∀ (m : List (String × β)) (p : String × β),
    p ∈ dictSet m k v → p ∈ m ∨ p.2 = v
  | [], p, h => by simp only [dictSet, List.mem_singleton] at h; exact Or.inr (by rw [h])
  | (k', v') :: rest, p, h => by
    simp only [dictSet] at h
    split at h
    · rcases List.mem_cons.1 h with rfl | h
      · exact Or.inr rfl
      · exact Or.inl (List.mem_cons_of_mem _ h)
    · rcases List.mem_cons.1 h with rfl | h
      · exact Or.inl List.mem_cons_self
      · rcases dictSet_mem k v rest p h with h | h
        · exact Or.inl (List.mem_cons_of_mem _ h)
        · exact Or.inr h

theorem haveIds_update : ∀ (b a : Dups), HaveIds a → HaveIds b → HaveIds (dictUpdate a b)
  | [], _, ha, _ => ha
  | (k, v) :: b, a, ha, hb => by
    refine haveIds_update b (dictSet a k v) ?_ (fun g hg => hb g (List.mem_cons_of_mem _ hg))
    intro g hg c hc
    rcases dictSet_mem k v a g hg with h | h
    · exact ha g h c hc
    · exact hb (k, v) List.mem_cons_self c (h ▸ hc)

/-! ## Cleaning -/

theorem remapGroup_node {o o' : Options} (ho : r.Opts o o') : ∀ (cs : List Ctx),
    (∀ c ∈ cs, ∃ v, c.e.get? attrId = some v) → ∀ (k : Nat) (t : Node),
    remapGroup o'.newId (cs.map r.ctx) k (r.node t) =
      (r.node (remapGroup o.newId cs k t).1, (remapGroup o.newId cs k t).2.1,
        (remapGroup o.newId cs k t).2.2.map r.id)
  | [], _, _, _ => rfl
  | c :: cs, h, k, t => by
    obtain ⟨v, hv⟩ := h c List.mem_cons_self
    have hv' : (r.ctx c).e.get? attrId = some (r.id v) := by
      have : (r.ctx c).e.get? attrId = (c.e.get? attrId).map r.id := r.get?_id c.e
      rw [this, hv]; rfl
    have hset : ∀ e : Elem, (r.elem e).set attrId (r.id (o.newId k v)) = r.elem (e.set attrId (o.newId k v)) :=
      fun e => r.set_elem e attrId (o.newId k v)
    have hm : (r.node t).modifyAt (r.ctx c).pos (fun e => e.set attrId (r.id (o.newId k v))) =
        r.node (t.modifyAt c.pos (fun e => e.set attrId (o.newId k v))) :=
      r.modifyAt_node hset t c.pos
    have ih := remapGroup_node ho cs (fun d hd => h d (List.mem_cons_of_mem _ hd)) (k + 1)
      (t.modifyAt c.pos (fun e => e.set attrId (o.newId k v)))
    simp only [List.map_cons, remapGroup, hv, hv', Option.getD_some, ho.newId, hm, ih]

theorem cleanDuplicates_node {o o' : Options} (ho : r.Opts o o') : ∀ (d : Dups), HaveIds d → ∀ (k : Nat) (t : Node),
    cleanDuplicates o'.newId (r.dups d) k (r.node t) =
      (r.node (cleanDuplicates o.newId d k t).1, (cleanDuplicates o.newId d k t).2.1,
        (cleanDuplicates o.newId d k t).2.2.map (fun p => (r.id p.1, p.2.map r.id)))
  | [], _, _, _ => rfl
  | g :: gs, h, k, t => by
    have h1 := r.remapGroup_node ho g.2 (h g List.mem_cons_self) k t
    have ih := cleanDuplicates_node ho gs (fun x hx => h x (List.mem_cons_of_mem _ hx))
      (remapGroup o.newId g.2 k t).2.1 (remapGroup o.newId g.2 k t).1
    have hd : r.dups (g :: gs) = (r.id g.1, g.2.map r.ctx) :: r.dups gs := rfl
    rw [hd]
    simp only [cleanDuplicates, h1, ih, List.map_cons]

theorem removedCopies_node (t : Node) : ∀ (ps done : List Pos),
    removedCopies (r.node t) done ps = (removedCopies t done ps).map r.node
  | [], _ => rfl
  | p :: ps, done => by
    have ih := removedCopies_node t ps (p :: done)
    simp only [removedCopies, ctxAt_node]
    cases t.ctxAt p with
    | none => exact ih
    | some c =>
      simp only [Option.map_some, List.map_cons, ih]
      congr 1
      exact r.prune_node _ p c.node

/-! ## One step -/

/-- An updater blind to the relabelling. -/
structure BlindStep (o o' : Options) (u : Updater) : Prop where
  check : ∀ t, u.check o' (r.node t) = r.out (fun x => x) (u.check o t)
  disallowed : ∀ t, u.disallowed (r.node t) = r.out (fun d => d.map (fun l => l.map r.ctx)) (u.disallowed t)
  duplicates : ∀ t, u.duplicates (r.node t) = (u.duplicates t).map r.dups
  ids : ∀ t d, u.duplicates t = some d → HaveIds d
  update : ∀ t, u.update o' (r.node t) = r.out r.node (u.update o t)

/-- The result of a step with its count. -/
def counted (x : Result × Nat) : Result × Nat := (r.result x.1, x.2)

/-- The removals of `clean`. -/
def cutFor (dis : Option (List Ctx)) (t : Node) : Node × List Node :=
  match dis with
  | none => (t, [])
  | some cs => if cs.isEmpty then (t, []) else cleanDisallowed t (cs.map (·.pos))

/-- The new ids of `clean`. -/
def newIdsFor (gen : Nat → String → String) (d : Option Dups) (k : Nat) (t : Node) :
    Node × Nat × List (String × List String) :=
  match d with
  | none => (t, k, [])
  | some dups => cleanDuplicates gen dups k t

theorem clean_parts (u : Updater) (o : Options) (k : Nat) (t : Node) :
    clean u o k t = match u.disallowed t with
      | .error x => .error x
      | .ok dis =>
        let x := newIdsFor o.newId (u.duplicates t) k t
        let y := cutFor dis x.1
        .ok (⟨y.1, y.2, x.2.2⟩, x.2.1) := rfl

theorem cutFor_node (dis : Option (List Ctx)) (t : Node) :
    cutFor (dis.map (fun l => l.map r.ctx)) (r.node t) = (r.node (cutFor dis t).1, (cutFor dis t).2.map r.node) := by
  cases dis with
  | none => rfl
  | some cs =>
    simp only [cutFor, Option.map_some, List.isEmpty_map]
    by_cases hc : cs.isEmpty = true
    · simp only [hc, if_true]; rfl
    · simp only [Bool.not_eq_true] at hc
      simp only [hc, cleanDisallowed, map_pos, removeAll_node, removedCopies_node]
      rfl

theorem newIdsFor_node {o o' : Options} (ho : r.Opts o o') (d : Option Dups) (h : ∀ x, d = some x → HaveIds x)
    (k : Nat) (t : Node) :
    newIdsFor o'.newId (d.map r.dups) k (r.node t) =
      (r.node (newIdsFor o.newId d k t).1, (newIdsFor o.newId d k t).2.1,
        (newIdsFor o.newId d k t).2.2.map (fun p => (r.id p.1, p.2.map r.id))) := by
  cases d with
  | none => rfl
  | some x => exact r.cleanDuplicates_node ho x (h x rfl) k t

theorem clean_node {o o' : Options} (ho : r.Opts o o') {u : Updater} (hu : r.BlindStep o o' u) (k : Nat) (t : Node) :
    clean u o' k (r.node t) = r.out r.counted (clean u o k t) := by
  simp only [clean_parts, hu.disallowed, hu.duplicates]
  cases u.disallowed t with
  | error x => rfl
  | ok dis =>
    simp only [out, r.newIdsFor_node ho _ (hu.ids t), cutFor_node]
    rfl

theorem forceUpdate_node {o o' : Options} (ho : r.Opts o o') {u : Updater} (hu : r.BlindStep o o' u) (k : Nat)
    (t : Node) : forceUpdate u o' k (r.node t) = r.out r.counted (forceUpdate u o k t) := by
  simp only [forceUpdate, r.clean_node ho hu]
  cases clean u o k t with
  | error x => rfl
  | ok p =>
    obtain ⟨x, k'⟩ := p
    simp only [out, counted, result, hu.update]
    cases u.update o x.doc <;> rfl

theorem refusable_err (x : Err) : refusable (r.err x) = refusable x := by cases x <;> rfl

theorem stepUpdate_node {o o' : Options} (ho : r.Opts o o') {u : Updater} (hu : r.BlindStep o o' u) (force : Bool)
    (k : Nat) (t : Node) : stepUpdate u o' force k (r.node t) = r.out r.counted (stepUpdate u o force k t) := by
  have ht : tryUpdate u o' (r.node t) = r.out r.node (tryUpdate u o t) := by
    simp only [tryUpdate, hu.check]
    cases u.check o t with
    | error x => rfl
    | ok _ => exact hu.update t
  simp only [stepUpdate, ht]
  cases tryUpdate u o t with
  | ok d => rfl
  | error x =>
    simp only [out, refusable_err]
    by_cases h : (refusable x && force) = true
    · simp only [h, if_true]; exact r.forceUpdate_node ho hu k t
    · simp only [h]; rfl

/-! ## Chains -/

theorem chainLoop_node (hr : r.Faithful) {o o' : Options} (ho : r.Opts o o') {reg : List (String × Updater)}
    (hreg : ∀ v u, assoc reg v = some u → r.BlindStep o o' u) (force : Bool) : ∀ (vs : List String) (acc : Result)
    (k : Nat), chainLoop reg o' force vs (r.result acc) k = r.out r.counted (chainLoop reg o force vs acc k)
  | [], _, _ => rfl
  | v :: vs, acc, k => by
    simp only [chainLoop]
    cases hv : assoc reg v with
    | none => rfl
    | some u =>
      dsimp only
      have hs : stepUpdate u o' force k (r.result acc).doc = _ :=
        r.stepUpdate_node ho (hreg v u hv) force k acc.doc
      rw [hs]
      cases stepUpdate u o force k acc.doc with
      | error x => rfl
      | ok p =>
        obtain ⟨x, k'⟩ := p
        have ih := chainLoop_node hr ho hreg force vs
          ⟨x.doc, acc.removed ++ x.removed, dictUpdate acc.remapped x.remapped⟩ k'
        refine Eq.trans ?_ ih
        simp only [out, counted, result, List.map_append]
        rw [r.dictUpdate_map hr (fun l : List String => l.map r.id)]

theorem validateVersions_out (a b : Option String) (vs : List String) :
    r.out (fun x => x) (validateVersions a b vs : Except Err _) = validateVersions a b vs := by
  have h : ∀ v, (∃ x, (validateVersion v vs : Except Err String) = .ok x) ∨
      ((validateVersion v vs : Except Err String) = .error (.invalidVersion none none none)) ∨
      (validateVersion v vs : Except Err String) = .error .unknownVersion := by
    intro v
    simp only [validateVersion]
    repeat' split
    all_goals first | exact Or.inl ⟨_, rfl⟩ | exact Or.inr (Or.inl rfl) | exact Or.inr (Or.inr rfl)
  simp only [validateVersions]
  rcases h a with ⟨x, hx⟩ | hx | hx
  · rcases h b with ⟨y, hy⟩ | hy | hy
    · simp only [hx, hy, bind, Except.bind]
      repeat' split
      all_goals rfl
    · simp only [hx, hy, bind, Except.bind]; rfl
    · simp only [hx, hy, bind, Except.bind]; rfl
  · simp only [hx, bind, Except.bind]; rfl
  · simp only [hx, bind, Except.bind]; rfl

theorem runChain_node (hr : r.Faithful) {o o' : Options} (ho : r.Opts o o') (vs : List String)
    {reg : List (String × Updater)} (hreg : ∀ v u, assoc reg v = some u → r.BlindStep o o' u) (t : Node)
    (from_ to_ : Option String) (force : Bool) (k : Nat) :
    runChain vs reg (r.node t) from_ to_ o' force k = r.out r.counted (runChain vs reg t from_ to_ o force k) := by
  simp only [runChain]
  have := r.validateVersions_out from_ to_ vs
  revert this
  cases (validateVersions from_ to_ vs : Except Err (String × String)) with
  | error x => intro h; exact congrArg _ (Except.error.inj h).symm
  | ok p => intro _; exact r.chainLoop_node hr ho hreg force _ ⟨t, [], []⟩ k

theorem root?_node (t : Node) : (r.node t).root? = t.root?.map r.elem := by cases t <;> rfl

theorem stixRootVersion_node (t : Node) : stixRootVersion (r.node t) = stixRootVersion t := by
  simp only [stixRootVersion, root?_node]
  cases t.root? with
  | none => rfl
  | some e => exact r.stixGetVersion_elem e

theorem cyboxFrom_node (t : Node) (from_ : Option String) :
    cyboxFrom (r.node t) from_ = r.out (fun x => x) (cyboxFrom t from_) := by
  simp only [cyboxFrom, cyboxRootVersion, root?_node]
  by_cases h : falsy from_ = true
  · simp only [h, if_true]
    cases t.root? with
    | none => rfl
    | some e =>
      simp only [Option.map_some, cyboxGetVersion_elem]
      have := r.cyboxGetVersion_out e
      revert this
      cases cyboxGetVersion e with
      | error x => intro h; exact congrArg _ (Except.error.inj h).symm
      | ok v => intro _; rfl
  · simp only [h]; rfl

/-! ## The updater classes -/

theorem vocabs_opts {o o' : Options} (ho : r.Opts o o') (hr : r.Legible) (vs : List Vocab) (t : Node) :
    (if o'.updateVocabularies then updateVocabs vs (r.node t) else .ok (r.node t)) =
      r.out r.node (if o.updateVocabularies then updateVocabs vs t else .ok t) := by
  rw [ho.vocabs]
  by_cases h : o.updateVocabularies = true
  · simp only [h, if_true]; exact r.updateVocabs_node hr vs t
  · simp only [h]; rfl

theorem optionals_opts {o o' : Options} (ho : r.Opts o o') (hr : r.Legible) (fs : List Finder)
    (hf : ∀ f ∈ fs, r.Blind f) (t : Node) :
    (if o'.removeOptionals then removeOptionals fs (r.node t) else .ok (r.node t)) =
      r.out r.node (if o.removeOptionals then removeOptionals fs t else .ok t) := by
  rw [ho.optionals]
  by_cases h : o.removeOptionals = true
  · simp only [h, if_true]; exact r.removeOptionals_node hr fs hf t
  · simp only [h]; rfl

theorem versions_opts {o o' : Options} (ho : r.Opts o o') {c c' : Except Err Unit} (h : c' = r.out (fun x => x) c) :
    (if o'.checkVersions then c' else .ok ()) = r.out (fun x => x) (if o.checkVersions then c else .ok ()) := by
  rw [ho.check, h]
  by_cases h : o.checkVersions = true
  · simp only [h, if_true]
  · simp only [h]; rfl

theorem kids_length (ks : List Node) : (r.nodes ks).length = ks.length := by simp [nodes_eq]

theorem cybox201Disallowed_blind : ∀ f ∈ cybox201Disallowed, r.Blind f := by
  intro f hf
  simp only [cybox201Disallowed, List.mem_cons, List.not_mem_nil, or_false] at hf
  rcases hf with rfl | rfl | rfl | rfl
  all_goals first
    | exact r.keepAll_blind rfl
    | (intro t cs
       exact r.filter_ctx (p := fun c => decide (c.kids.length > 1)) (fun c => by simp only [ctx, kids_length]) cs)

theorem cybox201Optionals_blind : ∀ f ∈ cybox201Optionals, r.Blind f := by
  intro f hf
  simp only [cybox201Optionals, List.mem_cons, List.not_mem_nil, or_false] at hf
  apply r.keepEmpty_blind
  repeat (rcases hf with rfl | hf; · rfl)

theorem copyRetag_node (tag : QName) (e : Elem) (ks : List Node) :
    copyRetag tag (r.elem e) (r.nodes ks) = r.node (copyRetag tag e ks) := rfl

theorem cybox201Translatable_commutes : ∀ f ∈ cybox201Translatable, r.Commutes f := by
  intro f hf
  simp only [cybox201Translatable, List.mem_cons, List.not_mem_nil, or_false] at hf
  rcases hf with rfl | rfl | rfl | rfl | rfl | rfl | rfl | rfl
  · simp [Commutes, transDNT]
  · simp [Commutes, transVary]
  · simp only [Commutes, transRefresh]; decide
  · trivial
  · trivial
  · trivial
  · trivial
  · intro c; rfl

theorem cybox20Update_node (hr : r.Legible) {o o' : Options} (ho : r.Opts o o') (m : List (String × String))
    (sel : List XAlt) (t : Node) : cybox20Update (cybox20Cls m sel) o' (r.node t) =
      r.out r.node (cybox20Update (cybox20Cls m sel) o t) := by
  simp only [cybox20Update, updateSchemalocs_node, cybox20UpdateVersions, r.setVersions_node _ r.setVersion201_elem,
    updateLists_node]
  exact r.vocabs_opts ho hr _ _

theorem cybox201Update_node (hr : r.Legible) {o o' : Options} (ho : r.Opts o o') (m : List (String × String))
    (sel : List XAlt) (t : Node) : cybox201Update (cybox201Cls m sel) o' (r.node t) =
      r.out r.node (cybox201Update (cybox201Cls m sel) o t) := by
  simp only [cybox201Update, r.updateNamespaces_root hr, updateSchemalocs_node, cybox201UpdateVersions,
    r.setVersions_node _ r.setVersion21_elem]
  rw [r.translateFields_node _ (show ∀ f ∈ (cybox201Cls m sel).translatable, r.Commutes f from
    r.cybox201Translatable_commutes)]
  cases translateFields _ _ with
  | error x => rfl
  | ok t1 =>
    simp only [out]
    rw [r.vocabs_opts ho hr]
    cases (if o.updateVocabularies then updateVocabs (cybox201Cls m sel).vocabs t1 else .ok t1 : Except Err Node) with
    | error x => rfl
    | ok t2 => exact r.optionals_opts ho hr _ r.cybox201Optionals_blind t2

theorem isEmpty_dups (d : Dups) : (r.dups d).isEmpty = d.isEmpty := by simp [dups]

theorem refuse_node (dis : List Ctx) (d : Dups) :
    (if (dis.map r.ctx).isEmpty && (r.dups d).isEmpty then .ok ()
      else .error (.update (some (dis.map r.ctx)) (some (r.dups d))) : Except Err Unit) =
    r.out (fun x => x) (if dis.isEmpty && d.isEmpty then .ok () else .error (.update (some dis) (some d))) := by
  rw [isEmpty_dups, List.isEmpty_map]
  by_cases h : (dis.isEmpty && d.isEmpty) = true
  · simp only [h, if_true]; rfl
  · simp only [h]; rfl

theorem cybox201Check_node (hr : r.Faithful) {o o' : Options} (ho : r.Opts o o') (m : List (String × String))
    (sel : List XAlt) (t : Node) : cybox201Check (cybox201Cls m sel) o' (r.node t) =
      r.out (fun x => x) (cybox201Check (cybox201Cls m sel) o t) := by
  simp only [cybox201Check]
  rw [r.versions_opts ho (r.cyboxCheckVersion_node _ t)]
  cases (if o.checkVersions then cyboxCheckVersion (cybox201Cls m sel) t else .ok () : Except Err Unit) with
  | error x => rfl
  | ok _ =>
    simp only [out, r.getDuplicates_node hr]
    rw [r.findAll_node hr.toLegible _ (show ∀ f ∈ (cybox201Cls m sel).disallowed, r.Blind f from r.cybox201Disallowed_blind)]
    cases findAll (cybox201Cls m sel).disallowed t with
    | error x => rfl
    | ok dis => exact r.refuse_node dis _

theorem cybox20_blind (hr : r.Legible) {o o' : Options} (ho : r.Opts o o') : r.BlindStep o o' cybox20 where
  check t := r.versions_opts ho (r.cyboxCheckVersion_node _ t)
  disallowed _ := rfl
  duplicates _ := rfl
  ids _ _ h := nomatch h
  update t := r.cybox20Update_node hr ho _ _ t

theorem map_some_node {x y : Except Err (List Ctx)} (h : y = r.out (fun l => l.map r.ctx) x) :
    y.map some = r.out (fun d => d.map (fun l => l.map r.ctx)) (x.map some) := by
  rw [h]; cases x <;> rfl

theorem cybox201_blind (hr : r.Faithful) {o o' : Options} (ho : r.Opts o o') : r.BlindStep o o' cybox201 where
  check t := r.cybox201Check_node hr ho _ _ t
  disallowed t := r.map_some_node (r.findAll_node hr.toLegible _ r.cybox201Disallowed_blind t)
  duplicates t := congrArg some (r.getDuplicates_node hr _ t)
  ids t d h := by cases h; exact getDuplicates_ids _ t
  update t := r.cybox201Update_node hr.toLegible ho _ _ t

theorem cyboxUpdaters_blind (hr : r.Faithful) {o o' : Options} (ho : r.Opts o o') (v : String) (u : Updater)
    (h : assoc cyboxUpdaters v = some u) : r.BlindStep o o' u := by
  simp only [cyboxUpdaters, assoc] at h
  repeat' split at h
  all_goals first | (cases h; first | exact r.cybox20_blind hr.toLegible ho | exact r.cybox201_blind hr ho) | simp at h

theorem cyboxUpdate_node (hr : r.Faithful) {o o' : Options} (ho : r.Opts o o') (t : Node) (from_ to_ : Option String)
    (force : Bool) (k : Nat) :
    cyboxUpdate (r.node t) from_ to_ o' force k = r.out r.counted (cyboxUpdate t from_ to_ o force k) := by
  simp only [cyboxUpdate, cyboxFrom_node]
  cases cyboxFrom t from_ with
  | error x => rfl
  | ok f => exact r.runChain_node hr ho _ (r.cyboxUpdaters_blind hr ho) t _ _ force k

/-- The external functions do not depend on what is relabelled, and the two prefixes the library writes itself
(ramrod/stix/stix_1_1.py:81-88, 128-135) are not renamed. -/
structure Outside (w : World) : Prop where
  date : ∀ n, w.validDateTime (r.node n) = w.validDateTime n
  parse : ∀ s n, w.parseXml s = some n → r.node n = n
  common : r.pre "stixCommon" = "stixCommon"
  indicator : r.pre "indicator" = "indicator"

theorem allChildrenIn_ctx (hr : r.Legible) (ns : String) (c : Ctx) :
    allChildrenIn ns (r.ctx c) = allChildrenIn ns c := by
  have h : childCtxs (r.ctx c) 0 (r.ctx c).kids = _ := r.childCtxs_ctx c 0 c.kids
  simp only [allChildrenIn, h, List.all_map]
  congr 1
  funext k
  simp only [Function.comp_apply, r.getExtNamespace_ctx hr]
  cases getExtNamespace k <;> rfl

theorem disallowedParent_blind (hr : r.Legible) (m : List (String × String)) (l ns : String) :
    r.Blind (disallowedParent m l ns) :=
  fun _ cs => r.filter_ctx (r.allChildrenIn_ctx hr ns) cs

theorem stix10Disallowed_blind (hr : r.Legible) : ∀ f ∈ stix10Disallowed, r.Blind f := by
  intro f hf
  simp only [stix10Disallowed, List.mem_cons, List.not_mem_nil, or_false] at hf
  rcases hf with rfl | rfl | rfl | rfl
  · exact r.keepAll_blind rfl
  · exact r.keepAll_blind rfl
  · exact r.disallowedParent_blind hr _ _ _
  · exact r.disallowedParent_blind hr _ _ _

theorem disallowedDateTime_blind {w : World} (hw : r.Outside w) : r.Blind (disallowedDateTime w) := by
  intro t cs
  have h : ∀ c, (!dateTimeOk w (r.ctx c)) = !dateTimeOk w c := by
    intro c
    have h1 : (r.ctx c).node = r.node c.node := rfl
    have h2 : (r.ctx c).e.text = c.e.text := rfl
    simp only [dateTimeOk, h1, h2, hw.date]
  simp only [disallowedDateTime]
  rw [r.filter_ctx h, List.filterMap_map, List.map_filterMap]
  congr 1
  funext c
  exact r.ctxAt_node t _

theorem stix101Disallowed_blind (hr : r.Legible) {w : World} (hw : r.Outside w) :
    ∀ f ∈ stix101Disallowed w, r.Blind f := by
  intro f hf
  simp only [stix101Disallowed, List.mem_cons, List.not_mem_nil, or_false] at hf
  rcases hf with rfl | rfl | rfl | rfl | rfl
  · exact r.keepAll_blind rfl
  · exact r.keepAll_blind rfl
  · exact r.disallowedDateTime_blind hw
  · exact r.disallowedParent_blind hr _ _ _
  · exact r.disallowedParent_blind hr _ _ _

theorem stix10Check_node (hr : r.Legible) {o o' : Options} (ho : r.Opts o o') (t : Node) :
    stix10Check o' (r.node t) = r.out (fun x => x) (stix10Check o t) := by
  have hf : (match findAll stix10Cls.disallowed (r.node t) with
      | .error x => .error x
      | .ok dis => if dis.isEmpty then .ok () else .error (.update (some dis) none) : Except Err Unit) =
      r.out (fun x => x) (match findAll stix10Cls.disallowed t with
      | .error x => .error x
      | .ok dis => if dis.isEmpty then .ok () else .error (.update (some dis) none) : Except Err Unit) := by
    rw [r.findAll_node hr _ (show ∀ f ∈ stix10Cls.disallowed, r.Blind f from r.stix10Disallowed_blind hr)]
    cases findAll stix10Cls.disallowed t with
    | error x => rfl
    | ok dis =>
      simp only [out, List.isEmpty_map]
      by_cases h : dis.isEmpty = true
      · simp only [h, if_true]
      · simp only [h]; rfl
  simp only [stix10Check, ho.check, stixCheckVersion_node, cyboxCheckVersion_node]
  cases o.checkVersions with
  | false => exact hf
  | true =>
    cases stixCheckVersion stix10Cls t with
    | error x => rfl
    | ok _ =>
      cases cyboxCheckVersion stix10Cybox t with
      | error x => rfl
      | ok _ => exact hf

theorem stix10Update_node (hr : r.Legible) {o o' : Options} (ho : r.Opts o o') (t : Node) :
    stix10Update o' (r.node t) = r.out r.node (stix10Update o t) := by
  simp only [stix10Update, stix10Cybox, r.cybox20Update_node hr ho]
  cases cybox20Update _ o t with
  | error x => rfl
  | ok t1 =>
    simp only [out, r.updateNamespaces_root hr, updateSchemalocs_node, stixUpdateVersions_node]
    exact r.vocabs_opts ho hr _ _

theorem stix10_blind (hr : r.Legible) {o o' : Options} (ho : r.Opts o o') : r.BlindStep o o' stix10 where
  check t := r.stix10Check_node hr ho t
  disallowed t := r.map_some_node (r.findAll_node hr _ (r.stix10Disallowed_blind hr) t)
  duplicates _ := rfl
  ids _ _ h := nomatch h
  update t := r.stix10Update_node hr ho t

theorem stix101GetDisallowed_node (hr : r.Legible) {w : World} (hw : r.Outside w) (t : Node) :
    stix101GetDisallowed w (r.node t) = r.out (fun l => l.map r.ctx) (stix101GetDisallowed w t) := by
  simp only [stix101GetDisallowed]
  rw [r.findAll_node hr _ (r.stix101Disallowed_blind hr hw),
    r.findAll_node hr _ (show ∀ f ∈ stix101Cybox.disallowed, r.Blind f from r.cybox201Disallowed_blind)]
  cases findAll (stix101Disallowed w) t with
  | error x => rfl
  | ok a =>
    cases findAll stix101Cybox.disallowed t with
    | error x => rfl
    | ok b => simp [out]

theorem stix101GetDuplicates_node (hr : r.Faithful) (t : Node) :
    stix101GetDuplicates (r.node t) = r.dups (stix101GetDuplicates t) := by
  simp only [stix101GetDuplicates, r.getDuplicates_node hr]
  exact r.dictUpdate_map hr (fun l : List Ctx => l.map r.ctx) _ _

theorem stix101Check_node (hr : r.Faithful) {w : World} (hw : r.Outside w) {o o' : Options} (ho : r.Opts o o')
    (t : Node) : stix101Check w o' (r.node t) = r.out (fun x => x) (stix101Check w o t) := by
  have hf : (match stix101GetDisallowed w (r.node t) with
      | .error x => .error x
      | .ok dis => if dis.isEmpty && (stix101GetDuplicates (r.node t)).isEmpty then .ok ()
        else .error (.update (some dis) (some (stix101GetDuplicates (r.node t)))) : Except Err Unit) =
      r.out (fun x => x) (match stix101GetDisallowed w t with
      | .error x => .error x
      | .ok dis => if dis.isEmpty && (stix101GetDuplicates t).isEmpty then .ok ()
        else .error (.update (some dis) (some (stix101GetDuplicates t))) : Except Err Unit) := by
    rw [r.stix101GetDisallowed_node hr.toLegible hw, r.stix101GetDuplicates_node hr]
    cases stix101GetDisallowed w t with
    | error x => rfl
    | ok dis => exact r.refuse_node dis _
  simp only [stix101Check, ho.check, stixCheckVersion_node, cyboxCheckVersion_node]
  cases o.checkVersions with
  | false => exact hf
  | true =>
    cases stixCheckVersion (stix101Cls w) t with
    | error x => rfl
    | ok _ =>
      cases cyboxCheckVersion stix101Cybox t with
      | error x => rfl
      | ok _ => exact hf

theorem translateContributors_ctx (c : Ctx) :
    translateContributors (r.ctx c) = r.out r.node (translateContributors c) := by
  have h : mapE translateContributor (r.nodes c.kids) =
      r.out (fun l => l.map r.node) (mapE translateContributor c.kids) := by
    rw [nodes_eq]
    refine r.mapE_map r.node r.node c.kids ?_
    intro n _
    cases n <;> rfl
  have hk : (r.ctx c).kids = r.nodes c.kids := rfl
  simp only [translateContributors, hk, h]
  cases mapE translateContributor c.kids with
  | error x => rfl
  | ok ks => simp only [out, newElem, node, nodes_eq]; rfl

theorem stix101Translatable_commutes : ∀ f ∈ [transContributors, transExploitTargets], r.Commutes f := by
  intro f hf
  simp only [List.mem_cons, List.not_mem_nil, or_false] at hf
  rcases hf with rfl | rfl
  · exact r.translateContributors_ctx
  · intro c; rfl

theorem stix101Update_node (hr : r.Legible) (w : World) {o o' : Options} (ho : r.Opts o o') (t : Node) :
    stix101Update w o' (r.node t) = r.out r.node (stix101Update w o t) := by
  simp only [stix101Update, stix101Cybox, r.cybox201Update_node hr ho]
  cases cybox201Update _ o t with
  | error x => rfl
  | ok t1 =>
    simp only [out, r.updateNamespaces_root hr, updateSchemalocs_node, stixUpdateVersions_node]
    rw [r.translateFields_node _ (show ∀ f ∈ (stix101Cls w).translatable, r.Commutes f from
      r.stix101Translatable_commutes)]
    cases translateFields _ _ with
    | error x => rfl
    | ok t2 =>
      simp only [out]
      rw [r.vocabs_opts ho hr]
      cases (if o.updateVocabularies then updateVocabs (stix101Cls w).vocabs t2 else .ok t2 : Except Err Node) with
      | error x => rfl
      | ok t3 =>
        refine r.optionals_opts ho hr _ ?_ t3
        intro f hf
        simp only [stix101Cls, List.mem_singleton] at hf
        subst hf
        exact r.keepEmpty_blind rfl

theorem stix101_blind (hr : r.Faithful) {w : World} (hw : r.Outside w) {o o' : Options} (ho : r.Opts o o') :
    r.BlindStep o o' (stix101 w) where
  check t := r.stix101Check_node hr hw ho t
  disallowed t := r.map_some_node (r.stix101GetDisallowed_node hr.toLegible hw t)
  duplicates t := congrArg some (r.stix101GetDuplicates_node hr t)
  ids t d h := by
    cases h
    exact haveIds_update _ _ (getDuplicates_ids _ t) (getDuplicates_ids _ t)
  update t := r.stix101Update_node hr.toLegible w ho t

theorem fromstring_node {w : World} (hw : r.Outside w) (s : String) :
    fromstring w s = r.out r.node (fromstring w s) := by
  simp only [fromstring]
  cases h : w.parseXml s with
  | none => rfl
  | some n => simp only [out, hw.parse s n h]

theorem translateCommonSource_ctx {w : World} (hw : r.Outside w) (c : Ctx) :
    translateCommonSource w (r.ctx c) = r.out r.node (translateCommonSource w c) := by
  have h : (r.ctx c).e.text = c.e.text := rfl
  simp only [translateCommonSource, h]
  split
  · simp [out, sourceNode, node, nodes, elem, nss, attrs, hw.common]
  · exact r.fromstring_node hw _

theorem translateSightingSource_ctx {w : World} (hw : r.Outside w) (c : Ctx) :
    translateSightingSource w (r.ctx c) = r.out r.node (translateSightingSource w c) := by
  have h : (r.ctx c).e.text = c.e.text := rfl
  simp only [translateSightingSource, h]
  split
  · simp [out, sourceNode, node, nodes, elem, nss, attrs, hw.common, hw.indicator]
  · exact r.fromstring_node hw _

theorem stix11Update_node (hr : r.Legible) {w : World} (hw : r.Outside w) {o o' : Options} (ho : r.Opts o o')
    (t : Node) : stix11Update w o' (r.node t) = r.out r.node (stix11Update w o t) := by
  simp only [stix11Update, updateSchemalocs_node, stixUpdateVersions_node]
  rw [r.translateFields_node]
  · cases translateFields _ _ with
    | error x => rfl
    | ok t2 =>
      simp only [out]
      rw [r.vocabs_opts ho hr]
      cases (if o.updateVocabularies then updateVocabs (stix11Cls w).vocabs t2 else .ok t2 : Except Err Node) with
      | error x => rfl
      | ok t3 =>
        refine r.optionals_opts ho hr _ ?_ t3
        intro f hf
        simp only [stix11Cls, List.mem_singleton] at hf
        subst hf
        exact r.keepEmpty_blind rfl
  · intro f hf
    simp only [stix11Cls, List.mem_cons, List.not_mem_nil, or_false] at hf
    rcases hf with rfl | rfl | rfl
    · exact r.translateCommonSource_ctx hw
    · exact r.translateSightingSource_ctx hw
    · intro c; rfl

theorem stix11_blind (hr : r.Legible) {w : World} (hw : r.Outside w) {o o' : Options} (ho : r.Opts o o') :
    r.BlindStep o o' (stix11 w) where
  check t := r.versions_opts ho (r.stixCheckVersion_node _ t)
  disallowed _ := rfl
  duplicates _ := rfl
  ids _ _ h := nomatch h
  update t := r.stix11Update_node hr hw ho t

theorem stix111_blind (hr : r.Legible) {o o' : Options} (ho : r.Opts o o') : r.BlindStep o o' stix111 where
  check t := r.versions_opts ho (r.stixCheckVersion_node _ t)
  disallowed _ := rfl
  duplicates _ := rfl
  ids _ _ h := nomatch h
  update t := by
    simp only [stix111, stix111Update, updateSchemalocs_node, stixUpdateVersions_node]
    exact r.vocabs_opts ho hr _ _

theorem stix12_blind (hr : r.Faithful) {o o' : Options} (ho : r.Opts o o') : r.BlindStep o o' stix12 where
  check t := r.versions_opts ho (r.stixCheckVersion_node _ t)
  disallowed _ := rfl
  duplicates t := congrArg some (r.getDuplicates_node hr _ t)
  ids t d h := by cases h; exact getDuplicates_ids _ t
  update t := by
    simp only [stix12, stix12Update, r.updateNamespaces_root hr.toLegible, updateSchemalocs_node, setRootVersion_node]
    rfl

theorem stixUpdaters_blind (hr : r.Faithful) {w : World} (hw : r.Outside w) {o o' : Options} (ho : r.Opts o o')
    (v : String) (u : Updater) (h : assoc (stixUpdaters w) v = some u) : r.BlindStep o o' u := by
  simp only [stixUpdaters, assoc] at h
  repeat' split at h
  all_goals first
    | (cases h; exact r.stix10_blind hr.toLegible ho)
    | (cases h; exact r.stix101_blind hr hw ho)
    | (cases h; exact r.stix11_blind hr.toLegible hw ho)
    | (cases h; exact r.stix111_blind hr.toLegible ho)
    | (cases h; exact r.stix12_blind hr ho)
    | simp at h

theorem stixUpdate_node (hr : r.Faithful) {w : World} (hw : r.Outside w) {o o' : Options} (ho : r.Opts o o')
    (t : Node) (from_ to_ : Option String) (force : Bool) (k : Nat) :
    stixUpdate w (r.node t) from_ to_ o' force k = r.out r.counted (stixUpdate w t from_ to_ o force k) := by
  simp only [stixUpdate, stixRootVersion_node]
  exact r.runChain_node hr ho _ (r.stixUpdaters_blind hr hw ho) t _ _ force k

end Relabel
end Ramrod

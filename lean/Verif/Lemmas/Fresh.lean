import Verif.Lemmas.Relabel
import Verif.Lemmas.Tree
import Verif.Lemmas.Errors
/-!
# Documents up to vocabulary values

The spec of C62: two documents that differ only in what the vocabulary update changes.  The lemmas say that every other part
of the model keeps such documents alike.
-/

namespace Ramrod

namespace Fresh

/-- The vocabulary names that some release replaced, with the name of the last release. -/
def newest : List (String × String) :=
  [("MotivationVocab-1.0", "MotivationVocab-1.1"), ("MotivationVocab-1.0.1", "MotivationVocab-1.1"),
   ("PlanningAndOperationalSupportVocab-1.0", "PlanningAndOperationalSupportVocab-1.0.1"),
   ("IndicatorTypeVocab-1.0", "IndicatorTypeVocab-1.1"),
   ("AvailabilityLossTypeVocab-1.0", "AvailabilityLossTypeVocab-1.1.1"),
   ("DiscoveryMethodVocab-1.0", "DiscoveryMethodVocab-2.0"), ("EventTypeVocab-1.0", "EventTypeVocab-1.0.1"),
   ("ObjectRelationshipVocab-1.0", "ObjectRelationshipVocab-1.1"), ("ToolTypeVocab-1.0", "ToolTypeVocab-1.1"),
   ("ActionNameVocab-1.0", "ActionNameVocab-1.1")]

/-- The terms that some release corrected. -/
def corrections : List (String × String) :=
  [("Ideological - Anti-Establisment", "Ideological - Anti-Establishment"),
   ("Planning - Open-Source Intelligence (OSINT) Gethering", "Planning - Open-Source Intelligence (OSINT) Gathering"),
   ("Planning ", "Planning"), ("Policital", "Political"), ("Degredation", "Degradation"),
   ("Fraud Detection", "External - Fraud Detection"), ("Anomoly Events", "Anomaly Events"), ("A/V", "AV")]

/-- The newest form of a word. -/
def last (table : List (String × String)) (s : String) : String := (assoc table s).getD s

/-- An `xsi:type` value with the newest name after the first colon. -/
def type (v : String) : String :=
  match v.toList.dropWhile (fun c => c != ':') with
  | [] => v
  | _ :: name => String.ofList (v.toList.takeWhile (fun c => c != ':')) ++ ":" ++ last newest (String.ofList name)

/-- The value of an attribute: types with their newest name, names and references of vocabularies left out. -/
def val (k : QName) (v : String) : String :=
  if k = ⟨some "http://www.w3.org/2001/XMLSchema-instance", "type"⟩ then type v
  else if k = ⟨none, "vocab_name"⟩ ∨ k = ⟨none, "vocab_reference"⟩ then ""
  else v

/-- The attributes of an element. -/
def attrs (as : Attrs) : Attrs := as.map (fun p => (p.1, val p.1 p.2))

/-- An element: its attributes, and its text if that is a corrected term. -/
def elem (e : Elem) : Elem := { e with attrs := attrs e.attrs, text := e.text.map (last corrections) }

mutual
/-- A node with everything below it. -/
def node : Node → Node
  | .elem e ks => .elem (elem e) (nodes ks)
  | .other c t => .other c t
/-- A list of nodes. -/
def nodes : List Node → List Node
  | [] => []
  | k :: ks => node k :: nodes ks
end

/-- An element with its place. -/
def ctx (c : Ctx) : Ctx := ⟨c.pos, c.env, c.anc, elem c.e, nodes c.kids⟩

/-- A table of shared ids. -/
def dups (d : Dups) : Dups := d.map (fun g => (g.1, g.2.map ctx))

/-- An exception: only the listed nodes change. -/
def err : Err → Err
  | .update d g => .update (d.map (fun l => l.map ctx)) (g.map dups)
  | .invalidVersion n a b => .invalidVersion (n.map ctx) a b
  | x => x

/-- An outcome. -/
def out {α β : Type} (f : α → β) : Except Err α → Except Err β
  | .ok a => .ok (f a)
  | .error x => .error (err x)

/-! ## Attributes -/

/-- The attributes whose values stay. -/
def Kept (k : QName) : Prop := k ≠ tagXsiType ∧ k ≠ attrVocabName ∧ k ≠ attrVocabReference

instance (k : QName) : Decidable (Kept k) := inferInstanceAs (Decidable (_ ∧ _ ∧ _))

theorem val_kept {k : QName} (h : Kept k) (v : String) : val k v = v := by
  have h1 : k ≠ ⟨some "http://www.w3.org/2001/XMLSchema-instance", "type"⟩ := h.1
  have h2 : k ≠ ⟨none, "vocab_name"⟩ := h.2.1
  have h3 : k ≠ ⟨none, "vocab_reference"⟩ := h.2.2
  simp [val, h1, h2, h3]

theorem get?_attrs (k : QName) : ∀ as : Attrs, Attrs.get? (attrs as) k = (Attrs.get? as k).map (val k)
  | [] => rfl
  | (k', v) :: rest => by
    have ih := get?_attrs k rest
    simp only [attrs, List.map_cons, Attrs.get?] at ih ⊢
    by_cases h : k' = k
    · subst h; simp
    · simp [h, ih]

theorem has_attrs (k : QName) (as : Attrs) : Attrs.has (attrs as) k = Attrs.has as k := by
  simp [Attrs.has, get?_attrs]

theorem set_attrs (k : QName) (v : String) : ∀ as : Attrs,
    Attrs.set (attrs as) k (val k v) = attrs (Attrs.set as k v)
  | [] => rfl
  | (k', v') :: rest => by
    have ih := set_attrs k v rest
    simp only [attrs, List.map_cons, Attrs.set] at ih ⊢
    by_cases h : k' = k
    · subst h; simp
    · simp [h, ih]

theorem set_hidden (k : QName) (v : String) : ∀ as : Attrs, (∀ v', Attrs.get? as k = some v' → val k v' = val k v) →
    Attrs.has as k = true → attrs (Attrs.set as k v) = attrs as
  | [], _, h => by cases h
  | (k', v') :: rest, hv, h => by
    by_cases hk : k' = k
    · subst hk
      have := hv v' (by simp [Attrs.get?])
      simp [Attrs.set, attrs, this]
    · have h1 : ∀ v', Attrs.get? rest k = some v' → val k v' = val k v := fun x hx => hv x (by simpa [Attrs.get?, hk] using hx)
      have h2 : Attrs.has rest k = true := by simpa [Attrs.has, Attrs.get?, hk] using h
      have ih := set_hidden k v rest h1 h2
      simp only [attrs] at ih
      simp [Attrs.set, hk, attrs, ih]

theorem del_attrs (k : QName) (as : Attrs) : Attrs.del (attrs as) k = attrs (Attrs.del as k) := by
  simp [Attrs.del, attrs, List.filter_map, Function.comp_def]

theorem updateAll_attrs : ∀ bs as : Attrs,
    Attrs.updateAll (attrs as) (attrs bs) = attrs (Attrs.updateAll as bs)
  | [], as => rfl
  | (k, v) :: bs, as => by
    have ih := updateAll_attrs bs (Attrs.set as k v)
    simp only [Attrs.updateAll, attrs, List.map_cons, List.foldl_cons] at ih ⊢
    have := set_attrs k v as
    simp only [attrs] at this
    rw [this]; exact ih

theorem get?_elem (e : Elem) (k : QName) : (elem e).get? k = (e.get? k).map (val k) := get?_attrs k e.attrs
theorem has_elem (e : Elem) (k : QName) : (elem e).has k = e.has k := has_attrs k e.attrs
theorem get?_kept (e : Elem) {k : QName} (h : Kept k) : (elem e).get? k = e.get? k := by
  rw [get?_elem]
  cases e.get? k with
  | none => rfl
  | some v => simp [val_kept h]
theorem set_elem (e : Elem) (k : QName) (v : String) : (elem e).set k (val k v) = elem (e.set k v) := by
  simp [Elem.set, elem, set_attrs]
theorem set_kept (e : Elem) {k : QName} (h : Kept k) (v : String) : (elem e).set k v = elem (e.set k v) := by
  rw [← set_elem, val_kept h]
theorem del_elem (e : Elem) (k : QName) : (elem e).del k = elem (e.del k) := by
  simp [Elem.del, elem, del_attrs]

/-! ## Trees -/

theorem nodes_eq : ∀ ks : List Node, nodes ks = ks.map node
  | [] => rfl
  | k :: ks => by simp [nodes, nodes_eq ks]

mutual
theorem walk_node (pos : Pos) (env : NsMap) (anc : List QName) : ∀ n : Node,
    (node n).walk pos env anc = (n.walk pos env anc).map ctx
  | .other _ _ => rfl
  | .elem e ks => by
    simp only [node, Node.walk, List.map_cons]
    have := walks_node pos 0 (e.decls ++ env) (e.tag :: anc) ks
    simp [ctx, elem, this]
theorem walks_node (pos : Pos) (i : Nat) (env : NsMap) (anc : List QName) : ∀ ks : List Node,
    Node.walks pos i env anc (nodes ks) = (Node.walks pos i env anc ks).map ctx
  | [] => rfl
  | k :: ks => by
    simp only [nodes, Node.walks, List.map_append]
    rw [walk_node (i :: pos) env anc k, walks_node pos (i + 1) env anc ks]
end

theorem elems_node (t : Node) : (node t).elems = t.elems.map ctx := walk_node [] [] [] t
theorem descs_node (t : Node) : (node t).descs = t.descs.map ctx := by
  simp [Node.descs, elems_node]

theorem hasTag_node (q : QName) : ∀ n : Node, (node n).hasTag q = n.hasTag q
  | .elem _ _ => rfl
  | .other _ _ => rfl

theorem holds_ctx (m : List (String × String)) (p : XPred) (c : Ctx) : p.holds m (ctx c) = p.holds m c := by
  cases p with
  | none => rfl
  | hasAttr a => exact has_elem c.e _
  | hasChild x => simp [XPred.holds, ctx, nodes_eq, List.any_map, Function.comp_def, hasTag_node]

theorem selects_ctx (m : List (String × String)) (a : XAlt) (c : Ctx) : a.selects m (ctx c) = a.selects m c := by
  have := holds_ctx m a.pred c
  simp only [XAlt.selects, this]; rfl

theorem xpath_node (t : Node) (m : List (String × String)) (alts : List XAlt) :
    (node t).xpath m alts = (t.xpath m alts).map ctx := by
  simp [Node.xpath, elems_node, List.filter_map, Function.comp_def, selects_ctx]

theorem ctxAt_node (t : Node) (p : Pos) : (node t).ctxAt p = (t.ctxAt p).map ctx := by
  simp only [Node.ctxAt, elems_node, List.find?_map]
  rfl

mutual
theorem mapPos_node {f f' : Pos → Elem → Elem} (h : ∀ p e, f' p (elem e) = elem (f p e)) (pos : Pos) :
    ∀ n : Node, (node n).mapPos f' pos = node (n.mapPos f pos)
  | .other _ _ => rfl
  | .elem e ks => by
    simp only [node, Node.mapPos, h]
    rw [mapPoss_node h pos 0 ks]
theorem mapPoss_node {f f' : Pos → Elem → Elem} (h : ∀ p e, f' p (elem e) = elem (f p e)) (pos : Pos) (i : Nat) :
    ∀ ks : List Node, Node.mapPoss f' pos i (nodes ks) = nodes (Node.mapPoss f pos i ks)
  | [] => rfl
  | k :: ks => by
    simp only [nodes, Node.mapPoss]
    rw [mapPos_node h (i :: pos) k, mapPoss_node h pos (i + 1) ks]
end

mutual
/-- A change at the places of a document that cannot be seen. -/
theorem mapPos_hidden {f : Pos → Elem → Elem} (pos : Pos) (env : NsMap) (anc : List QName) :
    ∀ n : Node, (∀ d ∈ n.walk pos env anc, elem (f d.pos d.e) = elem d.e) → node (n.mapPos f pos) = node n
  | .other _ _, _ => rfl
  | .elem e ks, h => by
    have h1 := h _ List.mem_cons_self
    have h2 := mapPoss_hidden pos 0 (e.decls ++ env) (e.tag :: anc) ks (fun d hd => h d (List.mem_cons_of_mem _ hd))
    simp only [node, Node.mapPos, h2]
    rw [h1]
theorem mapPoss_hidden {f : Pos → Elem → Elem} (pos : Pos) (i : Nat) (env : NsMap) (anc : List QName) :
    ∀ ks : List Node, (∀ d ∈ Node.walks pos i env anc ks, elem (f d.pos d.e) = elem d.e) →
      nodes (Node.mapPoss f pos i ks) = nodes ks
  | [], _ => rfl
  | k :: ks, h => by
    simp only [nodes, Node.mapPoss]
    simp only [Node.walks, List.mem_append] at h
    rw [mapPos_hidden (i :: pos) env anc k (fun d hd => h d (Or.inl hd)),
      mapPoss_hidden pos (i + 1) env anc ks (fun d hd => h d (Or.inr hd))]
end

theorem modifyAt_node {g g' : Elem → Elem} (h : ∀ e, g' (elem e) = elem (g e)) (t : Node) (p : Pos) :
    (node t).modifyAt p g' = node (t.modifyAt p g) :=
  mapPos_node (fun q e => by by_cases hq : q = p <;> simp [hq, h]) [] t

theorem modifyAt_hidden {t : Node} {p : Pos} {e' : Elem} (h : ∀ d ∈ t.elems, d.pos = p → elem d.e = elem e') :
    node (t.modifyAt p (fun _ => e')) = node t :=
  mapPos_hidden [] [] [] t (fun d hd => by
    by_cases hq : d.pos = p
    · simp [hq, h d hd hq]
    · simp [hq])

theorem modifyAll_node {g g' : Elem → Elem} (h : ∀ e, g' (elem e) = elem (g e)) : ∀ (ps : List Pos) (t : Node),
    (node t).modifyAll ps g' = node (t.modifyAll ps g)
  | [], t => rfl
  | p :: ps, t => by
    simp only [Node.modifyAll, List.foldl_cons]
    rw [modifyAt_node h]
    exact modifyAll_node h ps _

mutual
theorem subst_node {f f' : Pos → Option Node} (h : ∀ p, f' p = (f p).map node) (pos : Pos) :
    ∀ n : Node, (node n).subst f' pos = node (n.subst f pos)
  | .other _ _ => rfl
  | .elem e ks => by
    simp only [node, Node.subst, h]
    cases hf : f pos with
    | some n => simp
    | none => simp [node, substs_node h pos 0 ks]
theorem substs_node {f f' : Pos → Option Node} (h : ∀ p, f' p = (f p).map node) (pos : Pos) (i : Nat) :
    ∀ ks : List Node, Node.substs f' pos i (nodes ks) = nodes (Node.substs f pos i ks)
  | [] => rfl
  | k :: ks => by
    simp only [nodes, Node.substs]
    rw [subst_node h (i :: pos) k, substs_node h pos (i + 1) ks]
end

theorem posLookup_map (p : Pos) : ∀ l : List (Pos × Node),
    posLookup (l.map (fun x => (x.1, node x.2))) p = (posLookup l p).map node
  | [] => rfl
  | (q, n) :: rest => by
    have ih := posLookup_map p rest
    simp only [List.map_cons, posLookup]
    by_cases h : q = p
    · simp [h]
    · simp [h, ih]

theorem replaceAll_node (t : Node) (l : List (Pos × Node)) :
    (node t).replaceAll (l.map (fun x => (x.1, node x.2))) = node (t.replaceAll l) :=
  subst_node (fun p => by by_cases h : p = [] <;> simp [h, posLookup_map]) [] t

mutual
theorem prune_node (s : Pos → Bool) (pos : Pos) : ∀ n : Node, (node n).prune s pos = node (n.prune s pos)
  | .other _ _ => rfl
  | .elem e ks => by
    simp only [node, Node.prune]
    rw [prunes_node s pos 0 ks]
theorem prunes_node (s : Pos → Bool) (pos : Pos) (i : Nat) : ∀ ks : List Node,
    Node.prunes s pos i (nodes ks) = nodes (Node.prunes s pos i ks)
  | [] => rfl
  | .other c t :: ks => by
    simp only [nodes, node, Node.prunes]
    rw [prunes_node s pos (i + 1) ks]
  | .elem e es :: ks => by
    have h1 := prune_node s (i :: pos) (.elem e es)
    have h2 := prunes_node s pos (i + 1) ks
    simp only [nodes, node, Node.prunes] at h1 ⊢
    by_cases h : s (i :: pos) = true
    · simp [h, h2]
    · simp [h, h1, h2, nodes]
end

theorem removeAll_node (t : Node) (ps : List Pos) : (node t).removeAll ps = node (t.removeAll ps) :=
  prune_node _ _ t

theorem map_pos (cs : List Ctx) : (cs.map ctx).map (·.pos) = cs.map (·.pos) := by
  simp [Function.comp_def, ctx]

theorem childCtxs_ctx (c : Ctx) : ∀ (i : Nat) (ks : List Node),
    childCtxs (ctx c) i (nodes ks) = (childCtxs c i ks).map ctx
  | _, [] => rfl
  | i, .other _ _ :: ks => by simp only [nodes, node, childCtxs]; exact childCtxs_ctx c (i + 1) ks
  | i, .elem e es :: ks => by
    simp only [nodes, node, childCtxs, List.map_cons]
    rw [childCtxs_ctx c (i + 1) ks]
    simp [ctx, elem]

/-! ## Outcomes -/

theorem filterE_map {p p' : Ctx → Except Err Bool} : ∀ l : List Ctx,
    (∀ c ∈ l, p' (ctx c) = out (fun b => b) (p c)) →
    filterE p' (l.map ctx) = out (fun l => l.map ctx) (filterE p l)
  | [], _ => rfl
  | c :: l, h => by
    have ih := filterE_map l (fun c hc => h c (List.mem_cons_of_mem _ hc))
    simp only [List.map_cons, filterE, h c List.mem_cons_self, ih]
    cases p c with
    | error x => rfl
    | ok b =>
      cases filterE p l with
      | error x => cases b <;> rfl
      | ok l' => cases b <;> rfl

theorem mapE_map {α β γ δ : Type} {f : α → Except Err β} {f' : γ → Except Err δ} (φ : α → γ) (ψ : β → δ) :
    ∀ l : List α, (∀ a ∈ l, f' (φ a) = out ψ (f a)) →
    mapE f' (l.map φ) = out (fun l => l.map ψ) (mapE f l)
  | [], _ => rfl
  | a :: l, h => by
    have ih := mapE_map φ ψ l (fun c hc => h c (List.mem_cons_of_mem _ hc))
    simp only [List.map_cons, mapE, h a List.mem_cons_self, ih]
    cases f a with
    | error x => rfl
    | ok b => cases mapE f l <;> rfl

theorem foldE_same {α σ τ : Type} {f : σ → α → Except Err σ} {f' : τ → α → Except Err τ} (ψ : σ → τ) :
    ∀ (l : List α) (s : σ), (∀ s, ∀ a ∈ l, f' (ψ s) a = out ψ (f s a)) → foldE f' (ψ s) l = out ψ (foldE f s l)
  | [], _, _ => rfl
  | a :: l, s, h => by
    simp only [foldE, h s a List.mem_cons_self]
    cases f s a with
    | error x => rfl
    | ok s' => exact foldE_same ψ l s' (fun s a ha => h s a (List.mem_cons_of_mem _ ha))

/-! ## `xsi:type` -/

theorem assoc_mem_pair {β : Type} {k : String} {v : β} : ∀ {m : List (String × β)}, assoc m k = some v → (k, v) ∈ m
  | [], h => by cases h
  | (k', v') :: rest, h => by
    simp only [assoc] at h
    split at h
    · next hk => cases h; subst hk; exact List.mem_cons_self
    · exact List.mem_cons_of_mem _ (assoc_mem_pair h)

theorem newest_plain : ∀ p ∈ newest, ':' ∉ p.1.toList ∧ ':' ∉ p.2.toList := by decide +kernel

theorem last_newest (s : String) : last newest s = s ∨ (s, last newest s) ∈ newest := by
  unfold last
  cases h : assoc newest s with
  | none => exact Or.inl rfl
  | some v => exact Or.inr (assoc_mem_pair h)

theorem splitP_free {p : Char → Bool} : ∀ {cs : List Char}, (∀ c ∈ cs, p c = false) → splitP p cs = [cs]
  | [], _ => rfl
  | c :: cs, h => by
    have ih := splitP_free (cs := cs) (fun d hd => h d (List.mem_cons_of_mem _ hd))
    simp [splitP, h c List.mem_cons_self, ih]

theorem dropWhile_colon : ∀ {cs : List Char}, cs.dropWhile (fun c => c != ':') = [] → ':' ∉ cs
  | [], _, h => by cases h
  | c :: cs, hd, h => by
    by_cases hc : c = ':'
    · subst hc; simp at hd
    · simp [hc] at hd
      rcases List.mem_cons.1 h with h | h
      · exact hc h.symm
      · exact dropWhile_colon (by simpa using hd) h

theorem splitP_more {cs : List Char} (h : ':' ∈ cs) : ∃ a b l, splitP (fun c => c == ':') cs = a :: b :: l := by
  have hs := Relabel.span_split cs
  rw [hs]
  cases hd : cs.dropWhile (fun c => c != ':') with
  | nil =>
    exact absurd h (dropWhile_colon hd)
  | cons x rest =>
    have hr := Relabel.span_split rest
    dsimp only
    rw [hr]
    exact ⟨_, _, _, rfl⟩

/-- Splitting a value with its newest name. -/
theorem split_type (v : String) : pySplit ':' (type v) = match pySplit ':' v with
    | [a, ty] => [a, last newest ty]
    | l => l := by
  have hv := Relabel.span_split v.toList
  unfold type
  cases hd : v.toList.dropWhile (fun c => c != ':') with
  | nil =>
    dsimp only
    rw [hd] at hv
    simp only [pySplit, hv, List.map_cons, List.map_nil]
  | cons x name =>
    dsimp only
    rw [hd] at hv
    dsimp only at hv
    have hx := Relabel.dropWhile_head _ _ _ hd
    subst hx
    have hfree := Relabel.takeWhile_free v.toList
    have e : (String.ofList (v.toList.takeWhile (fun c => c != ':')) ++ ":" ++ last newest (String.ofList name)).toList =
        v.toList.takeWhile (fun c => c != ':') ++ ':' :: (last newest (String.ofList name)).toList := by simp
    have hw := Relabel.span_word (w := v.toList.takeWhile (fun c => c != ':'))
      (rest := ':' :: (last newest (String.ofList name)).toList) hfree (by intro c l h; simp at h; exact h.1.symm)
    have hs := Relabel.span_split (v.toList.takeWhile (fun c => c != ':') ++ ':' :: (last newest (String.ofList name)).toList)
    rw [hw.1, hw.2] at hs
    dsimp only at hs
    simp only [pySplit, e, hs, hv, List.map_cons]
    rcases last_newest (String.ofList name) with h | h
    · rw [h, String.toList_ofList]
      cases hn : splitP (fun c => c == ':') name with
      | nil => rfl
      | cons b l =>
        cases l with
        | nil =>
          simp only [List.map_cons, List.map_nil]
          by_cases hc : ':' ∈ name
          · obtain ⟨_, _, _, h2⟩ := splitP_more hc
            rw [h2] at hn; cases hn
          · have : splitP (fun c => c == ':') name = [name] := splitP_free (fun c hcm => by
              simp only [beq_eq_false_iff_ne]; intro he; subst he; exact hc hcm)
            rw [this] at hn
            cases hn
            rw [h]
        | cons b' l => rfl
    · have h1 := newest_plain _ h
      simp only [String.toList_ofList] at h1
      have n1 : splitP (fun c => c == ':') name = [name] := splitP_free (fun c hcm => by
        simp only [beq_eq_false_iff_ne]; intro he; subst he; exact h1.1 hcm)
      have n2 : splitP (fun c => c == ':') (last newest (String.ofList name)).toList =
          [(last newest (String.ofList name)).toList] := splitP_free (fun c hcm => by
        simp only [beq_eq_false_iff_ne]; intro he; subst he; exact h1.2 hcm)
      simp [n1, n2]

theorem getTypeInfo_elem (e : Elem) :
    getTypeInfo (elem e) = out (fun x => (x.1, last newest x.2)) (getTypeInfo e) := by
  simp only [getTypeInfo, get?_elem]
  cases e.get? tagXsiType with
  | none => rfl
  | some v =>
    have : val tagXsiType v = type v := rfl
    simp only [Option.map_some, this, split_type]
    generalize pySplit ':' v = l
    match l with
    | [] => rfl
    | [_] => rfl
    | [_, _] => rfl
    | _ :: _ :: _ :: _ => rfl

theorem getExtNamespace_ctx (c : Ctx) : getExtNamespace (ctx c) = getExtNamespace c := by
  simp only [getExtNamespace, ctx, get?_elem]
  cases c.e.get? tagXsiType with
  | none => rfl
  | some v =>
    have : val tagXsiType v = type v := rfl
    simp only [Option.map_some, this, split_type]
    generalize pySplit ':' v = l
    match l with
    | [] => rfl
    | [_] => rfl
    | [_, _] => rfl
    | _ :: _ :: _ :: _ => rfl

theorem getExtNamespace_out (c : Ctx) : out (fun x => x) (getExtNamespace c) = getExtNamespace c := by
  simp only [getExtNamespace]
  split
  · rfl
  · split <;> rfl

theorem typedNodes_node (t : Node) : getTypedNodes (node t) = (getTypedNodes t).map ctx := by
  simp only [getTypedNodes, descs_node, List.filter_map]
  congr 1
  apply List.filter_congr
  intro c _
  simp [ctx, has_elem]

theorem type_append {a : String} (ha : ':' ∉ a.toList) (s : String) :
    type (a ++ ":" ++ s) = a ++ ":" ++ last newest s := by
  have h := Relabel.span_word (w := a.toList) (rest := ':' :: s.toList) ha (by intro c l h; simp at h; exact h.1.symm)
  have e : (a ++ ":" ++ s).toList = a.toList ++ ':' :: s.toList := by simp
  simp only [type, e, h.1, h.2]
  simp

/-! ## Vocabularies -/

/-- A vocabulary whose changes are those of the two tables. -/
structure Listed (v : Vocab) : Prop where
  types : ∀ ty ∈ v.oldTypes, last newest ty = last newest v.newType
  terms : ∀ p ∈ v.terms, last corrections p.1 = last corrections p.2

theorem typeInfo_value {e : Elem} {a ty : String} (h : getTypeInfo e = .ok (a, ty)) :
    ∃ v, e.get? tagXsiType = some v ∧ v = a ++ ":" ++ ty := by
  simp only [getTypeInfo] at h
  cases hv : e.get? tagXsiType with
  | none => rw [hv] at h; cases h
  | some v =>
    rw [hv] at h
    refine ⟨v, rfl, ?_⟩
    have hs := Relabel.span_split v.toList
    simp only [pySplit, hs, List.map_cons] at h
    cases hd : v.toList.dropWhile (fun c => c != ':') with
    | nil => rw [hd] at h; simp at h
    | cons x name =>
      have hx := Relabel.dropWhile_head _ _ _ hd
      subst hx
      rw [hd] at h
      dsimp only at h
      have hn : ':' ∉ name := by
        intro hc
        obtain ⟨p, q, l, h2⟩ := splitP_more hc
        rw [h2] at h
        simp at h
      have h1 : splitP (fun c => c == ':') name = [name] := splitP_free (fun c hcm => by
        simp only [beq_eq_false_iff_ne]; intro he; subst he; exact hn hcm)
      rw [h1] at h
      simp only [List.map_cons, List.map_nil, Except.ok.injEq, Prod.mk.injEq] at h
      obtain ⟨rfl, rfl⟩ := h
      apply String.toList_inj.1
      have hw : v.toList = v.toList.takeWhile (fun c => c != ':') ++ v.toList.dropWhile (fun c => c != ':') :=
        (List.takeWhile_append_dropWhile).symm
      rw [hd] at hw
      simpa using hw

theorem updateNode_hidden {v : Vocab} (hv : Listed v) {e e' : Elem} {a ty : String} (hi : getTypeInfo e = .ok (a, ty))
    (ht : ty ∈ v.oldTypes) (h : v.updateNode e = .ok e') : elem e' = elem e := by
  obtain ⟨x, hx, rfl⟩ := typeInfo_value hi
  have hfree := Relabel.typeInfo_free hi
  have h1 : elem (e.set tagXsiType (a ++ ":" ++ v.newType)) = elem e := by
    simp only [elem, Elem.set]
    congr 1
    refine set_hidden _ _ _ ?_ ?_
    · intro v' hv'
      have : e.get? tagXsiType = some v' := hv'
      rw [hx] at this
      cases this
      show type _ = type _
      rw [type_append hfree, type_append hfree, hv.types ty ht]
    · have : e.get? tagXsiType = Attrs.get? e.attrs tagXsiType := rfl
      simp [Attrs.has, ← this, hx]
  have hide : ∀ (k : QName) (s : String) (d : Elem), (k = attrVocabName ∨ k = attrVocabReference) → d.has k = true →
      elem (d.set k s) = elem d := by
    intro k s d hk hd
    simp only [elem, Elem.set]
    congr 1
    refine set_hidden _ _ _ (fun v' _ => ?_) hd
    rcases hk with rfl | rfl <;> rfl
  have hend : ∀ d d' : Elem, (match d.text with
      | some value => match assoc v.terms value with
        | some new => Except.ok (ε := Err) { d with text := some new }
        | none => Except.ok d
      | none => Except.ok d) = Except.ok d' → elem d' = elem d := by
    intro d d' hd
    cases htx : d.text with
    | none => rw [htx] at hd; cases hd; rfl
    | some value =>
      rw [htx] at hd
      dsimp only at hd
      cases ha : assoc v.terms value with
      | none => rw [ha] at hd; cases hd; rfl
      | some new =>
        rw [ha] at hd
        cases hd
        have := hv.terms _ (assoc_mem_pair ha)
        simp [elem, htx, this]
  have hname : ∀ d : Elem, elem (if d.has attrVocabName = true then d.set attrVocabName v.name else d) = elem d := by
    intro d
    split
    · next hd => exact hide _ _ d (Or.inl rfl) hd
    · rfl
  simp only [Vocab.updateNode, hi] at h
  by_cases hr : (e.set tagXsiType (a ++ ":" ++ v.newType)).has attrVocabReference = true
  · simp only [hr, if_true] at h
    cases hrf : v.reference with
    | none => rw [hrf] at h; cases h
    | some r =>
      rw [hrf] at h
      have := hend _ _ h
      rw [this, hname, hide _ _ _ (Or.inr rfl) hr, h1]
  · rw [if_neg hr] at h
    have := hend _ _ h
    rw [this, hname, h1]

theorem filterE_sound {p : Ctx → Except Err Bool} : ∀ {l r : List Ctx}, filterE p l = .ok r →
    ∀ c ∈ r, c ∈ l ∧ p c = .ok true
  | [], r, h, c, hc => by cases h; cases hc
  | a :: l, r, h, c, hc => by
    simp only [filterE] at h
    cases hp : p a with
    | error x => rw [hp] at h; cases h
    | ok b =>
      rw [hp] at h
      cases hf : filterE p l with
      | error x => rw [hf] at h; cases h
      | ok r' =>
        rw [hf] at h
        dsimp only at h
        cases h
        cases b with
        | false => exact ⟨List.mem_cons_of_mem _ (filterE_sound hf c hc).1, (filterE_sound hf c hc).2⟩
        | true =>
          rcases List.mem_cons.1 hc with rfl | hc
          · exact ⟨List.mem_cons_self, hp⟩
          · exact ⟨List.mem_cons_of_mem _ (filterE_sound hf c hc).1, (filterE_sound hf c hc).2⟩

theorem wanted_type {v : Vocab} {c : Ctx} (h : v.wanted c = .ok true) :
    ∃ a ty, getTypeInfo c.e = .ok (a, ty) ∧ ty ∈ v.oldTypes := by
  simp only [Vocab.wanted] at h
  cases hi : getTypeInfo c.e with
  | error x => rw [hi] at h; cases h
  | ok p =>
    obtain ⟨a, ty⟩ := p
    rw [hi] at h
    dsimp only at h
    cases hn : getExtNamespace c with
    | error x => rw [hn] at h; cases h
    | ok n =>
      rw [hn] at h
      dsimp only at h
      split at h
      · cases h
      · split at h
        · cases h
        · next hty => exact ⟨a, ty, rfl, Classical.not_not.1 hty⟩

/-- The elements at a place of two documents that look alike look alike. -/
theorem elems_alike {t t0 : Node} (h : node t = node t0) {d c : Ctx} (hd : d ∈ t.elems) (hc : c ∈ t0.elems)
    (hp : d.pos = c.pos) : elem d.e = elem c.e := by
  have e : t.elems.map ctx = t0.elems.map ctx := by rw [← elems_node, ← elems_node, h]
  have h1 : ctx d ∈ t0.elems.map ctx := e ▸ List.mem_map.2 ⟨d, hd, rfl⟩
  obtain ⟨c', hc', he⟩ := List.mem_map.1 h1
  have hpos : c'.pos = c.pos := by
    have : (ctx c').pos = (ctx d).pos := by rw [he]
    exact this.trans hp
  have : c' = c := elems_pos_inj hc' hc hpos
  subst this
  have : (ctx c').e = (ctx d).e := by rw [he]
  exact this.symm

theorem vocab_hidden {v : Vocab} (hv : Listed v) {t t' : Node} (h : v.update t = .ok t') : node t' = node t := by
  simp only [Vocab.update, Vocab.find] at h
  cases hf : filterE v.wanted (getTypedNodes t) with
  | error x => rw [hf] at h; cases h
  | ok found =>
    rw [hf] at h
    dsimp only at h
    have key : ∀ (l : List Ctx), (∀ c ∈ l, c ∈ found) → ∀ s s', node s = node t →
        foldE (fun t c => match v.updateNode c.e with
          | .error x => .error x
          | .ok e' => .ok (t.modifyAt c.pos (fun _ => e'))) s l = .ok s' → node s' = node t := by
      intro l
      induction l with
      | nil => intro _ s s' hs h; cases h; exact hs
      | cons c l ih =>
        intro hl s s' hs h
        simp only [foldE] at h
        cases hu : v.updateNode c.e with
        | error x => rw [hu] at h; cases h
        | ok e' =>
          rw [hu] at h
          dsimp only at h
          refine ih (fun d hd => hl d (List.mem_cons_of_mem _ hd)) _ _ ?_ h
          obtain ⟨hm, hw⟩ := filterE_sound hf c (hl c List.mem_cons_self)
          obtain ⟨a, ty, hi, hty⟩ := wanted_type hw
          have he := updateNode_hidden hv hi hty hu
          rw [modifyAt_hidden, hs]
          intro d hd hp
          rw [he]
          refine elems_alike hs hd ?_ hp
          have := (List.mem_filter.1 hm).1
          exact List.mem_of_mem_tail this
    exact key found (fun _ h => h) t t' rfl h

theorem vocabs_hidden : ∀ {vs : List Vocab}, (∀ v ∈ vs, Listed v) → ∀ {t t' : Node}, updateVocabs vs t = .ok t' →
    node t' = node t
  | [], _, t, t', h => by cases h; rfl
  | v :: vs, hv, t, t', h => by
    simp only [updateVocabs, foldE] at h
    cases hu : v.update t with
    | error x => rw [hu] at h; cases h
    | ok s =>
      rw [hu] at h
      dsimp only at h
      rw [vocabs_hidden (fun v h => hv v (List.mem_cons_of_mem _ h)) (show updateVocabs vs s = .ok t' from h)]
      exact vocab_hidden (hv v List.mem_cons_self) hu

/-! ## Schema locations, namespaces, versions, lists -/

theorem updateSchemalocs_node (u : Cls) : ∀ t : Node, u.updateSchemalocs (node t) = node (u.updateSchemalocs t)
  | .other _ _ => rfl
  | .elem e ks => by
    simp only [node, Cls.updateSchemalocs, Cls.updateSchemalocsElem]
    rw [get?_kept e (show Kept tagSchemaLoc by decide)]
    cases e.get? tagSchemaLoc with
    | none => rfl
    | some v => simp only [set_kept e (show Kept tagSchemaLoc by decide)]

mutual
theorem updateNamespaces_node (u : Cls) (env : NsMap) : ∀ t : Node,
    u.updateNamespaces env (node t) = node (u.updateNamespaces env t)
  | .other _ _ => rfl
  | .elem e ks => by
    have h := updateNamespacess_node u (e.decls ++ env) ks
    simp only [node, Cls.updateNamespaces]
    have h0 : (elem e).decls = e.decls := rfl
    have h1 : (elem e).tag = e.tag := rfl
    rw [h0, h1, h]
    by_cases hu : u.nsUpdated e.tag = true
    · simp only [hu, if_true, node]
      congr 1
      simp only [Cls.updateNsmapElem, elem, getNodeText, nodes_eq, List.length_map]
      by_cases hk : ks.length > 0 <;> simp [hk]
    · simp [hu, node]
theorem updateNamespacess_node (u : Cls) (env : NsMap) : ∀ ks : List Node,
    u.updateNamespacess env (nodes ks) = nodes (u.updateNamespacess env ks)
  | [] => rfl
  | k :: ks => by
    simp only [nodes, Cls.updateNamespacess]
    rw [updateNamespaces_node u env k, updateNamespacess_node u env ks]
end

theorem versionedNodes_node (u : Cls) (t : Node) : u.versionedNodes (node t) = (u.versionedNodes t).map ctx :=
  xpath_node t _ _

theorem rootNodes_node (u : Cls) (t : Node) : u.rootNodes (node t) = (u.rootNodes t).map ctx :=
  xpath_node t _ _

theorem setVersions_node (u : Cls) {g : Elem → Elem} (h : ∀ e, g (elem e) = elem (g e)) (t : Node) :
    (node t).modifyAll ((u.versionedNodes (node t)).map (·.pos)) g =
      node (t.modifyAll ((u.versionedNodes t).map (·.pos)) g) := by
  rw [versionedNodes_node, map_pos]
  exact modifyAll_node h _ t

theorem setVersion201_elem (e : Elem) : setVersion201 (elem e) = elem (setVersion201 e) := by
  simp only [setVersion201, set_kept _ (show Kept attrMajor by decide),
    set_kept _ (show Kept attrMinor by decide), set_kept _ (show Kept attrUpdate by decide)]

theorem setVersion21_elem (e : Elem) : setVersion21 (elem e) = elem (setVersion21 e) := by
  simp only [setVersion21, set_kept _ (show Kept attrMajor by decide),
    set_kept _ (show Kept attrMinor by decide), del_elem]

theorem setStixVersion_elem (a b : String) (e : Elem) : setStixVersion a b (elem e) = elem (setStixVersion a b e) := by
  simp only [setStixVersion, set_kept _ (show Kept attrVersion by decide)]
  rfl

theorem stixUpdateVersions_node (u : Cls) (a b : String) (t : Node) :
    stixUpdateVersions u a b (node t) = node (stixUpdateVersions u a b t) :=
  setVersions_node u (setStixVersion_elem a b) t

theorem setRootVersion_node (v : String) : ∀ t : Node, setRootVersion v (node t) = node (setRootVersion v t)
  | .other _ _ => rfl
  | .elem e ks => by
    simp only [node, setRootVersion, set_kept e (show Kept attrVersion by decide)]


theorem replaceAux_unseen {old new : List Char} {x : Char} (hx : x ∈ new) : ∀ {cs : List Char},
    x ∉ replaceAux old new 0 cs → replaceAux old new 0 cs = cs
  | [], _ => rfl
  | c :: cs, h => by
    simp only [replaceAux] at h ⊢
    split
    · next hp =>
      rw [if_pos hp] at h
      exact absurd (List.mem_append_left _ hx) h
    · next hp =>
      rw [if_neg hp] at h
      rw [replaceAux_unseen hx (fun h' => h (List.mem_cons_of_mem _ h'))]

theorem pyReplace_unseen {old new s : String} {x : Char} (hx : x ∈ new.toList) (h : x ∉ (pyReplace old new s).toList) :
    pyReplace old new s = s := by
  simp only [pyReplace, String.toList_ofList] at h ⊢
  rw [replaceAux_unseen hx h, String.ofList_toList]

theorem replaceAux_same {old new : List Char} : ∀ {cs : List Char}, ¬ old <:+: cs → replaceAux old new 0 cs = cs
  | [], _ => rfl
  | c :: cs, h => by
    simp only [replaceAux]
    split
    · next hp => exact absurd (List.IsPrefix.isInfix (List.isPrefixOf_iff_prefix.1 hp)) h
    · rw [replaceAux_same (fun h' => h (h'.trans (List.suffix_cons c cs).isInfix))]

theorem listText_word {s : String} (h1 : ',' ∉ s.toList) (h2 : '&' ∉ s.toList) : updateListText s = s := by
  have e1 : pyReplace "," "##comma##" s = s := by
    unfold pyReplace
    rw [replaceAux_same, String.ofList_toList]
    intro hx
    exact h1 (hx.subset (by decide))
  unfold updateListText
  rw [e1]
  unfold pyReplace
  rw [replaceAux_same, String.ofList_toList]
  intro hx
  exact h2 (hx.subset (by decide))

theorem listText_unseen {s : String} (h1 : ',' ∉ (updateListText s).toList) (h2 : '#' ∉ (updateListText s).toList) :
    updateListText s = s := by
  have e := pyReplace_unseen (x := ',') (by decide) h1
  have e2 : updateListText s = pyReplace "," "##comma##" s := e
  rw [e2] at h2 ⊢
  exact pyReplace_unseen (x := '#') (by decide) h2

theorem corrections_plain : ∀ p ∈ corrections, (',' ∉ p.1.toList ∧ '#' ∉ p.1.toList ∧ '&' ∉ p.1.toList) ∧
    ',' ∉ p.2.toList ∧ '&' ∉ p.2.toList := by decide +kernel

theorem last_corrections (s : String) : last corrections s = s ∨ (s, last corrections s) ∈ corrections := by
  unfold last
  cases h : assoc corrections s with
  | none => exact Or.inl rfl
  | some v => exact Or.inr (assoc_mem_pair h)

theorem listText_last (s : String) : updateListText (last corrections s) = last corrections (updateListText s) := by
  rcases last_corrections s with h | h
  · rw [h]
    rcases last_corrections (updateListText s) with h' | h'
    · exact h'.symm
    · have hp := (corrections_plain _ h').1
      have := listText_unseen hp.1 hp.2.1
      rw [this, h]
  · have hp := corrections_plain _ h
    rw [listText_word hp.2.1 hp.2.2, listText_word hp.1.1 hp.1.2.2]

theorem corrections_full : ∀ p ∈ corrections, p.1 ≠ "" ∧ p.2 ≠ "" ∧ stripWhitespace p.1 ≠ "" ∧ stripWhitespace p.2 ≠ "" ∧
    xmlPlain p.1 = true ∧ xmlPlain p.2 = true := by decide +kernel

theorem last_empty (s : String) : last corrections s = "" ↔ s = "" := by
  rcases last_corrections s with h | h
  · rw [h]
  · have := corrections_full _ h
    exact ⟨fun e => absurd e this.2.1, fun e => absurd e this.1⟩

theorem last_blank (s : String) : (stripWhitespace (last corrections s) == "") = (stripWhitespace s == "") := by
  rcases last_corrections s with h | h
  · rw [h]
  · have := corrections_full _ h
    rw [beq_eq_false_iff_ne.2 this.2.2.1, beq_eq_false_iff_ne.2 this.2.2.2.1]

theorem updateListElem_elem (e : Elem) : updateListElem (elem e) = elem (updateListElem e) := by
  simp only [updateListElem]
  have h : (elem e).text = e.text.map (last corrections) := rfl
  rw [h]
  cases he : e.text with
  | none => rfl
  | some s =>
    simp only [Option.map_some, last_empty]
    by_cases hs : s = ""
    · simp [hs]
    · simp only [hs, if_false, elem, listText_last, Option.map_some]


theorem descPositions_ctx (c : Ctx) : descPositions (ctx c) = descPositions c := by
  have h := walks_node c.pos 0 [] [] c.kids
  simp only [descPositions, ctx]
  have e : Node.walks c.pos 0 [] [] (nodes c.kids) = (Node.walks c.pos 0 [] [] c.kids).map ctx := h
  rw [e, map_pos]

theorem foldl_lists : ∀ (cs : List Ctx) (t : Node),
    (cs.map ctx).foldl (fun t c => t.modifyAll (descPositions c) updateListElem) (node t) =
      node (cs.foldl (fun t c => t.modifyAll (descPositions c) updateListElem) t)
  | [], _ => rfl
  | c :: cs, t => by
    simp only [List.map_cons, List.foldl_cons, descPositions_ctx]
    rw [modifyAll_node updateListElem_elem]
    exact foldl_lists cs _

theorem updateLists_node (u : Cls) (t : Node) : updateLists u (node t) = node (updateLists u t) := by
  simp only [updateLists, xpath_node]
  exact foldl_lists _ t

/-! ## Version checks -/

theorem stixGetVersion_elem (e : Elem) : stixGetVersion (elem e) = stixGetVersion e :=
  get?_kept e (by decide)

theorem cyboxGetVersion_elem (e : Elem) : cyboxGetVersion (elem e) = cyboxGetVersion e := by
  simp only [cyboxGetVersion, get?_kept e (show Kept attrMajor by decide),
    get?_kept e (show Kept attrMinor by decide), get?_kept e (show Kept attrUpdate by decide)]

/-- An error that lists no node stays. -/
theorem cyboxGetVersion_out (e : Elem) : out (fun x => x) (cyboxGetVersion e) = cyboxGetVersion e := by
  simp only [cyboxGetVersion]
  split
  · rfl
  · split <;> rfl

theorem isVersionEqual_out (a b : String) : out (fun x => x) (isVersionEqual a b) = isVersionEqual a b := by
  simp only [isVersionEqual]
  split <;> rfl

theorem stixCheckVersion_node (u : Cls) (t : Node) :
    stixCheckVersion u (node t) = out (fun x => x) (stixCheckVersion u t) := by
  simp only [stixCheckVersion, rootNodes_node]
  cases u.rootNodes t with
  | nil => rfl
  | cons c cs =>
    simp only [List.map_cons]
    have h : stixGetVersion (ctx c).e = stixGetVersion c.e := stixGetVersion_elem c.e
    rw [h]
    cases stixGetVersion c.e with
    | none => rfl
    | some found =>
      dsimp only
      by_cases hf : found = ""
      · simp [hf, out, err]
      · simp only [hf, if_false]
        have := isVersionEqual_out found u.version
        revert this
        cases isVersionEqual (ctx := Ctx) found u.version with
        | error x => intro h; exact congrArg _ (Except.error.inj h).symm
        | ok b => intro _; cases b <;> rfl

theorem cyboxCheckRoots_ctx (v : String) : ∀ cs : List Ctx,
    cyboxCheckRoots v (cs.map ctx) = out (fun x => x) (cyboxCheckRoots v cs)
  | [] => rfl
  | c :: cs => by
    have ih := cyboxCheckRoots_ctx v cs
    simp only [List.map_cons, cyboxCheckRoots]
    have h : cyboxGetVersion (ctx c).e = cyboxGetVersion c.e := cyboxGetVersion_elem c.e
    rw [h]
    have := cyboxGetVersion_out c.e
    revert this
    cases cyboxGetVersion c.e with
    | error x => intro h; exact congrArg _ (Except.error.inj h).symm
    | ok found =>
      intro _
      dsimp only
      have := isVersionEqual_out v found
      revert this
      cases isVersionEqual (ctx := Ctx) v found with
      | error x => intro h; exact congrArg _ (Except.error.inj h).symm
      | ok b =>
        intro _
        cases b with
        | true => exact ih
        | false => rfl

theorem cyboxCheckVersion_node (u : Cls) (t : Node) :
    cyboxCheckVersion u (node t) = out (fun x => x) (cyboxCheckVersion u t) := by
  simp only [cyboxCheckVersion, rootNodes_node]
  exact cyboxCheckRoots_ctx u.version _

/-! ## Finders -/

mutual
theorem isEmptyElem_node : ∀ n : Node, (node n).isEmptyElem = n.isEmptyElem
  | .other _ _ => rfl
  | .elem e ks => by
    simp only [node, Node.isEmptyElem, areEmptyElems_nodes ks]
    cases he : e.text with
    | none => simp [elem, attrs, he]
    | some s => simp only [elem, attrs, he, Option.map_some, last_blank, List.isEmpty_map]
theorem areEmptyElems_nodes : ∀ ks : List Node, Node.areEmptyElems (nodes ks) = Node.areEmptyElems ks
  | [] => rfl
  | k :: ks => by simp only [nodes, Node.areEmptyElems, isEmptyElem_node k, areEmptyElems_nodes ks]
end

/-- A finder class that does not look at what is hidden. -/
structure Blind (f : Finder) : Prop where
  interrogate : ∀ t cs, f.interrogate (node t) (cs.map ctx) = (f.interrogate t cs).map ctx
  types : ∀ p ∈ newest, assoc f.ctxTypes p.1 = none ∧ assoc f.ctxTypes p.2 = none

theorem filter_ctx {p : Ctx → Bool} (h : ∀ c, p (ctx c) = p c) (cs : List Ctx) :
    (cs.map ctx).filter p = (cs.filter p).map ctx := by
  simp [List.filter_map, Function.comp_def, h]

theorem untyped {f : Finder} (h : f.ctxTypes = []) : ∀ p ∈ newest, assoc f.ctxTypes p.1 = none ∧ assoc f.ctxTypes p.2 = none := by
  intro p _
  rw [h]
  exact ⟨rfl, rfl⟩

theorem keepEmpty_filter (t : Node) (cs : List Ctx) : keepEmpty (node t) (cs.map ctx) = (keepEmpty t cs).map ctx :=
  filter_ctx (fun c => isEmptyElem_node c.node) cs

theorem keepEmpty_blind {f : Finder} (h : f.interrogate = keepEmpty) (h0 : f.ctxTypes = []) : Blind f :=
  ⟨fun t cs => by rw [h]; exact keepEmpty_filter t cs, untyped h0⟩

theorem keepAll_blind {f : Finder} (h : f.interrogate = keepAll)
    (h0 : ∀ p ∈ newest, assoc f.ctxTypes p.1 = none ∧ assoc f.ctxTypes p.2 = none) : Blind f :=
  ⟨fun t cs => by rw [h]; rfl, h0⟩

theorem isContext_ctx {f : Finder} (hf : Blind f) (c : Ctx) :
    f.isContext (ctx c) = out (fun b => b) (f.isContext c) := by
  simp only [Finder.isContext, getExtNamespace_ctx]
  have h : getTypeInfo (ctx c).e = _ := getTypeInfo_elem c.e
  rw [h]
  cases getTypeInfo c.e with
  | error x => rfl
  | ok p =>
    simp only [out]
    have := getExtNamespace_out c
    revert this
    cases getExtNamespace c with
    | error x => intro h; exact congrArg _ (Except.error.inj h).symm
    | ok n =>
      intro _
      dsimp only
      rcases last_newest p.2 with h | h
      · rw [h]
      · rw [(hf.types _ h).1, (hf.types _ h).2]

theorem contexts_node {f : Finder} (hf : Blind f) (t : Node) :
    f.contexts (node t) = out (fun l => l.map ctx) (f.contexts t) := by
  simp only [Finder.contexts]
  by_cases h : f.ctxTypes.isEmpty = true
  · simp only [h, if_true, elems_node, ← List.map_take]; rfl
  · simp only [h, typedNodes_node]
    exact filterE_map _ (fun c _ => isContext_ctx hf c)


theorem eval_ctx (t : Node) (m : List (String × String)) (x : XPath) (c : Ctx) :
    x.eval (node t) m (ctx c) = (x.eval t m c).map ctx := by
  cases x with
  | self => rfl
  | children => exact childCtxs_ctx c 0 c.kids
  | union alts => exact xpath_node t m alts

theorem find_node {f : Finder} (hf : Blind f) (t : Node) :
    f.find (node t) = out (fun l => l.map ctx) (f.find t) := by
  simp only [Finder.find, contexts_node hf]
  cases f.contexts t with
  | error x => rfl
  | ok cs =>
    simp only [out, List.flatMap_map, List.map_flatMap, eval_ctx]
    congr 2
    funext c
    exact hf.interrogate t _


theorem findAll_node : ∀ (fs : List Finder), (∀ f ∈ fs, Blind f) → ∀ t : Node,
    findAll fs (node t) = out (fun l => l.map ctx) (findAll fs t)
  | [], _, _ => rfl
  | f :: fs, h, t => by
    simp only [findAll, find_node (h f List.mem_cons_self),
      findAll_node fs (fun g hg => h g (List.mem_cons_of_mem _ hg))]
    cases f.find t with
    | error x => rfl
    | ok a =>
      cases findAll fs t with
      | error x => rfl
      | ok b => simp [out]

theorem removeOptionals_node (fs : List Finder) (h : ∀ f ∈ fs, Blind f) (t : Node) :
    removeOptionals fs (node t) = out node (removeOptionals fs t) := by
  refine foldE_same node fs t ?_
  intro s f hf
  rw [find_node (h f hf)]
  cases f.find s with
  | error x => rfl
  | ok l => simp only [out]; rw [map_pos, removeAll_node]

/-! ## Translations -/

/-- A translation that does not look at what is hidden. -/
def Alike (g : Ctx → Except Err Node) : Prop := ∀ c c', ctx c = ctx c' → out node (g c) = out node (g c')

theorem alike_of_ctx {g : Ctx → Except Err Node} (h : ∀ c, g (ctx c) = out node (g c)) : Alike g :=
  fun c c' e => by rw [← h, ← h, e]

/-- A translation class that does not look at what is hidden. -/
def Commutes (f : Trans) : Prop :=
  match f.kind with
  | .value _ _ _ ov => ∀ p ∈ ov, Kept p.1
  | .renamed _ => True
  | .custom g => Alike g
  | .parent g => Alike g

theorem valueNode_ctx (m : List (String × String)) (p : Option XName) (c : Ctx) :
    valueNode m p (ctx c) = out elem (valueNode m p c) := by
  cases p with
  | none => rfl
  | some x =>
    have h : childCtxs (ctx c) 0 (ctx c).kids = _ := childCtxs_ctx c 0 c.kids
    simp only [valueNode, h, List.find?_map]
    have : ((fun k : Ctx => decide (k.e.tag = x.resolve m)) ∘ ctx) = fun k => decide (k.e.tag = x.resolve m) := rfl
    rw [this]
    cases (childCtxs c 0 c.kids).find? (fun k => decide (k.e.tag = x.resolve m)) <;> rfl

theorem overrideAttrs_elem (src : Elem) : ∀ (ov : List (QName × String)), (∀ p ∈ ov, Kept p.1) → ∀ as : Attrs,
    overrideAttrs (elem src) ov (attrs as) = attrs (overrideAttrs src ov as)
  | [], _, _ => rfl
  | (n, v) :: rest, h, as => by
    simp only [overrideAttrs, has_elem]
    have hs : Attrs.set (attrs as) n v = attrs (Attrs.set as n v) := by
      rw [← set_attrs, val_kept (h (n, v) List.mem_cons_self)]
    have ih := overrideAttrs_elem src rest (fun p hp => h p (List.mem_cons_of_mem _ hp))
    by_cases hh : src.has n = true
    · simp only [hh, if_true, hs, ih]
    · simp only [Bool.not_eq_true] at hh; simp [hh, ih]

theorem translateValue_ctx (m : List (String × String)) (p : Option XName) (nt : Option QName) (ca : Bool)
    (ov : List (QName × String)) (h : ∀ p ∈ ov, Kept p.1) (c : Ctx) :
    translateValue m p nt ca ov (ctx c) = out node (translateValue m p nt ca ov c) := by
  simp only [translateValue, valueNode_ctx]
  cases valueNode m p c with
  | error x => rfl
  | ok src =>
    simp only [out]
    have hb : (if ca = true then Attrs.updateAll [] (elem src).attrs else []) =
        attrs (if ca = true then Attrs.updateAll [] src.attrs else []) := by
      have := updateAll_attrs src.attrs []
      cases ca
      · rfl
      · exact this
    rw [hb, overrideAttrs_elem src ov h]
    rfl

theorem mapE_rel {α α' β β' : Type} {F : α → Except Err β} (p : α → α') (q : β → β')
    (h : ∀ a b, p a = p b → out q (F a) = out q (F b)) : ∀ l l' : List α, l.map p = l'.map p →
    out (fun l => l.map q) (mapE F l) = out (fun l => l.map q) (mapE F l')
  | [], [], _ => rfl
  | [], _ :: _, h => by simp at h
  | _ :: _, [], h => by simp at h
  | c :: l, c' :: l', e => by
    simp only [List.map_cons, List.cons.injEq] at e
    have h1 := h c c' e.1
    have ih := mapE_rel p q h l l' e.2
    simp only [mapE]
    cases hc : F c with
    | error x =>
      cases hc' : F c' with
      | error x' =>
        rw [hc, hc'] at h1
        simpa only [out, Except.error.injEq] using h1
      | ok n' => rw [hc, hc'] at h1; simp [out] at h1
    | ok n =>
      cases hc' : F c' with
      | error x' => rw [hc, hc'] at h1; simp [out] at h1
      | ok n' =>
        rw [hc, hc'] at h1
        simp only [out, Except.ok.injEq] at h1
        dsimp only
        cases hl : mapE F l with
        | error x =>
          cases hl' : mapE F l' with
          | error x' =>
            rw [hl, hl'] at ih
            simpa only [out, Except.error.injEq] using ih
          | ok y' => rw [hl, hl'] at ih; simp [out] at ih
        | ok y =>
          cases hl' : mapE F l' with
          | error x' => rw [hl, hl'] at ih; simp [out] at ih
          | ok y' =>
            rw [hl, hl'] at ih
            simp only [out, Except.ok.injEq] at ih
            simp only [out, List.map_cons, ih, h1]

theorem mapE_alike {g : Ctx → Except Err Node} (pick : Pos → Pos) (hg : Alike g) (l l' : List Ctx)
    (h : l.map ctx = l'.map ctx) :
    out (fun l => l.map (fun x => (x.1, node x.2))) (mapE (fun c => (g c).map (fun n => (pick c.pos, n))) l) =
      out (fun l => l.map (fun x => (x.1, node x.2))) (mapE (fun c => (g c).map (fun n => (pick c.pos, n))) l') := by
  refine mapE_rel ctx (fun x : Pos × Node => (x.1, node x.2)) ?_ l l' h
  intro c c' e
  have h1 := hg c c' e
  have hp : c.pos = c'.pos := by
    have : (ctx c).pos = (ctx c').pos := by rw [e]
    exact this
  rw [hp]
  revert h1
  cases g c with
  | error x =>
    cases g c' with
    | error x' => intro h1; simpa only [Except.map, out, Except.error.injEq] using h1
    | ok n' => intro h1; simp [out] at h1
  | ok n =>
    cases g c' with
    | error x' => intro h1; simp [out] at h1
    | ok n' =>
      intro h1
      simp only [out, Except.ok.injEq] at h1
      simp only [Except.map, out, h1]

theorem alike_of_node {F : Node → Except Err Node} (h : ∀ t, F (node t) = out node (F t)) {x y : Node}
    (e : node x = node y) : out node (F x) = out node (F y) := by rw [← h, ← h, e]

theorem xpath_alike {x y : Node} (e : node x = node y) (m : List (String × String)) (alts : List XAlt) :
    (x.xpath m alts).map ctx = (y.xpath m alts).map ctx := by rw [← xpath_node, ← xpath_node, e]

theorem replace_alike {g : Ctx → Except Err Node} (pick : Pos → Pos) (hg : Alike g) {x y : Node} (e : node x = node y)
    (m : List (String × String)) (alts : List XAlt) :
    out node (match mapE (fun c => (g c).map (fun n => (pick c.pos, n))) (x.xpath m alts) with
      | .error x => .error x
      | .ok l => .ok (x.replaceAll l)) =
    out node (match mapE (fun c => (g c).map (fun n => (pick c.pos, n))) (y.xpath m alts) with
      | .error x => .error x
      | .ok l => .ok (y.replaceAll l)) := by
  have h := mapE_alike pick hg _ _ (xpath_alike e m alts)
  revert h
  cases mapE (fun c => (g c).map (fun n => (pick c.pos, n))) (x.xpath m alts) with
  | error a =>
    cases mapE (fun c => (g c).map (fun n => (pick c.pos, n))) (y.xpath m alts) with
    | error b => intro h; simp only [out, Except.error.injEq] at h ⊢; exact h
    | ok b => intro h; simp [out] at h
  | ok a =>
    cases mapE (fun c => (g c).map (fun n => (pick c.pos, n))) (y.xpath m alts) with
    | error b => intro h; simp [out] at h
    | ok b =>
      intro h
      simp only [out, Except.ok.injEq] at h ⊢
      rw [← replaceAll_node, ← replaceAll_node, e, h]

theorem translate_alike {f : Trans} (hf : Commutes f) {x y : Node} (e : node x = node y) :
    out node (f.translate x) = out node (f.translate y) := by
  obtain ⟨xp, m, kind⟩ := f
  simp only [Commutes] at hf
  simp only [Trans.translate]
  cases kind with
  | renamed tag =>
    dsimp only
    have h : ∀ t : Node, (Except.ok ((node t).modifyAll (((node t).xpath m xp).map (·.pos)) (fun e => { e with tag := tag })) :
        Except Err Node) = out node (.ok (t.modifyAll ((t.xpath m xp).map (·.pos)) (fun e => { e with tag := tag }))) := by
      intro t
      rw [xpath_node, map_pos, modifyAll_node (g := fun e => { e with tag := tag }) (fun _ => rfl)]
      rfl
    exact alike_of_node (F := fun t => .ok (t.modifyAll ((t.xpath m xp).map (·.pos)) (fun e => { e with tag := tag }))) h e
  | value p nt ca ov =>
    exact replace_alike (fun p => p) (alike_of_ctx (fun c => translateValue_ctx m p nt ca ov hf c)) e m xp
  | custom g => exact replace_alike (fun p => p) hf e m xp
  | parent g => exact replace_alike (fun p => p.tail) hf e m xp

theorem translateFields_alike : ∀ (fs : List Trans), (∀ f ∈ fs, Commutes f) → ∀ {x y : Node}, node x = node y →
    out node (translateFields fs x) = out node (translateFields fs y)
  | [], _, x, y, e => by simp only [translateFields, foldE, out, e]
  | f :: fs, h, x, y, e => by
    have h1 := translate_alike (h f List.mem_cons_self) e
    have ih := fun {x y : Node} => translateFields_alike fs (fun g hg => h g (List.mem_cons_of_mem _ hg)) (x := x) (y := y)
    simp only [translateFields, foldE] at ih ⊢
    revert h1
    cases f.translate x with
    | error a =>
      cases f.translate y with
      | error b => intro h; simp only [out, Except.error.injEq] at h ⊢; exact h
      | ok b => intro h; simp [out] at h
    | ok a =>
      cases f.translate y with
      | error b => intro h; simp [out] at h
      | ok b =>
        intro h
        simp only [out, Except.ok.injEq] at h
        exact ih h

/-! ## Shared ids -/

theorem get?_id (e : Elem) : (elem e).get? attrId = e.get? attrId := get?_kept e (by decide)

theorem groupDups_ctx (cs : List Ctx) : groupDups (cs.map ctx) = dups (groupDups cs) := by
  have h1 : (cs.map ctx).filterMap (fun c => c.e.get? attrId) = cs.filterMap (fun c => c.e.get? attrId) := by
    rw [List.filterMap_map]
    congr 1
    funext c
    exact get?_id c.e
  have h2 : ∀ i, (cs.map ctx).filter (fun c => decide (c.e.get? attrId = some i)) =
      (cs.filter (fun c => decide (c.e.get? attrId = some i))).map ctx := by
    intro i
    refine filter_ctx (fun c => ?_) cs
    have : (ctx c).e.get? attrId = c.e.get? attrId := get?_id c.e
    rw [this]
  simp only [groupDups, h1, dups, h2]
  rw [List.filter_map, List.filter_map, List.map_map]
  simp only [Function.comp_def, List.length_map]

theorem getDuplicates_node (m : List (String × String)) (t : Node) :
    getDuplicates m (node t) = dups (getDuplicates m t) := by
  simp only [getDuplicates, descs_node]
  rw [filter_ctx]
  · exact groupDups_ctx _
  · intro c
    have : (ctx c).e.has attrId = c.e.has attrId := has_elem c.e attrId
    rw [this]
    rfl

theorem dictSet_map {α β : Type} (f : α → β) (k : String) (v : α) : ∀ m : List (String × α),
    dictSet (m.map (fun p => (p.1, f p.2))) k (f v) = (dictSet m k v).map (fun p => (p.1, f p.2))
  | [] => rfl
  | (k', v') :: rest => by
    have ih := dictSet_map f k v rest
    simp only [List.map_cons, dictSet]
    by_cases h : k' = k
    · simp [h]
    · simp [h, ih]

theorem dictUpdate_map {α β : Type} (f : α → β) : ∀ b a : List (String × α),
    dictUpdate (a.map (fun p => (p.1, f p.2))) (b.map (fun p => (p.1, f p.2))) =
      (dictUpdate a b).map (fun p => (p.1, f p.2))
  | [], _ => rfl
  | (k, v) :: b, a => by
    have ih := dictUpdate_map f b (dictSet a k v)
    simp only [dictUpdate, List.map_cons, List.foldl_cons] at ih ⊢
    rw [← ih, dictSet_map]

/-! ## Cleaning -/

theorem remapGroup_node (gen : Nat → String → String) : ∀ (cs : List Ctx) (k : Nat) (t : Node),
    remapGroup gen (cs.map ctx) k (node t) =
      (node (remapGroup gen cs k t).1, (remapGroup gen cs k t).2.1, (remapGroup gen cs k t).2.2)
  | [], _, _ => rfl
  | c :: cs, k, t => by
    have hid : (ctx c).e.get? attrId = c.e.get? attrId := get?_id c.e
    have hm : (node t).modifyAt (ctx c).pos (fun e => e.set attrId (gen k ((c.e.get? attrId).getD ""))) =
        node (t.modifyAt c.pos (fun e => e.set attrId (gen k ((c.e.get? attrId).getD "")))) :=
      modifyAt_node (fun e => set_kept e (by decide) _) t c.pos
    have ih := remapGroup_node gen cs (k + 1) (t.modifyAt c.pos (fun e => e.set attrId (gen k ((c.e.get? attrId).getD ""))))
    simp only [List.map_cons, remapGroup, hid, hm, ih]

theorem cleanDuplicates_node (gen : Nat → String → String) : ∀ (d : Dups) (k : Nat) (t : Node),
    cleanDuplicates gen (dups d) k (node t) =
      (node (cleanDuplicates gen d k t).1, (cleanDuplicates gen d k t).2.1, (cleanDuplicates gen d k t).2.2)
  | [], _, _ => rfl
  | g :: gs, k, t => by
    have h1 := remapGroup_node gen g.2 k t
    have ih := cleanDuplicates_node gen gs (remapGroup gen g.2 k t).2.1 (remapGroup gen g.2 k t).1
    have hd : dups (g :: gs) = (g.1, g.2.map ctx) :: dups gs := rfl
    rw [hd]
    simp only [cleanDuplicates, h1, ih]

theorem removedCopies_node (t : Node) : ∀ (ps done : List Pos),
    removedCopies (node t) done ps = (removedCopies t done ps).map node
  | [], _ => rfl
  | p :: ps, done => by
    have ih := removedCopies_node t ps (p :: done)
    simp only [removedCopies, ctxAt_node]
    cases t.ctxAt p with
    | none => exact ih
    | some c =>
      simp only [Option.map_some, List.map_cons, ih]
      congr 1
      exact prune_node _ p c.node


/-! ## One step -/

/-- What a step or an update hands back, up to what is hidden. -/
def result (x : Result) : Result := ⟨node x.doc, x.removed.map node, x.remapped⟩

/-- The result of a step with its count. -/
def counted (x : Result × Nat) : Result × Nat := (result x.1, x.2)

/-- Every successful outcome has a counterpart that looks alike. -/
def Sim {α β : Type} (f : α → β) (a b : Except Err α) : Prop := ∀ x, a = .ok x → ∃ y, b = .ok y ∧ f x = f y

theorem sim_of_out {α β : Type} {f : α → β} {a b : Except Err α} (h : out f a = out f b) : Sim f a b := by
  intro x hx
  rw [hx] at h
  cases b with
  | error e => simp [out] at h
  | ok y => exact ⟨y, rfl, by simpa [out] using h⟩

theorem sim_ok {α β : Type} {f : α → β} {x y : α} (h : f x = f y) : Sim f (.ok x) (.ok y) := by
  intro z hz; cases hz; exact ⟨y, rfl, h⟩

theorem sim_elim {α β γ δ : Type} {f : α → β} {g : γ → δ} {a b : Except Err α} {A B : Except Err γ} (h : Sim f a b)
    (he : ∀ e, a = .error e → ∃ e', A = .error e')
    (hs : ∀ x y, a = .ok x → b = .ok y → f x = f y → Sim g A B) : Sim g A B := by
  intro z hz
  cases ha : a with
  | error e =>
    obtain ⟨e', h'⟩ := he e ha
    rw [h'] at hz
    cases hz
  | ok x =>
    obtain ⟨y, hy, hxy⟩ := h x ha
    exact hs x y ha hy hxy z hz

/-- The same options without the update of the vocabularies. -/
structure Off (o o' : Options) : Prop where
  check : o'.checkVersions = o.checkVersions
  newId : o'.newId = o.newId
  vocabs : o'.updateVocabularies = false
  optionals : o'.removeOptionals = o.removeOptionals

/-- An updater that looks at nothing hidden. -/
structure BlindStep (o o' : Options) (u : Updater) : Prop where
  check : ∀ t, u.check o' (node t) = out (fun x => x) (u.check o' t)
  same : ∀ t, u.check o' t = u.check o t
  disallowed : ∀ t, u.disallowed (node t) = out (fun d => d.map (fun l => l.map ctx)) (u.disallowed t)
  duplicates : ∀ t, u.duplicates (node t) = (u.duplicates t).map dups
  update : ∀ x y, node x = node y → Sim node (u.update o x) (u.update o' y)
  noRefuse : ∀ t, NoRefuse (u.update o t)

theorem cutFor_node (dis : Option (List Ctx)) (t : Node) :
    Relabel.cutFor (dis.map (fun l => l.map ctx)) (node t) =
      (node (Relabel.cutFor dis t).1, (Relabel.cutFor dis t).2.map node) := by
  cases dis with
  | none => rfl
  | some cs =>
    simp only [Relabel.cutFor, Option.map_some, List.isEmpty_map]
    by_cases hc : cs.isEmpty = true
    · simp only [hc, if_true]; rfl
    · simp only [Bool.not_eq_true] at hc
      simp only [hc, cleanDisallowed, map_pos, removeAll_node, removedCopies_node]
      rfl

theorem newIdsFor_node (gen : Nat → String → String) (d : Option Dups) (k : Nat) (t : Node) :
    Relabel.newIdsFor gen (d.map dups) k (node t) =
      (node (Relabel.newIdsFor gen d k t).1, (Relabel.newIdsFor gen d k t).2.1, (Relabel.newIdsFor gen d k t).2.2) := by
  cases d with
  | none => rfl
  | some x => exact cleanDuplicates_node gen x k t

theorem clean_node {o o' : Options} {u : Updater} (hu : BlindStep o o' u) (k : Nat) (t : Node) :
    clean u o' k (node t) = out counted (clean u o' k t) := by
  simp only [Relabel.clean_parts, hu.disallowed, hu.duplicates]
  cases u.disallowed t with
  | error x => rfl
  | ok dis =>
    simp only [out, newIdsFor_node, cutFor_node]
    rfl

theorem clean_same {o o' : Options} (ho : Off o o') (u : Updater) (k : Nat) (t : Node) : clean u o' k t = clean u o k t := by
  simp only [Relabel.clean_parts, ho.newId]

theorem clean_sim {o o' : Options} (ho : Off o o') {u : Updater} (hu : BlindStep o o' u) (k : Nat) {x y : Node}
    (e : node x = node y) : Sim counted (clean u o k x) (clean u o' k y) := by
  rw [← clean_same ho]
  apply sim_of_out
  rw [← clean_node hu, ← clean_node hu, e]

theorem forceUpdate_sim {o o' : Options} (ho : Off o o') {u : Updater} (hu : BlindStep o o' u) (k : Nat) {x y : Node}
    (e : node x = node y) : Sim counted (forceUpdate u o k x) (forceUpdate u o' k y) := by
  simp only [forceUpdate]
  refine sim_elim (clean_sim ho hu k e) (fun e h => ⟨e, by rw [h]⟩) ?_
  rintro ⟨a, ka⟩ ⟨b, kb⟩ ha hb h
  rw [ha, hb]
  dsimp only
  simp only [counted, result, Prod.mk.injEq, Result.mk.injEq] at h
  obtain ⟨⟨h1, h2, h3⟩, h4⟩ := h
  refine sim_elim (hu.update _ _ h1) (fun e h => ⟨e, by rw [h]⟩) ?_
  intro d d' ha hb hd
  rw [ha, hb]
  exact sim_ok (by simp only [counted, result, hd, h2, h3, h4])

theorem refusable_err (x : Err) : refusable (err x) = refusable x := by cases x <;> rfl

theorem stepUpdate_sim {o o' : Options} (ho : Off o o') {u : Updater} (hu : BlindStep o o' u) (force : Bool) (k : Nat)
    {x y : Node} (e : node x = node y) : Sim counted (stepUpdate u o force k x) (stepUpdate u o' force k y) := by
  have hc : out (fun x => x) (u.check o x) = out (fun x => x) (u.check o' y) := by
    rw [← hu.same, ← hu.check, ← hu.check, e]
  have hc2 : ∀ a, u.check o x = .error a → ∃ b, u.check o' y = .error b ∧ refusable b = refusable a := by
    intro a ha
    rw [ha] at hc
    cases hb : u.check o' y with
    | ok _ => rw [hb] at hc; simp [out] at hc
    | error b =>
      rw [hb] at hc
      simp only [out, Except.error.injEq] at hc
      exact ⟨b, rfl, by rw [← refusable_err b, ← hc, refusable_err]⟩
  intro z hz
  simp only [stepUpdate, tryUpdate] at hz ⊢
  cases ha : u.check o x with
  | error a =>
    obtain ⟨b, hb, hr⟩ := hc2 a ha
    rw [ha] at hz
    rw [hb]
    dsimp only at hz ⊢
    rw [hr]
    by_cases hf : (refusable a && force) = true
    · rw [if_pos hf] at hz ⊢
      exact forceUpdate_sim ho hu k e z hz
    · rw [if_neg hf] at hz; cases hz
  | ok _ =>
    have hb : u.check o' y = .ok () := by
      rw [ha] at hc
      cases hb : u.check o' y with
      | ok _ => rfl
      | error b => rw [hb] at hc; simp [out] at hc
    rw [ha] at hz
    rw [hb]
    dsimp only at hz ⊢
    cases hd : u.update o x with
    | error a =>
      rw [hd] at hz
      dsimp only at hz
      rw [hu.noRefuse x a hd] at hz
      cases hz
    | ok d =>
      rw [hd] at hz
      cases hz
      obtain ⟨d', hd', he⟩ := hu.update x y e d hd
      rw [hd']
      exact ⟨_, rfl, by simp only [counted, result, he]⟩

/-! ## Chains -/

theorem chainLoop_sim {o o' : Options} (ho : Off o o') {reg : List (String × Updater)}
    (hreg : ∀ v u, assoc reg v = some u → BlindStep o o' u) (force : Bool) : ∀ (vs : List String) (a b : Result) (k : Nat),
    result a = result b → Sim counted (chainLoop reg o force vs a k) (chainLoop reg o' force vs b k)
  | [], a, b, k, h => sim_ok (by simp only [counted, h])
  | v :: vs, a, b, k, h => by
    simp only [chainLoop]
    cases hv : assoc reg v with
    | none => intro x hx; cases hx
    | some u =>
      dsimp only
      have h' := h
      simp only [result, Result.mk.injEq] at h'
      refine sim_elim (stepUpdate_sim ho (hreg v u hv) force k h'.1) (fun e h => ⟨e, by rw [h]⟩) ?_
      rintro ⟨p, kp⟩ ⟨q, kq⟩ ha hb hpq
      rw [ha, hb]
      dsimp only
      simp only [counted, result, Prod.mk.injEq, Result.mk.injEq] at hpq
      obtain ⟨⟨h1, h2, h3⟩, rfl⟩ := hpq
      exact chainLoop_sim ho hreg force vs _ _ _ (by simp only [result, h1, h2, h3, h'.2.1, h'.2.2, List.map_append])

theorem runChain_sim {o o' : Options} (ho : Off o o') (vs : List String) {reg : List (String × Updater)}
    (hreg : ∀ v u, assoc reg v = some u → BlindStep o o' u) {x y : Node} (e : node x = node y) (from_ to_ : Option String)
    (force : Bool) (k : Nat) : Sim counted (runChain vs reg x from_ to_ o force k) (runChain vs reg y from_ to_ o' force k) := by
  simp only [runChain]
  cases (validateVersions from_ to_ vs : Except Err (String × String)) with
  | error a => intro z hz; cases hz
  | ok p => exact chainLoop_sim ho hreg force _ _ _ k (by simp only [result, e])

/-! ## The updater classes -/

theorem vocabs_sim {o o' : Options} (ho : Off o o') {vs : List Vocab} (hv : ∀ v ∈ vs, Listed v) {x y : Node}
    (e : node x = node y) : Sim node (if o.updateVocabularies then updateVocabs vs x else .ok x)
      (if o'.updateVocabularies then updateVocabs vs y else .ok y) := by
  rw [ho.vocabs]
  intro z hz
  refine ⟨y, rfl, ?_⟩
  split at hz
  · rw [vocabs_hidden hv hz, e]
  · cases hz; exact e

theorem optionals_sim {o o' : Options} (ho : Off o o') {fs : List Finder} (hf : ∀ f ∈ fs, Blind f) {x y : Node}
    (e : node x = node y) : Sim node (if o.removeOptionals then removeOptionals fs x else .ok x)
      (if o'.removeOptionals then removeOptionals fs y else .ok y) := by
  rw [ho.optionals]
  by_cases h : o.removeOptionals = true
  · simp only [h, if_true]
    exact sim_of_out (alike_of_node (removeOptionals_node fs hf) e)
  · simp only [h]; exact sim_ok e

theorem versions_opts {o : Options} {c c' : Except Err Unit} (h : c' = out (fun x => x) c) :
    (if o.checkVersions then c' else .ok ()) = out (fun x => x) (if o.checkVersions then c else .ok ()) := by
  rw [h]
  by_cases h : o.checkVersions = true
  · simp only [h, if_true]
  · simp only [h]; rfl

theorem kids_length (ks : List Node) : (nodes ks).length = ks.length := by simp [nodes_eq]

theorem filter_blind {m : List (String × String)} {xp : XPath} {p : Ctx → Bool} (h : ∀ c, p (ctx c) = p c) :
    Blind ⟨[], xp, m, fun _ cs => cs.filter p⟩ := ⟨fun _ cs => filter_ctx h cs, untyped rfl⟩

theorem cybox201Disallowed_blind : ∀ f ∈ cybox201Disallowed, Blind f := by
  intro f hf
  simp only [cybox201Disallowed, List.mem_cons, List.not_mem_nil, or_false] at hf
  rcases hf with rfl | rfl | rfl | rfl
  · exact keepAll_blind rfl (untyped rfl)
  · exact keepAll_blind rfl (untyped rfl)
  · exact keepAll_blind rfl (untyped rfl)
  · exact filter_blind (p := fun c => decide (c.kids.length > 1)) (fun c => by simp only [ctx, kids_length])

theorem cybox201Optionals_blind : ∀ f ∈ cybox201Optionals, Blind f := by
  intro f hf
  simp only [cybox201Optionals, List.mem_cons, List.not_mem_nil, or_false] at hf
  apply keepEmpty_blind
  all_goals repeat (rcases hf with rfl | hf; · rfl)
  all_goals subst hf; rfl

theorem copyRetag_node (tag : QName) (e : Elem) (ks : List Node) :
    copyRetag tag (elem e) (nodes ks) = node (copyRetag tag e ks) := rfl

theorem cybox201Translatable_commutes : ∀ f ∈ cybox201Translatable, Commutes f := by
  intro f hf
  simp only [cybox201Translatable, List.mem_cons, List.not_mem_nil, or_false] at hf
  rcases hf with rfl | rfl | rfl | rfl | rfl | rfl | rfl | rfl
  · simp [Commutes, transDNT]
  · simp [Commutes, transVary]
  · simp only [Commutes, transRefresh]; decide
  · trivial
  · trivial
  · trivial
  · trivial
  · exact alike_of_ctx (fun c => rfl)

theorem event_listed : Listed eventTypeVocab := ⟨by decide +kernel, by decide +kernel⟩
theorem relationship_listed : Listed objectRelationshipVocab := ⟨by decide +kernel, by decide +kernel⟩
theorem tool_listed : Listed toolTypeVocab := ⟨by decide +kernel, by decide +kernel⟩
theorem action_listed : Listed actionNameVocab := ⟨by decide +kernel, by decide +kernel⟩
theorem motivation10_listed : Listed motivationVocab10 := ⟨by decide +kernel, by decide +kernel⟩
theorem planning_listed : Listed planningVocab := ⟨by decide +kernel, by decide +kernel⟩
theorem motivation101_listed : Listed motivationVocab101 := ⟨by decide +kernel, by decide +kernel⟩
theorem indicator_listed : Listed indicatorTypeVocab := ⟨by decide +kernel, by decide +kernel⟩
theorem availability_listed : Listed availabilityLossVocab := ⟨by decide +kernel, by decide +kernel⟩
theorem discovery_listed : Listed discoveryMethodVocab := ⟨by decide +kernel, by decide +kernel⟩

theorem cybox20Vocabs_listed : ∀ v ∈ [eventTypeVocab], Listed v := by
  intro v hv
  rw [List.mem_singleton] at hv
  subst hv
  exact event_listed

theorem cybox201Vocabs_listed : ∀ v ∈ [objectRelationshipVocab, toolTypeVocab, actionNameVocab], Listed v := by
  intro v hv
  simp only [List.mem_cons, List.not_mem_nil, or_false] at hv
  rcases hv with rfl | rfl | rfl
  · exact relationship_listed
  · exact tool_listed
  · exact action_listed

theorem updateSchemalocs_alike (u : Cls) {x y : Node} (e : node x = node y) :
    node (u.updateSchemalocs x) = node (u.updateSchemalocs y) := by
  rw [← updateSchemalocs_node, ← updateSchemalocs_node, e]

theorem updateNamespaces_alike (u : Cls) {x y : Node} (e : node x = node y) :
    node (u.updateNamespaces [] x) = node (u.updateNamespaces [] y) := by
  rw [← updateNamespaces_node, ← updateNamespaces_node, e]

theorem stixUpdateVersions_alike (u : Cls) (a b : String) {x y : Node} (e : node x = node y) :
    node (stixUpdateVersions u a b x) = node (stixUpdateVersions u a b y) := by
  rw [← stixUpdateVersions_node, ← stixUpdateVersions_node, e]

theorem cybox20Update_sim {o o' : Options} (ho : Off o o') (m : List (String × String)) (sel : List XAlt) {x y : Node}
    (e : node x = node y) : Sim node (cybox20Update (cybox20Cls m sel) o x) (cybox20Update (cybox20Cls m sel) o' y) := by
  simp only [cybox20Update]
  refine vocabs_sim ho cybox20Vocabs_listed ?_
  rw [← updateLists_node, ← updateLists_node]
  congr 1
  simp only [cybox20UpdateVersions]
  rw [← setVersions_node _ setVersion201_elem, ← setVersions_node _ setVersion201_elem, updateSchemalocs_alike _ e]

theorem cybox201Update_sim {o o' : Options} (ho : Off o o') (m : List (String × String)) (sel : List XAlt) {x y : Node}
    (e : node x = node y) : Sim node (cybox201Update (cybox201Cls m sel) o x) (cybox201Update (cybox201Cls m sel) o' y) := by
  simp only [cybox201Update]
  refine sim_elim (sim_of_out (translateFields_alike (cybox201Cls m sel).translatable cybox201Translatable_commutes
    (x := cybox201UpdateVersions (cybox201Cls m sel)
      ((cybox201Cls m sel).updateSchemalocs ((cybox201Cls m sel).updateNamespaces [] x)))
    (y := cybox201UpdateVersions (cybox201Cls m sel)
      ((cybox201Cls m sel).updateSchemalocs ((cybox201Cls m sel).updateNamespaces [] y))) ?_)) (fun e h => ⟨e, by rw [h]⟩) ?_
  · simp only [cybox201UpdateVersions]
    rw [← setVersions_node _ setVersion21_elem, ← setVersions_node _ setVersion21_elem,
      updateSchemalocs_alike _ (updateNamespaces_alike _ e)]
  · intro a b ha hb h
    rw [ha, hb]
    dsimp only
    refine sim_elim (vocabs_sim ho (vs := (cybox201Cls m sel).vocabs) cybox201Vocabs_listed h) (fun e h => ⟨e, by rw [h]⟩) ?_
    intro a b ha hb h
    rw [ha, hb]
    exact optionals_sim ho cybox201Optionals_blind h

theorem isEmpty_dups (d : Dups) : (dups d).isEmpty = d.isEmpty := by simp [dups]

theorem refuse_node (dis : List Ctx) (d : Dups) :
    (if (dis.map ctx).isEmpty && (dups d).isEmpty then .ok ()
      else .error (.update (some (dis.map ctx)) (some (dups d))) : Except Err Unit) =
    out (fun x => x) (if dis.isEmpty && d.isEmpty then .ok () else .error (.update (some dis) (some d))) := by
  rw [isEmpty_dups, List.isEmpty_map]
  by_cases h : (dis.isEmpty && d.isEmpty) = true
  · simp only [h, if_true]; rfl
  · simp only [h]; rfl

theorem cybox201Check_node (o : Options) (m : List (String × String)) (sel : List XAlt) (t : Node) :
    cybox201Check (cybox201Cls m sel) o (node t) = out (fun x => x) (cybox201Check (cybox201Cls m sel) o t) := by
  simp only [cybox201Check]
  rw [versions_opts (cyboxCheckVersion_node _ t)]
  cases (if o.checkVersions then cyboxCheckVersion (cybox201Cls m sel) t else .ok () : Except Err Unit) with
  | error x => rfl
  | ok _ =>
    simp only [out, getDuplicates_node]
    rw [findAll_node _ (show ∀ f ∈ (cybox201Cls m sel).disallowed, Blind f from cybox201Disallowed_blind)]
    cases findAll (cybox201Cls m sel).disallowed t with
    | error x => rfl
    | ok dis => exact refuse_node dis _

theorem cybox20_blind {o o' : Options} (ho : Off o o') : BlindStep o o' cybox20 where
  check t := versions_opts (cyboxCheckVersion_node _ t)
  same t := by simp only [cybox20, cybox20Check, ho.check]
  disallowed _ := rfl
  duplicates _ := rfl
  update _ _ e := cybox20Update_sim ho _ _ e
  noRefuse t := noRefuse_cybox20Update _ _ _


theorem map_some_node {x y : Except Err (List Ctx)} (h : y = out (fun l => l.map ctx) x) :
    y.map some = out (fun d => d.map (fun l => l.map ctx)) (x.map some) := by
  rw [h]; cases x <;> rfl


theorem cybox201_blind {o o' : Options} (ho : Off o o') : BlindStep o o' cybox201 where
  check t := cybox201Check_node _ _ _ t
  same t := by simp only [cybox201, cybox201Check, ho.check]
  disallowed t := map_some_node (findAll_node _ cybox201Disallowed_blind t)
  duplicates t := congrArg some (getDuplicates_node _ t)
  update _ _ e := cybox201Update_sim ho _ _ e
  noRefuse t := noRefuse_cybox201Update _ _ _ _

theorem cyboxUpdaters_blind {o o' : Options} (ho : Off o o') (v : String) (u : Updater)
    (h : assoc cyboxUpdaters v = some u) : BlindStep o o' u := by
  simp only [cyboxUpdaters, assoc] at h
  repeat' split at h
  all_goals first | (cases h; first | exact cybox20_blind ho | exact cybox201_blind ho) | simp at h

/-- The validation of dates does not depend on what is hidden. -/
def Outside (w : World) : Prop := ∀ n, w.validDateTime (node n) = w.validDateTime n

theorem allChildrenIn_ctx (ns : String) (c : Ctx) : allChildrenIn ns (ctx c) = allChildrenIn ns c := by
  have h : childCtxs (ctx c) 0 (ctx c).kids = _ := childCtxs_ctx c 0 c.kids
  simp only [allChildrenIn, h, List.all_map]
  congr 1
  funext k
  simp only [Function.comp_apply, getExtNamespace_ctx]

theorem disallowedParent_blind (m : List (String × String)) (l ns : String) : Blind (disallowedParent m l ns) :=
  filter_blind (allChildrenIn_ctx ns)

theorem disallowedType_blind (m : List (String × String)) {ty ns : String}
    (h : ∀ p ∈ newest, ty ≠ p.1 ∧ ty ≠ p.2) : Blind (disallowedType m ty ns) :=
  keepAll_blind rfl (fun p hp => by
    have := h p hp
    constructor
    · simp [disallowedType, assoc, this.1]
    · simp [disallowedType, assoc, this.2])

theorem stix10Disallowed_blind : ∀ f ∈ stix10Disallowed, Blind f := by
  intro f hf
  simp only [stix10Disallowed, List.mem_cons, List.not_mem_nil, or_false] at hf
  rcases hf with rfl | rfl | rfl | rfl
  · exact disallowedType_blind _ (by decide +kernel)
  · exact disallowedType_blind _ (by decide +kernel)
  · exact disallowedParent_blind _ _ _
  · exact disallowedParent_blind _ _ _

theorem falsy_text (e : Elem) : falsy (elem e).text = falsy e.text := by
  simp only [elem]
  cases e.text with
  | none => rfl
  | some s =>
    have := last_empty s
    simp only [Option.map_some, falsy]
    by_cases h : s = ""
    · subst h; rfl
    · rw [beq_eq_false_iff_ne.2 h, beq_eq_false_iff_ne.2 (fun h' => h (this.1 h'))]

theorem disallowedDateTime_blind {w : World} (hw : Outside w) : Blind (disallowedDateTime w) := by
  refine ⟨?_, untyped rfl⟩
  intro t cs
  have h : ∀ c, (!dateTimeOk w (ctx c)) = !dateTimeOk w c := by
    intro c
    have h1 : (ctx c).node = node c.node := rfl
    have h2 : falsy (ctx c).e.text = falsy c.e.text := falsy_text c.e
    simp only [dateTimeOk, h1, h2, hw c.node]
  simp only [disallowedDateTime]
  rw [filter_ctx h, List.filterMap_map, List.map_filterMap]
  congr 1
  funext c
  exact ctxAt_node t _

theorem stix101Disallowed_blind {w : World} (hw : Outside w) : ∀ f ∈ stix101Disallowed w, Blind f := by
  intro f hf
  simp only [stix101Disallowed, List.mem_cons, List.not_mem_nil, or_false] at hf
  rcases hf with rfl | rfl | rfl | rfl | rfl
  · exact disallowedType_blind _ (by decide +kernel)
  · exact disallowedType_blind _ (by decide +kernel)
  · exact disallowedDateTime_blind hw
  · exact disallowedParent_blind _ _ _
  · exact disallowedParent_blind _ _ _

theorem stix10Check_node (o : Options) (t : Node) : stix10Check o (node t) = out (fun x => x) (stix10Check o t) := by
  have hf : (match findAll stix10Cls.disallowed (node t) with
      | .error x => .error x
      | .ok dis => if dis.isEmpty then .ok () else .error (.update (some dis) none) : Except Err Unit) =
      out (fun x => x) (match findAll stix10Cls.disallowed t with
      | .error x => .error x
      | .ok dis => if dis.isEmpty then .ok () else .error (.update (some dis) none) : Except Err Unit) := by
    rw [findAll_node _ (show ∀ f ∈ stix10Cls.disallowed, Blind f from stix10Disallowed_blind)]
    cases findAll stix10Cls.disallowed t with
    | error x => rfl
    | ok dis =>
      simp only [out, List.isEmpty_map]
      by_cases h : dis.isEmpty = true
      · simp only [h, if_true]
      · simp only [h]; rfl
  simp only [stix10Check, stixCheckVersion_node, cyboxCheckVersion_node]
  cases o.checkVersions with
  | false => exact hf
  | true =>
    cases stixCheckVersion stix10Cls t with
    | error x => rfl
    | ok _ =>
      cases cyboxCheckVersion stix10Cybox t with
      | error x => rfl
      | ok _ => exact hf

theorem stix10Update_sim {o o' : Options} (ho : Off o o') {x y : Node} (e : node x = node y) :
    Sim node (stix10Update o x) (stix10Update o' y) := by
  simp only [stix10Update]
  have h0 : Sim node (cybox20Update stix10Cybox o x) (cybox20Update stix10Cybox o' y) := cybox20Update_sim ho _ _ e
  refine sim_elim h0 (fun e h => ⟨e, by rw [h]⟩) ?_
  intro a b ha hb h
  rw [ha, hb]
  refine vocabs_sim ho ?_ (stixUpdateVersions_alike _ _ _ (updateSchemalocs_alike _ (updateNamespaces_alike _ h)))
  intro v hv
  simp only [stix10Cls, List.mem_cons, List.not_mem_nil, or_false] at hv
  rcases hv with rfl | rfl
  · exact motivation10_listed
  · exact planning_listed

theorem stix10_blind {o o' : Options} (ho : Off o o') : BlindStep o o' stix10 where
  check t := stix10Check_node _ t
  same t := by simp only [stix10, stix10Check, ho.check]
  disallowed t := map_some_node (findAll_node _ stix10Disallowed_blind t)
  duplicates _ := rfl
  update _ _ e := stix10Update_sim ho e
  noRefuse t := noRefuse_stix10Update _ _

theorem stix101GetDisallowed_node {w : World} (hw : Outside w) (t : Node) :
    stix101GetDisallowed w (node t) = out (fun l => l.map ctx) (stix101GetDisallowed w t) := by
  simp only [stix101GetDisallowed]
  rw [findAll_node _ (stix101Disallowed_blind hw),
    findAll_node _ (show ∀ f ∈ stix101Cybox.disallowed, Blind f from cybox201Disallowed_blind)]
  cases findAll (stix101Disallowed w) t with
  | error x => rfl
  | ok a =>
    cases findAll stix101Cybox.disallowed t with
    | error x => rfl
    | ok b => simp [out]

theorem stix101GetDuplicates_node (t : Node) : stix101GetDuplicates (node t) = dups (stix101GetDuplicates t) := by
  simp only [stix101GetDuplicates, getDuplicates_node]
  exact dictUpdate_map (fun l : List Ctx => l.map ctx) _ _

theorem stix101Check_node {w : World} (hw : Outside w) (o : Options) (t : Node) :
    stix101Check w o (node t) = out (fun x => x) (stix101Check w o t) := by
  have hf : (match stix101GetDisallowed w (node t) with
      | .error x => .error x
      | .ok dis => if dis.isEmpty && (stix101GetDuplicates (node t)).isEmpty then .ok ()
        else .error (.update (some dis) (some (stix101GetDuplicates (node t)))) : Except Err Unit) =
      out (fun x => x) (match stix101GetDisallowed w t with
      | .error x => .error x
      | .ok dis => if dis.isEmpty && (stix101GetDuplicates t).isEmpty then .ok ()
        else .error (.update (some dis) (some (stix101GetDuplicates t))) : Except Err Unit) := by
    rw [stix101GetDisallowed_node hw, stix101GetDuplicates_node]
    cases stix101GetDisallowed w t with
    | error x => rfl
    | ok dis => exact refuse_node dis _
  simp only [stix101Check, stixCheckVersion_node, cyboxCheckVersion_node]
  cases o.checkVersions with
  | false => exact hf
  | true =>
    cases stixCheckVersion (stix101Cls w) t with
    | error x => rfl
    | ok _ =>
      cases cyboxCheckVersion stix101Cybox t with
      | error x => rfl
      | ok _ => exact hf

theorem translateContributors_ctx (c : Ctx) : translateContributors (ctx c) = out node (translateContributors c) := by
  have h : mapE translateContributor (nodes c.kids) = out (fun l => l.map node) (mapE translateContributor c.kids) := by
    rw [nodes_eq]
    refine mapE_map node node c.kids ?_
    intro n _
    cases n <;> rfl
  have hk : (ctx c).kids = nodes c.kids := rfl
  simp only [translateContributors, hk, h]
  cases mapE translateContributor c.kids with
  | error x => rfl
  | ok ks => simp only [out, newElem, node, nodes_eq]; rfl

theorem stix101Translatable_commutes : ∀ f ∈ [transContributors, transExploitTargets], Commutes f := by
  intro f hf
  simp only [List.mem_cons, List.not_mem_nil, or_false] at hf
  rcases hf with rfl | rfl
  · exact alike_of_ctx translateContributors_ctx
  · exact alike_of_ctx (fun c => rfl)

theorem stix101Update_sim (w : World) {o o' : Options} (ho : Off o o') {x y : Node} (e : node x = node y) :
    Sim node (stix101Update w o x) (stix101Update w o' y) := by
  simp only [stix101Update]
  have h0 : Sim node (cybox201Update stix101Cybox o x) (cybox201Update stix101Cybox o' y) := cybox201Update_sim ho _ _ e
  refine sim_elim h0 (fun e h => ⟨e, by rw [h]⟩) ?_
  intro a b ha hb h
  rw [ha, hb]
  dsimp only
  have h1 := sim_of_out (translateFields_alike (stix101Cls w).translatable stix101Translatable_commutes
    (stixUpdateVersions_alike (stix101Cls w) "2.1" "1.1" (updateSchemalocs_alike (stix101Cls w)
      (updateNamespaces_alike (stix101Cls w) h))))
  refine sim_elim h1 (fun e h => ⟨e, by rw [h]⟩) ?_
  intro a b ha hb h
  rw [ha, hb]
  dsimp only
  refine sim_elim (vocabs_sim ho (vs := (stix101Cls w).vocabs) ?_ h) (fun e h => ⟨e, by rw [h]⟩) ?_
  · intro v hv
    simp only [stix101Cls, List.mem_cons, List.not_mem_nil, or_false] at hv
    rcases hv with rfl | rfl
    · exact motivation101_listed
    · exact indicator_listed
  · intro a b ha hb h
    rw [ha, hb]
    refine optionals_sim ho ?_ h
    intro f hf
    simp only [stix101Cls, List.mem_singleton] at hf
    subst hf
    exact keepEmpty_blind rfl rfl

theorem stix101_blind {w : World} (hw : Outside w) {o o' : Options} (ho : Off o o') : BlindStep o o' (stix101 w) where
  check t := stix101Check_node hw _ t
  same t := by simp only [stix101, stix101Check, ho.check]
  disallowed t := map_some_node (stix101GetDisallowed_node hw t)
  duplicates t := congrArg some (stix101GetDuplicates_node t)
  update _ _ e := stix101Update_sim w ho e
  noRefuse t := noRefuse_stix101Update _ _ _

/-- Texts that look alike are equal, or both can be put between tags. -/
theorem texts_alike {s s' : Option String} (h : s.map (last corrections) = s'.map (last corrections)) :
    s = s' ∨ (xmlPlain (formatText s) = true ∧ xmlPlain (formatText s') = true) := by
  cases s with
  | none =>
    cases s' with
    | none => exact Or.inl rfl
    | some b => simp at h
  | some a =>
    cases s' with
    | none => simp at h
    | some b =>
      simp only [Option.map_some, Option.some.injEq] at h
      rcases last_corrections a with ha | ha <;> rcases last_corrections b with hb | hb
      · left; rw [← ha, ← hb, h]
      · right
        have := corrections_full _ hb
        refine ⟨?_, this.2.2.2.2.1⟩
        have e : a = last corrections b := by rw [← ha, h]
        rw [e]; exact this.2.2.2.2.2
      · right
        have := corrections_full _ ha
        refine ⟨this.2.2.2.2.1, ?_⟩
        have e : b = last corrections a := by rw [← hb, ← h]
        rw [e]; exact this.2.2.2.2.2
      · right
        exact ⟨(corrections_full _ ha).2.2.2.2.1, (corrections_full _ hb).2.2.2.2.1⟩

theorem sourceNode_node (tag : QName) (d d' : NsMap) (s : String) :
    node (sourceNode tag d d' s) = sourceNode tag d d' (last corrections s) := by
  have h1 : last corrections "\n            " = "\n            " := by decide +kernel
  have h2 : last corrections "\n                " = "\n                " := by decide +kernel
  simp only [sourceNode, node, nodes, elem, Option.map_some, h1, h2]
  rfl

theorem text_ctx {c c' : Ctx} (h : ctx c = ctx c') : c.e.text.map (last corrections) = c'.e.text.map (last corrections) := by
  have : (ctx c).e.text = (ctx c').e.text := by rw [h]
  exact this

theorem format_alike {s s' : Option String} (h : s.map (last corrections) = s'.map (last corrections)) :
    last corrections (formatText s) = last corrections (formatText s') := by
  cases s <;> cases s' <;> simp_all [formatText]

theorem translateCommonSource_alike (w : World) : Alike (translateCommonSource w) := by
  intro c c' h
  have ht := text_ctx h
  rcases texts_alike ht with h1 | ⟨h1, h2⟩
  · simp only [translateCommonSource, h1]
  · simp only [translateCommonSource, h1, h2, if_true, out, sourceNode_node, format_alike ht]

theorem translateSightingSource_alike (w : World) : Alike (translateSightingSource w) := by
  intro c c' h
  have ht := text_ctx h
  rcases texts_alike ht with h1 | ⟨h1, h2⟩
  · simp only [translateSightingSource, h1]
  · simp only [translateSightingSource, h1, h2, if_true, out, sourceNode_node, format_alike ht]

theorem stix11Update_sim (w : World) {o o' : Options} (ho : Off o o') {x y : Node} (e : node x = node y) :
    Sim node (stix11Update w o x) (stix11Update w o' y) := by
  simp only [stix11Update]
  refine sim_elim (sim_of_out (translateFields_alike (stix11Cls w).translatable ?_
    (stixUpdateVersions_alike (stix11Cls w) "2.1.1" "1.1.1" (updateSchemalocs_alike (stix11Cls w)
      (updateSchemalocs_alike stix11Cybox e))))) (fun e h => ⟨e, by rw [h]⟩) ?_
  · intro f hf
    simp only [stix11Cls, List.mem_cons, List.not_mem_nil, or_false] at hf
    rcases hf with rfl | rfl | rfl
    · exact translateCommonSource_alike w
    · exact translateSightingSource_alike w
    · exact alike_of_ctx (fun c => rfl)
  intro a b ha hb h
  rw [ha, hb]
  dsimp only
  refine sim_elim (vocabs_sim ho (vs := (stix11Cls w).vocabs) ?_ h) (fun e h => ⟨e, by rw [h]⟩) ?_
  · intro v hv
    simp only [stix11Cls, List.mem_singleton] at hv
    subst hv
    exact availability_listed
  · intro a b ha hb h
    rw [ha, hb]
    refine optionals_sim ho ?_ h
    intro f hf
    simp only [stix11Cls, List.mem_singleton] at hf
    subst hf
    exact ⟨keepEmpty_filter, by decide +kernel⟩

theorem stix11_blind (w : World) {o o' : Options} (ho : Off o o') : BlindStep o o' (stix11 w) where
  check t := versions_opts (stixCheckVersion_node _ t)
  same t := by simp only [stix11, stix11Check, ho.check]
  disallowed _ := rfl
  duplicates _ := rfl
  update _ _ e := stix11Update_sim w ho e
  noRefuse t := noRefuse_stix11Update _ _ _

theorem stix111_blind {o o' : Options} (ho : Off o o') : BlindStep o o' stix111 where
  check t := versions_opts (stixCheckVersion_node _ t)
  same t := by simp only [stix111, stix111Check, ho.check]
  disallowed _ := rfl
  duplicates _ := rfl
  update _ _ e := by
    simp only [stix111, stix111Update]
    refine vocabs_sim ho ?_ (stixUpdateVersions_alike _ _ _ (updateSchemalocs_alike _ e))
    intro v hv
    simp only [stix111Cls, List.mem_singleton] at hv
    subst hv
    exact discovery_listed
  noRefuse t := noRefuse_stix111Update _ _

theorem stix12_blind {o o' : Options} (ho : Off o o') : BlindStep o o' stix12 where
  check t := versions_opts (stixCheckVersion_node _ t)
  same t := by simp only [stix12, stix12Check, ho.check]
  disallowed _ := rfl
  duplicates t := congrArg some (getDuplicates_node _ t)
  update x y e := by
    simp only [stix12, stix12Update]
    apply sim_ok
    rw [← setRootVersion_node, ← setRootVersion_node, updateSchemalocs_alike _ (updateNamespaces_alike _ e)]
  noRefuse t := noRefuse_ok _

theorem stixUpdaters_blind {w : World} (hw : Outside w) {o o' : Options} (ho : Off o o') (v : String) (u : Updater)
    (h : assoc (stixUpdaters w) v = some u) : BlindStep o o' u := by
  simp only [stixUpdaters, assoc] at h
  repeat' split at h
  all_goals first
    | (cases h; exact stix10_blind ho)
    | (cases h; exact stix101_blind hw ho)
    | (cases h; exact stix11_blind w ho)
    | (cases h; exact stix111_blind ho)
    | (cases h; exact stix12_blind ho)
    | simp at h

end Fresh
end Ramrod

import Verif.Props.VocabChain
import Verif.Props.Texts
/-!
# Foreign content: C56
-/

namespace Ramrod

open Samples

/-! ## Statement -/

/-- Where the namespaces of the languages begin. -/
def ownPrefixes : List String :=
  ["http://stix.mitre.org/", "http://cybox.mitre.org/", "http://data-marking.mitre.org/", "http://docs.oasis-open.org/cti/ns/"]

/-- Does the namespace begin so? -/
def ownSpace (s : String) : Bool := ownPrefixes.any (fun p => p.toList.isPrefixOf s.toList)

/-- A name in no namespace, or in one that is not of the languages. -/
def foreignName (q : QName) : Bool :=
  match q.ns with
  | none => true
  | some s => !ownSpace s

/-- Does `x` occur in `s`? -/
def occursIn (x : List Char) : List Char → Bool
  | [] => x.isEmpty
  | c :: cs => x.isPrefixOf (c :: cs) || occursIn x cs

/-- An element with a foreign name, and not declared to be a controlled vocabulary or a generic test mechanism. -/
def foreignElem (e : Elem) : Bool :=
  foreignName e.tag && e.attrs.all (fun a =>
    !(decide (a.1 = ⟨some "http://www.w3.org/2001/XMLSchema-instance", "type"⟩) &&
      (occursIn "Vocab-".toList a.2.toList || occursIn "GenericTestMechanismType".toList a.2.toList)))

/-- An element without attributes and without text. -/
def bareElem (e : Elem) : Bool := e.attrs.isEmpty && (e.text.getD "").toList.all isSpace

/-- Foreign throughout, and with some text or attribute in it. -/
def foreignPart (n : Node) : Bool := n.elems.all (fun c => foreignElem c.e) && !n.elems.all (fun c => bareElem c.e)

/-- The foreign parts of a document below its root, with all their content, in document order. -/
def Node.foreignParts (t : Node) : List Node := (t.descs.map Ctx.node).filter foreignPart

/-- The fields whose content the CybOX 2.0.1 step replaces. -/
def replacedFields : List QName :=
  [⟨some "http://cybox.mitre.org/objects#HTTPSessionObject-2", "DNT"⟩,
   ⟨some "http://cybox.mitre.org/objects#HTTPSessionObject-2", "Vary"⟩,
   ⟨some "http://cybox.mitre.org/objects#HTTPSessionObject-2", "Refresh"⟩,
   ⟨some "http://cybox.mitre.org/objects#WinMailslotObject-2", "Handle"⟩]

/-- Is an element named `q` inside one named `p` replaced by another? -/
def ReplacedIn (p : Option QName) (q : QName) : Prop :=
  q ∈ replacedFields ∨
  (q = ⟨some "http://stix.mitre.org/common-1", "Source"⟩ ∧ ∃ x ∈ stringHolders, p = some x) ∨
  (q = ⟨some "http://stix.mitre.org/Indicator-2", "Source"⟩ ∧ p = some ⟨some "http://stix.mitre.org/Indicator-2", "Sighting"⟩)

/-- No foreign element stands inside an element that is replaced, or as a contributor. -/
def Sheltered (t : Node) : Prop := ∀ c ∈ t.elems,
  (ReplacedIn c.anc.head? c.e.tag → ∀ d ∈ c.node.elems, foreignName d.e.tag = false) ∧
  (c.anc.head? = some ⟨some "http://stix.mitre.org/common-1", "Contributors"⟩ → foreignName c.e.tag = false)

/-- The text of foreign elements inside object properties has no comma, and none that is escaped. -/
def CommasOwn (t : Node) : Prop := ∀ c ∈ t.elems, foreignName c.e.tag = true →
  ⟨some "http://cybox.mitre.org/cybox-2", "Properties"⟩ ∈ c.anc →
  ∀ s, c.e.text = some s → ',' ∉ s.toList ∧ ¬ "&comma;".toList <:+: s.toList

/-! ## Helpers: names -/

/-- The prefixes as lists of characters. -/
def ownChars : List (List Char) :=
  [['h', 't', 't', 'p', ':', '/', '/', 's', 't', 'i', 'x', '.', 'm', 'i', 't', 'r', 'e', '.', 'o', 'r', 'g', '/'],
   ['h', 't', 't', 'p', ':', '/', '/', 'c', 'y', 'b', 'o', 'x', '.', 'm', 'i', 't', 'r', 'e', '.', 'o', 'r', 'g', '/'],
   ['h', 't', 't', 'p', ':', '/', '/', 'd', 'a', 't', 'a', '-', 'm', 'a', 'r', 'k', 'i', 'n', 'g', '.', 'm', 'i', 't', 'r', 'e', '.',
    'o', 'r', 'g', '/'],
   ['h', 't', 't', 'p', ':', '/', '/', 'd', 'o', 'c', 's', '.', 'o', 'a', 's', 'i', 's', '-', 'o', 'p', 'e', 'n', '.', 'o', 'r', 'g',
    '/', 'c', 't', 'i', '/', 'n', 's', '/']]

theorem ownPrefixes_eq : ownPrefixes = ownChars.map String.ofList := rfl

theorem ownSpace_eq (s : String) : ownSpace s = ownChars.any (fun p => p.isPrefixOf s.toList) := by
  unfold ownSpace
  rw [ownPrefixes_eq, List.any_map]
  congr 1
  funext p
  simp only [Function.comp, String.toList_ofList]

theorem ownSpace_ofList (l : List Char) : ownSpace (String.ofList l) = ownChars.any (fun p => p.isPrefixOf l) := by
  rw [ownSpace_eq, String.toList_ofList]

theorem occursIn_ofList (x l : List Char) (h : occursIn x l = true) : occursIn (String.ofList x).toList (String.ofList l).toList = true := by
  rw [String.toList_ofList, String.toList_ofList]
  exact h

theorem own_lit {l : List Char} (n : String) (h : ownChars.any (fun p => p.isPrefixOf l) = true) :
    foreignName ⟨some (String.ofList l), n⟩ = false := by
  show (!ownSpace (String.ofList l)) = false
  rw [ownSpace_ofList, h]
  rfl

theorem prefix_append {p l : List Char} (h : p.isPrefixOf l = true) (r : List Char) : p.isPrefixOf (l ++ r) = true :=
  List.isPrefixOf_iff_prefix.2 ((List.isPrefixOf_iff_prefix.1 h).trans (List.prefix_append l r))

theorem ownSpace_append {s : String} (h : ownSpace s = true) (r : String) : ownSpace (s ++ r) = true := by
  rw [ownSpace_eq, List.any_eq_true] at h ⊢
  obtain ⟨p, hp, h⟩ := h
  rw [String.toList_append]
  exact ⟨p, hp, prefix_append h _⟩

theorem own_obj (x n : String) : foreignName (objName x n) = false := by
  show (!ownSpace ("http://cybox.mitre.org/objects#" ++ x ++ "Object-2")) = false
  rw [ownSpace_append (ownSpace_append ((ownSpace_ofList _).trans (by decide +kernel)) _)]
  rfl

theorem own_optional21 : ∀ q ∈ optional21, foreignName q = false := by
  unfold optional21
  repeat' (first | exact List.forall_mem_nil _ | refine List.forall_mem_cons.2 ⟨own_obj _ _, ?_⟩)

/-- Proves that literal names are of the languages. -/
macro "own_name" : tactic => `(tactic| exact own_lit _ (by decide +kernel))

/-- Proves that the names of a list are of the languages. -/
macro "own_names" : tactic => `(tactic|
  repeat' (first | exact List.forall_mem_nil _ | refine List.forall_mem_cons.2 ⟨by own_name, ?_⟩))

/-- Proves that the namespaces of a list are of the languages. -/
macro "own_spaces" : tactic => `(tactic|
  repeat' (first | exact List.forall_mem_nil _ | refine List.forall_mem_cons.2 ⟨(ownSpace_ofList _).trans (by decide +kernel), ?_⟩))

/-! ## Helpers: parts -/

mutual
/-- The nodes in `t` that satisfy `p`. -/
def Node.picks (p : Node → Bool) : Node → List Node
  | .other _ _ => []
  | .elem e ks => (if p (.elem e ks) then [.elem e ks] else []) ++ Node.pickss p ks
/-- The nodes in a list that satisfy `p`. -/
def Node.pickss (p : Node → Bool) : List Node → List Node
  | [] => []
  | k :: ks => k.picks p ++ Node.pickss p ks
end

mutual
theorem picks_walk (p : Node → Bool) (pos : Pos) (env : NsMap) (anc : List QName) : ∀ t : Node,
    ((t.walk pos env anc).map Ctx.node).filter p = t.picks p
  | .other _ _ => by simp [Node.walk, Node.picks]
  | .elem e ks => by
    simp only [Node.walk, Node.picks, List.map_cons, List.filter_cons]
    rw [picks_walks p pos 0 _ _ ks]
    show (if p (.elem e ks) = true then _ else _) = _
    split <;> simp [Ctx.node]
theorem picks_walks (p : Node → Bool) (pos : Pos) (i : Nat) (env : NsMap) (anc : List QName) : ∀ ks : List Node,
    ((Node.walks pos i env anc ks).map Ctx.node).filter p = Node.pickss p ks
  | [] => by simp [Node.walks, Node.pickss]
  | k :: ks => by
    simp only [Node.walks, Node.pickss, List.map_append, List.filter_append]
    rw [picks_walk p _ _ _ k, picks_walks p _ _ _ _ ks]
end

theorem parts_eq (e : Elem) (ks : List Node) : (Node.elem e ks).foreignParts = Node.pickss foreignPart ks := by
  unfold Node.foreignParts Node.descs Node.elems
  simp only [Node.walk, List.tail_cons]
  exact picks_walks _ _ _ _ _ ks

theorem parts_other (c : String) (s : Option String) : (Node.other c s).foreignParts = [] := by
  simp [Node.foreignParts, Node.descs, Node.elems, Node.walk]

/-- Foreign, as a proposition. -/
def Alien (e : Elem) : Prop := foreignElem e = true
/-- In a namespace of the languages. -/
def OwnElem (e : Elem) : Prop := foreignName e.tag = false

theorem alien_name {e : Elem} (h : Alien e) : foreignName e.tag = true := by
  unfold Alien foreignElem at h
  simp only [Bool.and_eq_true] at h
  exact h.1

theorem alien_not_own {e : Elem} (h : Alien e) : ¬ OwnElem e := by
  intro h'
  rw [OwnElem, alien_name h] at h'
  cases h'

theorem bareElem_iff {e : Elem} : bareElem e = true ↔ Bare e := by
  unfold bareElem Bare
  simp only [Bool.and_eq_true, List.isEmpty_iff, List.all_eq_true]
  cases e.text with
  | none => simp
  | some s => simp

theorem part_iff {n : Node} : foreignPart n = true ↔ n.All Alien ∧ ¬ n.All Bare := by
  unfold foreignPart
  rw [all_elems, all_elems, Bool.and_eq_true, Bool.not_eq_true', ← Bool.not_eq_true]
  simp only [List.all_eq_true, bareElem_iff]
  exact Iff.rfl

theorem picks_head (p : Node → Bool) (e : Elem) (ks : List Node) (h : p (.elem e ks) = false) :
    (Node.elem e ks).picks p = Node.pickss p ks := by simp [Node.picks, h]

theorem pickss_sub (p : Node → Bool) (e : Elem) (ks : List Node) : (Node.pickss p ks).Sublist ((Node.elem e ks).picks p) := by
  simp only [Node.picks]
  exact List.sublist_append_right _ _

mutual
theorem picks_none {A : Elem → Prop} (h : ∀ n, foreignPart n = true → ¬ n.All A) : ∀ t : Node, t.All A → t.picks foreignPart = []
  | .other _ _, _ => rfl
  | .elem e ks, ht => by
    rw [picks_head _ _ _ (by
      cases hp : foreignPart (.elem e ks) with
      | false => rfl
      | true => exact absurd ht (h _ hp))]
    exact pickss_none h ks ht.2
theorem pickss_none {A : Elem → Prop} (h : ∀ n, foreignPart n = true → ¬ n.All A) : ∀ ks : List Node, Node.Alls A ks →
    Node.pickss foreignPart ks = []
  | [], _ => rfl
  | k :: ks, ht => by
    simp only [Node.pickss]
    rw [picks_none h k ht.1, pickss_none h ks ht.2]
    rfl
end

theorem picks_bare {t : Node} (h : t.All Bare) : t.picks foreignPart = [] :=
  picks_none (fun _ hp => (part_iff.1 hp).2) t h

/-- A foreign part is an element. -/
theorem part_elem {n : Node} (h : foreignPart n = true) : ∃ e ks, n = .elem e ks := by
  cases n with
  | elem e ks => exact ⟨e, ks, rfl⟩
  | other c s => exact absurd (show (Node.other c s).All Bare from trivial) (part_iff.1 h).2

theorem picks_own {t : Node} (h : t.All OwnElem) : t.picks foreignPart = [] := by
  refine picks_none (fun n hp hn => ?_) t h
  obtain ⟨e, ks, rfl⟩ := part_elem hp
  exact alien_not_own (part_iff.1 hp).1.1 hn.1

/-! ### Edits -/

mutual
theorem alien_mapCtx {F : Ctx → Elem} {pos : Pos} {env : NsMap} {anc : List QName} : ∀ t : Node, t.All Alien →
    (∀ c ∈ t.walk pos env anc, Alien c.e → F c = c.e) → t.mapCtx F pos env anc = t
  | .other _ _, _, _ => by simp [Node.mapCtx]
  | .elem e ks, ht, h => by
    simp only [Node.mapCtx]
    rw [h ⟨pos, e.decls ++ env, anc, e, ks⟩ (by simp [Node.walk]) ht.1,
      aliens_mapCtxs ks ht.2 (fun c hc => h c (by simp [Node.walk, hc]))]
theorem aliens_mapCtxs {F : Ctx → Elem} {pos : Pos} {i : Nat} {env : NsMap} {anc : List QName} : ∀ ks : List Node,
    Node.Alls Alien ks → (∀ c ∈ Node.walks pos i env anc ks, Alien c.e → F c = c.e) → Node.mapCtxs F pos i env anc ks = ks
  | [], _, _ => by simp [Node.mapCtxs]
  | k :: ks, ht, h => by
    simp only [Node.mapCtxs]
    rw [alien_mapCtx k ht.1 (fun c hc => h c (by simp [Node.walks, hc])),
      aliens_mapCtxs ks ht.2 (fun c hc => h c (by simp [Node.walks, hc]))]
end

mutual
theorem picks_mapCtx {F : Ctx → Elem} {pos : Pos} {env : NsMap} {anc : List QName} : ∀ t : Node,
    (∀ c ∈ t.walk pos env anc, Alien c.e → F c = c.e) → (t.picks foreignPart).Sublist ((t.mapCtx F pos env anc).picks foreignPart)
  | .other _ _, _ => by simp [Node.mapCtx]
  | .elem e ks, h => by
    cases hp : foreignPart (.elem e ks) with
    | true => rw [alien_mapCtx _ (part_iff.1 hp).1 h]; exact List.Sublist.refl _
    | false =>
      rw [picks_head _ _ _ hp]
      simp only [Node.mapCtx]
      exact (pickss_mapCtxs ks (fun c hc => h c (by simp [Node.walk, hc]))).trans (pickss_sub _ _ _)
theorem pickss_mapCtxs {F : Ctx → Elem} {pos : Pos} {i : Nat} {env : NsMap} {anc : List QName} : ∀ ks : List Node,
    (∀ c ∈ Node.walks pos i env anc ks, Alien c.e → F c = c.e) →
    (Node.pickss foreignPart ks).Sublist (Node.pickss foreignPart (Node.mapCtxs F pos i env anc ks))
  | [], _ => by simp [Node.mapCtxs]
  | k :: ks, h => by
    simp only [Node.mapCtxs, Node.pickss]
    exact (picks_mapCtx k (fun c hc => h c (by simp [Node.walks, hc]))).append
      (pickss_mapCtxs ks (fun c hc => h c (by simp [Node.walks, hc])))
end

theorem under_root {e : Elem} {ks : List Node} {c : Ctx} (hc : c ∈ Node.walks [] 0 (e.decls ++ []) [e.tag] ks) :
    c ∈ (Node.elem e ks).elems ∧ c.anc ≠ [] := by
  refine ⟨?_, fun h => ?_⟩
  · unfold Node.elems
    simp only [Node.walk]
    exact List.mem_cons_of_mem _ hc
  · have := walks_anc_ne hc
    rw [h] at this
    cases this

/-- The foreign parts survive, in order. -/
def PartsKept (t t' : Node) : Prop := t.foreignParts.Sublist t'.foreignParts

theorem PartsKept.trans {a b c : Node} (h : PartsKept a b) (h' : PartsKept b c) : PartsKept a c := List.Sublist.trans h h'
theorem PartsKept.refl (a : Node) : PartsKept a a := List.Sublist.refl _

theorem parts_edit {F : Ctx → Elem} {t : Node} (h : ∀ c ∈ t.elems, c.anc ≠ [] → Alien c.e → F c = c.e) :
    PartsKept t (t.edit F) := by
  cases t with
  | other _ _ => simp [PartsKept, parts_other]
  | elem e ks =>
    simp only [PartsKept, Node.mapCtx, parts_eq]
    exact pickss_mapCtxs ks (fun c hc => h c (under_root hc).1 (under_root hc).2)

/-! ### Replacements -/

mutual
theorem alien_substCtx {R : Ctx → Option Node} {pos : Pos} {env : NsMap} {anc : List QName} : ∀ t : Node, t.All Alien →
    (∀ c ∈ t.walk pos env anc, ∀ n, R c = some n → ¬ Alien c.e) → t.substCtx R pos env anc = t
  | .other _ _, _, _ => by simp [Node.substCtx]
  | .elem e ks, ht, h => by
    simp only [Node.substCtx]
    split
    · next n hn => exact absurd ht.1 (h ⟨pos, e.decls ++ env, anc, e, ks⟩ (by simp [Node.walk]) n hn)
    · rw [aliens_substCtxs ks ht.2 (fun c hc => h c (by simp [Node.walk, hc]))]
theorem aliens_substCtxs {R : Ctx → Option Node} {pos : Pos} {i : Nat} {env : NsMap} {anc : List QName} : ∀ ks : List Node,
    Node.Alls Alien ks → (∀ c ∈ Node.walks pos i env anc ks, ∀ n, R c = some n → ¬ Alien c.e) →
    Node.substCtxs R pos i env anc ks = ks
  | [], _, _ => by simp [Node.substCtxs]
  | k :: ks, ht, h => by
    simp only [Node.substCtxs]
    rw [alien_substCtx k ht.1 (fun c hc => h c (by simp [Node.walks, hc])),
      aliens_substCtxs ks ht.2 (fun c hc => h c (by simp [Node.walks, hc]))]
end

mutual
theorem picks_substCtx {R : Ctx → Option Node} {pos : Pos} {env : NsMap} {anc : List QName} : ∀ t : Node,
    (∀ c ∈ t.walk pos env anc, ∀ n, R c = some n → ¬ Alien c.e ∧ (c.node.picks foreignPart).Sublist (n.picks foreignPart)) →
    (t.picks foreignPart).Sublist ((t.substCtx R pos env anc).picks foreignPart)
  | .other _ _, _ => by simp [Node.substCtx]
  | .elem e ks, h => by
    cases hp : foreignPart (.elem e ks) with
    | true => rw [alien_substCtx _ (part_iff.1 hp).1 (fun c hc n hn => (h c hc n hn).1)]; exact List.Sublist.refl _
    | false =>
      simp only [Node.substCtx]
      split
      · next n hn => exact (h ⟨pos, e.decls ++ env, anc, e, ks⟩ (by simp [Node.walk]) n hn).2
      · rw [picks_head _ _ _ hp]
        exact (pickss_substCtxs ks (fun c hc => h c (by simp [Node.walk, hc]))).trans (pickss_sub _ _ _)
theorem pickss_substCtxs {R : Ctx → Option Node} {pos : Pos} {i : Nat} {env : NsMap} {anc : List QName} : ∀ ks : List Node,
    (∀ c ∈ Node.walks pos i env anc ks, ∀ n, R c = some n → ¬ Alien c.e ∧ (c.node.picks foreignPart).Sublist (n.picks foreignPart)) →
    (Node.pickss foreignPart ks).Sublist (Node.pickss foreignPart (Node.substCtxs R pos i env anc ks))
  | [], _ => by simp [Node.substCtxs]
  | k :: ks, h => by
    simp only [Node.substCtxs, Node.pickss]
    exact (picks_substCtx k (fun c hc => h c (by simp [Node.walks, hc]))).append
      (pickss_substCtxs ks (fun c hc => h c (by simp [Node.walks, hc])))
end

theorem parts_replaced {Sel : Ctx → Prop} {Q : Ctx → Node → Prop} {t t' : Node} (h : Replaced Sel Q t t')
    (hs : ∀ c ∈ t.elems, c.anc ≠ [] → Sel c → OwnElem c.e)
    (hq : ∀ c ∈ t.elems, c.anc ≠ [] → Sel c → ∀ n, Q c n → (c.node.picks foreignPart).Sublist (n.picks foreignPart)) :
    PartsKept t t' := by
  obtain ⟨R, h1, h2, rfl⟩ := h
  cases t with
  | other _ _ => simp [PartsKept, parts_other]
  | elem e ks =>
    have : (Node.elem e ks).replaceBy R =
        .elem e (Node.substCtxs (fun c => if c.anc.isEmpty then none else R c) [] 0 (e.decls ++ []) [e.tag] ks) := by
      simp [Node.substCtx]
    rw [this]
    simp only [PartsKept, parts_eq]
    refine pickss_substCtxs ks (fun c hc n hn => ?_)
    have hc' : c ∈ (Node.elem e ks).elems := (under_root hc).1
    obtain ⟨g1, g2, g3⟩ := Replaced.select h1 h2 hc' hn
    exact ⟨fun ha => alien_not_own ha (hs c hc' g1 g2), hq c hc' g1 g2 n g3⟩

/-! ### Removals -/

mutual
theorem alien_pruneCtx {S : Ctx → Bool} {pos : Pos} {env : NsMap} {anc : List QName} : ∀ t : Node, t.All Alien →
    (∀ c ∈ t.walk pos env anc, Alien c.e → ∀ i e ks, c.kids[i]? = some (.elem e ks) → Alien e →
      S ⟨i :: c.pos, e.decls ++ c.env, c.e.tag :: c.anc, e, ks⟩ = false) → t.pruneCtx S pos env anc = t
  | .other _ _, _, _ => by simp [Node.pruneCtx]
  | .elem e ks, ht, h => by
    simp only [Node.pruneCtx]
    rw [aliens_pruneCtxs ks ht.2 (fun j e' ks' hj ha => by
        rw [Nat.zero_add]
        exact h ⟨pos, e.decls ++ env, anc, e, ks⟩ (by simp [Node.walk]) ht.1 j e' ks' hj ha)
      (fun c hc => h c (by simp [Node.walk, hc]))]
theorem aliens_pruneCtxs {S : Ctx → Bool} {pos : Pos} {i : Nat} {env : NsMap} {anc : List QName} : ∀ ks : List Node,
    Node.Alls Alien ks →
    (∀ j e ks', ks[j]? = some (.elem e ks') → Alien e → S ⟨(i + j) :: pos, e.decls ++ env, anc, e, ks'⟩ = false) →
    (∀ c ∈ Node.walks pos i env anc ks, Alien c.e → ∀ i e ks, c.kids[i]? = some (.elem e ks) → Alien e →
      S ⟨i :: c.pos, e.decls ++ c.env, c.e.tag :: c.anc, e, ks⟩ = false) → Node.pruneCtxs S pos i env anc ks = ks
  | [], _, _, _ => by simp [Node.pruneCtxs]
  | .other a b :: ks, ht, h0, h => by
    simp only [Node.pruneCtxs]
    rw [aliens_pruneCtxs ks ht.2 (fun j e' ks' hj ha => by
      have := h0 (j + 1) e' ks' (by simpa using hj) ha
      rwa [show i + (j + 1) = i + 1 + j by omega] at this) (fun c hc => h c (by simp [Node.walks, hc]))]
  | .elem e es :: ks, ht, h0, h => by
    simp only [Node.pruneCtxs]
    have hS : S ⟨i :: pos, e.decls ++ env, anc, e, es⟩ = false := h0 0 e es (by simp) ht.1.1
    rw [hS, aliens_pruneCtxs ks ht.2 (fun j e' ks' hj ha => by
      have := h0 (j + 1) e' ks' (by simpa using hj) ha
      rwa [show i + (j + 1) = i + 1 + j by omega] at this) (fun c hc => h c (by simp [Node.walks, hc])),
      alien_pruneCtx (.elem e es) ht.1 (fun c hc => h c (by simp [Node.walks, hc]))]
    rfl
end

mutual
theorem picks_pruneCtx {S : Ctx → Bool} {pos : Pos} {env : NsMap} {anc : List QName} : ∀ t : Node,
    (∀ c ∈ t.walk pos env anc, S c = true → c.node.All Bare) →
    (∀ c ∈ t.walk pos env anc, Alien c.e → ∀ i e ks, c.kids[i]? = some (.elem e ks) → Alien e →
      S ⟨i :: c.pos, e.decls ++ c.env, c.e.tag :: c.anc, e, ks⟩ = false) →
    (t.picks foreignPart).Sublist ((t.pruneCtx S pos env anc).picks foreignPart)
  | .other _ _, _, _ => by simp [Node.pruneCtx]
  | .elem e ks, hb, h => by
    cases hp : foreignPart (.elem e ks) with
    | true => rw [alien_pruneCtx _ (part_iff.1 hp).1 h]; exact List.Sublist.refl _
    | false =>
      rw [picks_head _ _ _ hp]
      simp only [Node.pruneCtx]
      exact (pickss_pruneCtxs ks (fun c hc => hb c (by simp [Node.walk, hc])) (fun c hc => h c (by simp [Node.walk, hc]))).trans
        (pickss_sub _ _ _)
theorem pickss_pruneCtxs {S : Ctx → Bool} {pos : Pos} {i : Nat} {env : NsMap} {anc : List QName} : ∀ ks : List Node,
    (∀ c ∈ Node.walks pos i env anc ks, S c = true → c.node.All Bare) →
    (∀ c ∈ Node.walks pos i env anc ks, Alien c.e → ∀ i e ks, c.kids[i]? = some (.elem e ks) → Alien e →
      S ⟨i :: c.pos, e.decls ++ c.env, c.e.tag :: c.anc, e, ks⟩ = false) →
    (Node.pickss foreignPart ks).Sublist (Node.pickss foreignPart (Node.pruneCtxs S pos i env anc ks))
  | [], _, _ => by simp [Node.pruneCtxs]
  | .other a b :: ks, hb, h => by
    simp only [Node.pruneCtxs, Node.pickss]
    exact (List.Sublist.refl _).append
      (pickss_pruneCtxs ks (fun c hc => hb c (by simp [Node.walks, hc])) (fun c hc => h c (by simp [Node.walks, hc])))
  | .elem e es :: ks, hb, h => by
    have ih := pickss_pruneCtxs (S := S) (pos := pos) (i := i + 1) (env := env) (anc := anc) ks
      (fun c hc => hb c (by simp [Node.walks, hc])) (fun c hc => h c (by simp [Node.walks, hc]))
    simp only [Node.pruneCtxs]
    split
    · next hS =>
      have : (Node.elem e es).All Bare := hb ⟨i :: pos, e.decls ++ env, anc, e, es⟩ (by simp [Node.walks, Node.walk]) hS
      simp only [Node.pickss]
      rw [picks_bare this]
      exact ih
    · simp only [Node.pickss]
      exact (picks_pruneCtx (.elem e es) (fun c hc => hb c (by simp [Node.walks, hc])) (fun c hc => h c (by simp [Node.walks, hc]))).append ih
end

theorem parts_gone {L : Node → Ctx → Prop} {t t' : Node} (h : OptionalsGone L t t')
    (hL : ∀ c ∈ t.elems, c.anc ≠ [] → ∀ d ∈ t.elems, ∀ i, d.ChildOf i c → L t d → Alien c.e → ¬ Alien d.e) : PartsKept t t' := by
  obtain ⟨S, hS, rfl⟩ := h
  cases t with
  | other _ _ => simp [PartsKept, parts_other]
  | elem e ks =>
    have : (Node.elem e ks).without S = .elem e (Node.pruneCtxs S [] 0 (e.decls ++ []) [e.tag] ks) := by simp [Node.pruneCtx]
    rw [this]
    simp only [PartsKept, parts_eq]
    refine pickss_pruneCtxs ks (fun c hc hs => ?_) (fun c hc ha i e' ks' hk ha' => ?_)
    · exact ((hS c (under_root hc).1).1 hs).2.2
    · have hc' : c ∈ (Node.elem e ks).elems := (under_root hc).1
      have hd := walk_child (.elem e ks) c hc' i e' ks' hk
      cases hs : S ⟨i :: c.pos, e'.decls ++ c.env, c.e.tag :: c.anc, e', ks'⟩ with
      | false => rfl
      | true => exact absurd ha' (hL c hc' (under_root hc).2 _ hd i ⟨rfl, rfl, rfl, hk⟩ ((hS _ hd).1 hs).2.1 ha)

/-! ### Guards -/

/-- Names that decide what is replaced. -/
def roleNames : List QName :=
  ⟨some "http://stix.mitre.org/common-1", "Contributors"⟩ :: ⟨some "http://stix.mitre.org/common-1", "Source"⟩ ::
  ⟨some "http://stix.mitre.org/Indicator-2", "Source"⟩ :: ⟨some "http://stix.mitre.org/Indicator-2", "Sighting"⟩ ::
  (replacedFields ++ stringHolders)

mutual
/-- `Sheltered` for a node whose parent is named `p`. -/
def Node.Fit (p : Option QName) : Node → Prop
  | .other _ _ => True
  | .elem e ks => (ReplacedIn p e.tag → (Node.elem e ks).All OwnElem) ∧
    (p = some ⟨some "http://stix.mitre.org/common-1", "Contributors"⟩ → OwnElem e) ∧ Node.Fits (some e.tag) ks
/-- `Sheltered` for children of an element named `p`. -/
def Node.Fits (p : Option QName) : List Node → Prop
  | [] => True
  | k :: ks => k.Fit p ∧ Node.Fits p ks
end

theorem fits_iff {p : Option QName} : ∀ {ks : List Node}, Node.Fits p ks ↔ ∀ k ∈ ks, k.Fit p
  | [] => by simp [Node.Fits]
  | k :: ks => by simp [Node.Fits, fits_iff (ks := ks)]

mutual
theorem fit_walk {pos : Pos} {env : NsMap} {anc : List QName} : ∀ t : Node,
    (∀ c ∈ t.walk pos env anc, (ReplacedIn c.anc.head? c.e.tag → ∀ d ∈ c.node.elems, foreignName d.e.tag = false) ∧
      (c.anc.head? = some ⟨some "http://stix.mitre.org/common-1", "Contributors"⟩ → foreignName c.e.tag = false)) → t.Fit anc.head?
  | .other _ _, _ => trivial
  | .elem e ks, h => by
    have h0 := h ⟨pos, e.decls ++ env, anc, e, ks⟩ (by simp [Node.walk])
    exact ⟨fun hr => all_elems.2 (h0.1 hr), h0.2,
      fits_walks (pos := pos) (i := 0) (env := e.decls ++ env) (anc := e.tag :: anc) ks (fun c hc => h c (by
        simp only [Node.walk, List.mem_cons]; exact Or.inr hc))⟩
theorem fits_walks {pos : Pos} {i : Nat} {env : NsMap} {anc : List QName} : ∀ ks : List Node,
    (∀ c ∈ Node.walks pos i env anc ks, (ReplacedIn c.anc.head? c.e.tag → ∀ d ∈ c.node.elems, foreignName d.e.tag = false) ∧
      (c.anc.head? = some ⟨some "http://stix.mitre.org/common-1", "Contributors"⟩ → foreignName c.e.tag = false)) → Node.Fits anc.head? ks
  | [], _ => trivial
  | k :: ks, h => ⟨fit_walk k (fun c hc => h c (by simp only [Node.walks, List.mem_append]; exact Or.inl hc)),
      fits_walks ks (fun c hc => h c (by simp only [Node.walks, List.mem_append]; exact Or.inr hc))⟩
end

theorem fit_of {t : Node} (h : Sheltered t) : t.Fit none := fit_walk (pos := []) (env := []) (anc := []) t h

mutual
theorem fit_own {p : Option QName} : ∀ {t : Node}, t.All OwnElem → t.Fit p
  | .other _ _, _ => trivial
  | .elem _ _, h => ⟨fun _ => h, fun _ => h.1, fits_own h.2⟩
theorem fits_own {p : Option QName} : ∀ {ks : List Node}, Node.Alls OwnElem ks → Node.Fits p ks
  | [], _ => trivial
  | _ :: _, h => ⟨fit_own h.1, fits_own h.2⟩
end

/-- What is replaced below `p'` is replaced below `p` too. -/
def Narrower (p p' : Option QName) : Prop := ∀ x ∈ roleNames, p' = some x → p = some x

theorem replacedIn_narrow {p p' : Option QName} {q q' : QName} (hp : Narrower p p') (hq : q' ∈ roleNames → q' = q)
    (h : ReplacedIn p' q') : ReplacedIn p q := by
  rcases h with h | ⟨rfl, x, hx, rfl⟩ | ⟨rfl, rfl⟩
  · rw [← hq (by simp only [roleNames, List.mem_cons, List.mem_append]; simp [h])]
    exact Or.inl h
  · rw [← hq (by simp [roleNames])]
    exact Or.inr (Or.inl ⟨rfl, x, hx, hp x (by simp only [roleNames, List.mem_cons, List.mem_append]; simp [hx]) rfl⟩)
  · rw [← hq (by simp [roleNames])]
    exact Or.inr (Or.inr ⟨rfl, hp _ (by simp [roleNames]) rfl⟩)

theorem narrower_refl (p : Option QName) : Narrower p p := fun _ _ h => h
theorem narrower_not {p : Option QName} {q : QName} (h : q ∉ roleNames) : Narrower p (some q) := fun x hx e => by
  cases e; exact absurd hx h

/-- An edit of an element that makes no element replaced or foreign. -/
def RoleKept (e e' : Elem) : Prop := (e'.tag ∈ roleNames → e'.tag = e.tag) ∧ (OwnElem e → OwnElem e')

theorem roleKept_tag {e e' : Elem} (h : e'.tag = e.tag) : RoleKept e e' :=
  ⟨fun _ => h, fun h' => by unfold OwnElem at h' ⊢; rw [h]; exact h'⟩

mutual
theorem fit_rel {p p' : Option QName} (hp : Narrower p p') : ∀ {a b : Node}, Node.Rel RoleKept a b → a.Fit p → b.Fit p'
  | .other _ _, b, h, _ => by cases b <;> first | trivial | cases h
  | .elem e ks, .other _ _, h, _ => trivial
  | .elem e ks, .elem e' ks', h, hf => by
    have hr : Node.Rel RoleKept (.elem e ks) (.elem e' ks') := h
    refine ⟨fun hR => rel_all (fun _ _ h => h.2) hr (hf.1 (replacedIn_narrow hp h.1.1 hR)), fun hc => ?_, ?_⟩
    · exact h.1.2 (hf.2.1 (hp _ (by simp [roleNames]) hc))
    · refine fits_rel (p := some e.tag) (fun x hx e1 => ?_) h.2 hf.2.2
      have e2 : e'.tag = x := Option.some.inj e1
      rw [← h.1.1 (by rw [e2]; exact hx), e2]
theorem fits_rel {p p' : Option QName} (hp : Narrower p p') : ∀ {a b : List Node}, Node.Rels RoleKept a b → Node.Fits p a → Node.Fits p' b
  | [], [], _, _ => trivial
  | _ :: _, _ :: _, h, hf => ⟨fit_rel hp h.1 hf.1, fits_rel hp h.2 hf.2⟩
  | [], _ :: _, h, _ => by cases h
  | _ :: _, [], h, _ => trivial
end

theorem rels_refl : ∀ ks : List Node, Node.Rels RoleKept ks ks
  | [] => trivial
  | k :: ks => ⟨rel_refl (fun _ => roleKept_tag rfl) k, rels_refl ks⟩

theorem fit_narrow {p p' : Option QName} (hp : Narrower p p') {t : Node} (h : t.Fit p) : t.Fit p' :=
  fit_rel hp (rel_refl (fun _ => roleKept_tag rfl) t) h

theorem fit_edit {F : Ctx → Elem} (hF : ∀ c, RoleKept c.e (F c)) {t : Node} (h : t.Fit none) : (t.edit F).Fit none :=
  fit_rel (narrower_refl _) (rel_mapCtx hF [] [] [] t) h

mutual
theorem fit_pruneCtx {S : Ctx → Bool} {pos : Pos} {env : NsMap} {anc : List QName} {p : Option QName} : ∀ {t : Node}, t.Fit p →
    (t.pruneCtx S pos env anc).Fit p
  | .other _ _, _ => by simp [Node.pruneCtx, Node.Fit]
  | .elem e ks, h => by
    have hp := fun (h : (Node.elem e ks).All OwnElem) => all_pruneCtx (S := S) (pos := pos) (env := env) (anc := anc) _ h
    simp only [Node.pruneCtx] at hp ⊢
    exact ⟨fun hr => hp (h.1 hr), h.2.1, fits_pruneCtxs h.2.2⟩
theorem fits_pruneCtxs {S : Ctx → Bool} {pos : Pos} {i : Nat} {env : NsMap} {anc : List QName} {p : Option QName} :
    ∀ {ks : List Node}, Node.Fits p ks → Node.Fits p (Node.pruneCtxs S pos i env anc ks)
  | [], _ => by simp [Node.pruneCtxs, Node.Fits]
  | .other a b :: ks, h => by
    simp only [Node.pruneCtxs]
    exact ⟨trivial, fits_pruneCtxs h.2⟩
  | .elem e es :: ks, h => by
    simp only [Node.pruneCtxs]
    split
    · exact fits_pruneCtxs h.2
    · exact ⟨fit_pruneCtx h.1, fits_pruneCtxs h.2⟩
end

mutual
theorem fit_substCtx {R : Ctx → Option Node} {pos : Pos} {env : NsMap} {anc : List QName} : ∀ {t : Node},
    (∀ c ∈ t.walk pos env anc, ∀ n, R c = some n → (c.node.Fit c.anc.head? → n.Fit c.anc.head?) ∧ (c.node.All OwnElem → n.All OwnElem)) →
    t.Fit anc.head? → (t.substCtx R pos env anc).Fit anc.head?
  | .other _ _, _, _ => by simp [Node.substCtx, Node.Fit]
  | .elem e ks, hR, h => by
    have ho := fun (h : (Node.elem e ks).All OwnElem) => all_substCtx (P := OwnElem) (R := R) (pos := pos) (env := env) (anc := anc) _
      (fun c hc n hn => (hR c hc n hn).2) h
    simp only [Node.substCtx] at ho ⊢
    split
    · next n hn => exact (hR ⟨pos, e.decls ++ env, anc, e, ks⟩ (by simp [Node.walk]) n hn).1 h
    · next hn =>
      rw [hn] at ho
      refine ⟨fun hr => ho (h.1 hr), h.2.1, ?_⟩
      exact fits_substCtxs (anc := e.tag :: anc) (fun c hc => hR c (by simp only [Node.walk, List.mem_cons]; exact Or.inr hc)) h.2.2
theorem fits_substCtxs {R : Ctx → Option Node} {pos : Pos} {i : Nat} {env : NsMap} {anc : List QName} : ∀ {ks : List Node},
    (∀ c ∈ Node.walks pos i env anc ks, ∀ n, R c = some n →
      (c.node.Fit c.anc.head? → n.Fit c.anc.head?) ∧ (c.node.All OwnElem → n.All OwnElem)) →
    Node.Fits anc.head? ks → Node.Fits anc.head? (Node.substCtxs R pos i env anc ks)
  | [], _, _ => by simp [Node.substCtxs, Node.Fits]
  | k :: ks, hR, h => by
    simp only [Node.substCtxs]
    exact ⟨fit_substCtx (fun c hc => hR c (by simp only [Node.walks, List.mem_append]; exact Or.inl hc)) h.1,
      fits_substCtxs (fun c hc => hR c (by simp only [Node.walks, List.mem_append]; exact Or.inr hc)) h.2⟩
end

theorem fit_replaced {Sel : Ctx → Prop} {Q : Ctx → Node → Prop} {t t' : Node} (h : Replaced Sel Q t t')
    (hq : ∀ c ∈ t.elems, c.anc ≠ [] → Sel c → ∀ n, Q c n →
      (c.node.Fit c.anc.head? → n.Fit c.anc.head?) ∧ (c.node.All OwnElem → n.All OwnElem)) (ht : t.Fit none) : t'.Fit none := by
  obtain ⟨R, h1, h2, rfl⟩ := h
  refine fit_substCtx (anc := []) (fun c hc n hn => ?_) ht
  obtain ⟨g1, g2, g3⟩ := Replaced.select h1 h2 hc hn
  exact hq c hc g1 g2 n g3

/-! ### Replaced elements without foreign content -/

mutual
/-- `t'` is `t` with some elements without foreign content replaced. -/
def Node.Cov : Node → Node → Prop
  | .other c s, t' => t' = .other c s
  | .elem e ks, t' => (Node.elem e ks).All OwnElem ∨ ∃ ks', t' = .elem e ks' ∧ Node.Covs ks ks'
/-- `Cov` for lists. -/
def Node.Covs : List Node → List Node → Prop
  | [], l => l = []
  | k :: ks, l => ∃ k' ks', l = k' :: ks' ∧ k.Cov k' ∧ Node.Covs ks ks'
end

mutual
theorem cov_refl : ∀ t : Node, t.Cov t
  | .other _ _ => rfl
  | .elem _ ks => Or.inr ⟨ks, rfl, covs_refl ks⟩
theorem covs_refl : ∀ ks : List Node, Node.Covs ks ks
  | [] => rfl
  | k :: ks => ⟨k, ks, rfl, cov_refl k, covs_refl ks⟩
end

mutual
theorem cov_alien : ∀ {t t' : Node}, t.Cov t' → t.All Alien → t' = t
  | .other _ _, _, h, _ => h
  | .elem e ks, t', h, ha => by
    rcases h with h | ⟨ks', rfl, h⟩
    · exact absurd h.1 (alien_not_own ha.1)
    · rw [covs_alien h ha.2]
theorem covs_alien : ∀ {ks ks' : List Node}, Node.Covs ks ks' → Node.Alls Alien ks → ks' = ks
  | [], _, h, _ => h
  | k :: ks, _, h, ha => by
    obtain ⟨k', ks', rfl, h1, h2⟩ := h
    rw [cov_alien h1 ha.1, covs_alien h2 ha.2]
end

mutual
theorem cov_picks : ∀ {t t' : Node}, t.Cov t' → (t.picks foreignPart).Sublist (t'.picks foreignPart)
  | .other _ _, _, h => by rw [h]; exact List.Sublist.refl _
  | .elem e ks, t', h => by
    have h0 : (Node.elem e ks).Cov t' := h
    rcases h with h | ⟨ks', rfl, h⟩
    · rw [picks_own h]; exact List.nil_sublist _
    · cases hp : foreignPart (.elem e ks) with
      | true => rw [cov_alien h0 (part_iff.1 hp).1]; exact List.Sublist.refl _
      | false =>
        rw [picks_head _ _ _ hp]
        exact (covs_picks h).trans (pickss_sub _ _ _)
theorem covs_picks : ∀ {ks ks' : List Node}, Node.Covs ks ks' → (Node.pickss foreignPart ks).Sublist (Node.pickss foreignPart ks')
  | [], _, h => by rw [h]; exact List.Sublist.refl _
  | k :: ks, _, h => by
    obtain ⟨k', ks', rfl, h1, h2⟩ := h
    simp only [Node.pickss]
    exact (cov_picks h1).append (covs_picks h2)
end

theorem parts_cov {t t' : Node} (h : t.Cov t') : PartsKept t t' := by
  cases t with
  | other _ _ => simp [PartsKept, parts_other]
  | elem e ks =>
    rcases h with h | ⟨ks', rfl, h⟩
    · unfold PartsKept
      rw [parts_eq, pickss_none (A := OwnElem) (fun n hp hn => by
        obtain ⟨e, ks, rfl⟩ := part_elem hp
        exact alien_not_own (part_iff.1 hp).1.1 hn.1) ks h.2]
      exact List.nil_sublist _
    · simp only [PartsKept, parts_eq]
      exact covs_picks h

mutual
theorem cov_substCtx {R : Ctx → Option Node} {pos : Pos} {env : NsMap} {anc : List QName} : ∀ {t t' : Node},
    (∀ c ∈ t'.walk pos env anc, ∀ n, R c = some n → ReplacedIn c.anc.head? c.e.tag) → t.Cov t' → t.Fit anc.head? →
    t.Cov (t'.substCtx R pos env anc)
  | .other _ _, _, _, h, _ => by rw [h]; simp [Node.substCtx, Node.Cov]
  | .elem e ks, t', hR, h, hf => by
    rcases h with h | ⟨ks', rfl, h⟩
    · exact Or.inl h
    · simp only [Node.substCtx]
      split
      · next n hn => exact Or.inl (hf.1 (hR ⟨pos, e.decls ++ env, anc, e, ks'⟩ (by simp [Node.walk]) n hn))
      · exact Or.inr ⟨_, rfl, covs_substCtxs (anc := e.tag :: anc)
          (fun c hc => hR c (by simp only [Node.walk, List.mem_cons]; exact Or.inr hc)) h hf.2.2⟩
theorem covs_substCtxs {R : Ctx → Option Node} {pos : Pos} {i : Nat} {env : NsMap} {anc : List QName} : ∀ {ks ks' : List Node},
    (∀ c ∈ Node.walks pos i env anc ks', ∀ n, R c = some n → ReplacedIn c.anc.head? c.e.tag) → Node.Covs ks ks' →
    Node.Fits anc.head? ks → Node.Covs ks (Node.substCtxs R pos i env anc ks')
  | [], _, _, h, _ => by rw [h]; simp [Node.substCtxs, Node.Covs]
  | k :: ks, _, hR, h, hf => by
    obtain ⟨k', ks', rfl, h1, h2⟩ := h
    simp only [Node.substCtxs]
    exact ⟨_, _, rfl, cov_substCtx (fun c hc => hR c (by simp only [Node.walks, List.mem_append]; exact Or.inl hc)) h1 hf.1,
      covs_substCtxs (fun c hc => hR c (by simp only [Node.walks, List.mem_append]; exact Or.inr hc)) h2 hf.2⟩
end

theorem cov_replaced {Sel : Ctx → Prop} {Q : Ctx → Node → Prop} {t t' t'' : Node} (h : Replaced Sel Q t' t'')
    (hs : ∀ c, c.anc ≠ [] → Sel c → ReplacedIn c.anc.head? c.e.tag) (hc : t.Cov t') (ht : t.Fit none) : t.Cov t'' := by
  obtain ⟨R, h1, h2, rfl⟩ := h
  refine cov_substCtx (anc := []) (fun c hc n hn => ?_) hc ht
  obtain ⟨g1, g2, g3⟩ := Replaced.select h1 h2 hc hn
  exact hs c g1 g2

/-! ### Parts of steps -/

/-- If `t` is fit, `t'` is, and keeps the foreign parts. -/
def Conveys (t t' : Node) : Prop := t.Fit none → PartsKept t t' ∧ t'.Fit none

theorem Conveys.trans {a b c : Node} (h : Conveys a b) (h' : Conveys b c) : Conveys a c := fun hf =>
  ⟨(h hf).1.trans (h' (h hf).2).1, (h' (h hf).2).2⟩
theorem Conveys.refl (a : Node) : Conveys a a := fun hf => ⟨PartsKept.refl a, hf⟩

theorem conveys_edit {F : Ctx → Elem} {t : Node} (hF : ∀ c, RoleKept c.e (F c))
    (h : ∀ c ∈ t.elems, c.anc ≠ [] → Alien c.e → F c = c.e) : Conveys t (t.edit F) := fun hf => ⟨parts_edit h, fit_edit hF hf⟩

theorem parts_schemaloc (u : Cls) (t : Node) : PartsKept t (u.updateSchemalocs t) := by
  rw [updateSchemalocs_eq]
  refine parts_edit (fun c _ ha _ => ?_)
  unfold schemalocEdit
  rw [if_neg (by simpa using ha)]

theorem conveys_schemaloc (u : Cls) (t : Node) : Conveys t (u.updateSchemalocs t) := fun hf => by
  refine ⟨parts_schemaloc u t, ?_⟩
  rw [updateSchemalocs_eq]
  refine fit_edit (fun c => roleKept_tag ?_) hf
  unfold schemalocEdit Cls.updateSchemalocsElem
  split
  · split <;> rfl
  · rfl

/-- The alternatives select elements of the languages. -/
def OwnAlts (m : List (String × String)) (alts : List XAlt) : Prop := ∀ a ∈ alts, foreignName (a.tag.resolve m) = false

/-- The namespaces of the versioned elements. -/
def versionedSpaces : List (String × String) :=
  [("stix", "http://stix.mitre.org/stix-1"), ("stixCommon", "http://stix.mitre.org/common-1"), ("incident", "http://stix.mitre.org/Incident-1"),
   ("ttp", "http://stix.mitre.org/TTP-1"), ("coa", "http://stix.mitre.org/CourseOfAction-1"), ("campaign", "http://stix.mitre.org/Campaign-1"),
   ("et", "http://stix.mitre.org/ExploitTarget-1"), ("indicator", "http://stix.mitre.org/Indicator-2"),
   ("ta", "http://stix.mitre.org/ThreatActor-1"), ("cybox", "http://cybox.mitre.org/cybox-2")]

theorem versionedSpaces_own : ∀ p ∈ versionedSpaces, ownSpace p.2 = true := by
  unfold versionedSpaces
  own_spaces

theorem ownAlts_of {m : List (String × String)} {alts : List XAlt}
    (h : ∀ a ∈ alts, ∃ p ∈ versionedSpaces, p.1 = a.tag.pre ∧ assoc m a.tag.pre = some p.2) : OwnAlts m alts := by
  intro a ha
  obtain ⟨p, hp, _, h2⟩ := h a ha
  unfold XName.resolve
  rw [h2]
  show (!ownSpace p.2) = false
  rw [versionedSpaces_own p hp]
  rfl

theorem selects_own {m : List (String × String)} {alts : List XAlt} (ho : OwnAlts m alts) {c : Ctx}
    (h : alts.any (fun a => a.selects m c) = true) : OwnElem c.e := by
  obtain ⟨a, ha, hc⟩ := List.any_eq_true.1 h
  unfold XAlt.selects at hc
  simp only [Bool.and_eq_true, decide_eq_true_eq] at hc
  unfold OwnElem
  rw [hc.1.1]
  exact ho a ha

theorem parts_version {m : List (String × String)} {alts : List XAlt} (ho : OwnAlts m alts) {g : Elem → Elem} (t : Node) :
    PartsKept t (t.edit (versionEdit m alts g)) := by
  refine parts_edit (fun c _ _ ha => ?_)
  unfold versionEdit
  rw [if_neg (fun h => alien_not_own ha (selects_own ho h))]

theorem conveys_version {m : List (String × String)} {alts : List XAlt} (ho : OwnAlts m alts) {g : Elem → Elem}
    (hg : ∀ e, (g e).tag = e.tag) (t : Node) : Conveys t (t.edit (versionEdit m alts g)) := fun hf => by
  refine ⟨parts_version ho t, fit_edit (fun c => roleKept_tag ?_) hf⟩
  unfold versionEdit
  split
  · exact hg c.e
  · rfl

/-! Vocabularies. -/

theorem occurs_append (x : List Char) : ∀ a b : List Char, occursIn x b = true → occursIn x (a ++ b) = true
  | [], b, h => h
  | c :: a, b, h => by
    simp only [List.cons_append, occursIn, Bool.or_eq_true]
    exact Or.inr (occurs_append x a b h)

theorem alien_type {e : Elem} (h : Alien e) {v : String}
    (hv : e.get? ⟨some "http://www.w3.org/2001/XMLSchema-instance", "type"⟩ = some v) :
    occursIn "Vocab-".toList v.toList = false ∧ occursIn "GenericTestMechanismType".toList v.toList = false := by
  unfold Alien foreignElem at h
  rw [Bool.and_eq_true, List.all_eq_true] at h
  have := h.2 _ (mem_of_get? hv)
  simp only [decide_true, Bool.true_and, Bool.not_eq_true', Bool.or_eq_false_iff] at this
  exact this

theorem alien_typedAs {c : Ctx} (h : Alien c.e) {p ty ns : String} (ht : c.TypedAs p ty ns) :
    occursIn "Vocab-".toList ty.toList = false ∧ occursIn "GenericTestMechanismType".toList ty.toList = false := by
  obtain ⟨v, hv, ⟨rfl, _, _⟩, _⟩ := ht
  have := alien_type h hv
  have key : ∀ x, occursIn x ty.toList = true → occursIn x (p ++ ":" ++ ty).toList = true := fun x hx => by
    rw [String.toList_append]
    exact occurs_append x _ _ hx
  constructor
  · cases hx : occursIn "Vocab-".toList ty.toList with
    | false => rfl
    | true => rw [key _ hx] at this; exact absurd this.1 (by simp)
  · cases hx : occursIn "GenericTestMechanismType".toList ty.toList with
    | false => rfl
    | true => rw [key _ hx] at this; exact absurd this.2 (by simp)

theorem rows_vocab {w : World} {u : Updater} {rows : List VocabRow} (h : StepRows w u rows) :
    ∀ row ∈ rows, ∀ ty ∈ row.old, occursIn "Vocab-".toList ty.toList = true := by
  obtain ⟨u0, h0, _⟩ := rows_w0 h
  clear h
  have hv : ∀ {l : List Char}, occursIn ['V', 'o', 'c', 'a', 'b', '-'] l = true → occursIn "Vocab-".toList (String.ofList l).toList = true :=
    occursIn_ofList _ _
  cases h0 <;> simp only [List.forall_mem_cons, List.not_mem_nil, false_implies, implies_true, and_true]
  · exact hv (by decide +kernel)
  · exact ⟨hv (by decide +kernel), hv (by decide +kernel), hv (by decide +kernel)⟩
  · exact ⟨hv (by decide +kernel), hv (by decide +kernel)⟩
  · exact ⟨⟨hv (by decide +kernel), hv (by decide +kernel)⟩, hv (by decide +kernel)⟩
  · exact hv (by decide +kernel)
  · exact hv (by decide +kernel)

theorem conveys_vocabs {w : World} {u : Updater} {rows : List VocabRow} (hr : StepRows w u rows) {b : Bool} {t t' : Node}
    (h : (if b then updateVocabs u.cls.vocabs t else .ok t) = .ok t') : PartsKept t t' ∧ Conveys t t' := by
  cases b with
  | false => cases h; exact ⟨PartsKept.refl _, Conveys.refl _⟩
  | true =>
    obtain ⟨F, hF, rfl, hspec⟩ := updateVocabs_spec (stepRows_matches hr) (stepRows_stable hr) h
    have key : ∀ c ∈ t.elems, c.anc ≠ [] → Alien c.e → F c = c.e := by
      intro c hc _ ha
      refine (hspec c hc).2 (fun row hrow p ho => ?_)
      obtain ⟨_, ty, hty, hta⟩ := ho
      have h1 := (alien_typedAs ha hta).1
      rw [rows_vocab hr row hrow ty hty] at h1
      cases h1
    exact ⟨parts_edit key, conveys_edit (fun c => roleKept_tag (hF c).1) key⟩

/-! Optional elements. -/

theorem conveys_gone {L : Node → Ctx → Prop} {t t' : Node} (h : OptionalsGone L t t')
    (hL : ∀ c ∈ t.elems, c.anc ≠ [] → ∀ d ∈ t.elems, ∀ i, d.ChildOf i c → L t d → Alien c.e → ¬ Alien d.e) : Conveys t t' := by
  intro hf
  refine ⟨parts_gone h hL, ?_⟩
  obtain ⟨S, _, rfl⟩ := h
  exact fit_pruneCtx hf

theorem conveys_named {names : List QName} (hn : ∀ q ∈ names, foreignName q = false) (t : Node) :
    Conveys t (t.without (optSel names)) := by
  refine conveys_gone (gone_named t) (fun c _ _ d _ i _ hl _ ha => ?_)
  have := hn _ hl
  rw [alien_name ha] at this
  cases this

/-! Namespaces. -/

theorem parts_ns {u : Cls} (hu : ∀ y ∈ u.updateNsMap, ownSpace y.1 = true) (t : Node) :
    PartsKept t (u.updateNamespaces [] t) := by
  rw [updateNamespaces_eq]
  refine parts_edit (fun c _ _ ha => ?_)
  unfold nsEdit
  refine if_neg (fun h => ?_)
  have h1 := alien_name ha
  unfold Cls.nsUpdated at h
  unfold foreignName at h1
  split at h
  · cases h
  · next n hn =>
    rw [hn] at h1
    simp only [Bool.not_eq_true'] at h1
    obtain ⟨v, hv⟩ := Option.isSome_iff_exists.1 h
    rw [hu _ (assoc_mem hv)] at h1
    cases h1

/-! Lists. -/

theorem conveys_lists {n : List (String × String)} {sel : List XAlt}
    (hn : XName.resolve n ⟨"cybox", "Properties"⟩ = ⟨some "http://cybox.mitre.org/cybox-2", "Properties"⟩) {t : Node} (hc : CommasOwn t) :
    Conveys t (updateLists (cybox20Cls n sel) t) := by
  rw [updateLists_eq]
  refine conveys_edit (fun c => roleKept_tag ?_) (fun c hm _ ha => ?_)
  · unfold listsEdit
    generalize propsDepth _ _ c.anc = k
    induction k with
    | zero => rfl
    | succ k ih =>
      simp only [iter]
      refine Eq.trans ?_ ih
      unfold updateListElem
      split
      · rfl
      · split <;> rfl
  · unfold listsEdit
    rw [show XName.resolve (cybox20Cls n sel).nsmap ⟨"cybox", "Properties"⟩ = _ from hn]
    by_cases hp : (⟨some "http://cybox.mitre.org/cybox-2", "Properties"⟩ : QName) ∈ c.anc
    · exact iter_self (listElem_self (fun s hs => hc c hm (alien_name ha) hp s hs)) _
    · rw [propsDepth_mem hp]
      rfl

/-! Fields. -/

theorem conveys_replaced {Sel : Ctx → Prop} {Q : Ctx → Node → Prop} {t t' : Node} (h : Replaced Sel Q t t')
    (hs : ∀ c, c.anc ≠ [] → Sel c → ReplacedIn c.anc.head? c.e.tag)
    (hq : ∀ c n, Sel c → Q c n → c.node.All OwnElem → n.All OwnElem) : Conveys t t' := fun hf =>
  ⟨parts_cov (cov_replaced h hs (cov_refl t) hf), fit_replaced h (fun c _ ha hsel n hn =>
    ⟨fun hfit => fit_own (hq c n hsel hn (hfit.1 (hs c ha hsel))), hq c n hsel hn⟩) hf⟩

theorem respell_cases (q : QName) : respell q = q ∨ ∃ p ∈ spelling, p.1 = q ∧ respell q = p.2 := by
  unfold respell
  cases h : spelling.find? (fun p => p.1 = q) with
  | none => exact Or.inl rfl
  | some p =>
    have := List.find?_some h
    exact Or.inr ⟨p, List.mem_of_find?_eq_some h, by simpa using this, rfl⟩

theorem conveys_respelt {t t' : Node} (h : Respelt t t') : Conveys t t' := by
  have hs : ∀ p ∈ spelling, foreignName p.1 = false ∧ foreignName p.2 = false ∧ p.2 ∉ roleNames := by
    have h : ∀ p ∈ spelling, p.2 ∉ roleNames := by decide +kernel
    have h1 : ∀ p ∈ spelling, foreignName p.1 = false := by unfold spelling; own_names
    have h2 : ∀ p ∈ spelling, foreignName p.2 = false := by unfold spelling; own_names
    exact fun p hp => ⟨h1 p hp, h2 p hp, h p hp⟩
  unfold Respelt at h
  rw [h]
  refine conveys_edit (fun c => ?_) (fun c _ _ ha => ?_)
  · by_cases he : c.anc.isEmpty = true
    · rw [if_pos he]; exact roleKept_tag rfl
    · rw [if_neg he]
      rcases respell_cases c.e.tag with h | ⟨p, hp, h1, h2⟩
      · exact roleKept_tag h
      · refine ⟨fun hm => absurd (show p.2 ∈ roleNames by rw [← h2]; exact hm) (hs p hp).2.2, fun _ => ?_⟩
        unfold OwnElem
        show foreignName (respell c.e.tag) = false
        rw [h2]; exact (hs p hp).2.1
  · split
    · rfl
    · rcases respell_cases c.e.tag with h | ⟨p, hp, h1, h2⟩
      · rw [h]
      · have := (hs p hp).1
        rw [h1, alien_name ha] at this
        cases this

theorem header_replaced {n : String} (hn : n ∈ ["DNT", "Vary", "Refresh"]) (c : Ctx) (h : Header n c) : ReplacedIn c.anc.head? c.e.tag := by
  rw [h.2]
  left
  simp only [List.mem_cons, List.not_mem_nil, or_false] at hn
  rcases hn with rfl | rfl | rfl <;> decide

theorem conveys_fields201 {t t' : Node} (h : translateFields cybox201Translatable t = .ok t') : Conveys t t' := by
  obtain ⟨b, c, d, e, h1, h2, h3, h4, h5⟩ := fields_201 h
  refine (conveys_replaced h1 (fun c _ => header_replaced (by decide) c) ?_).trans
    ((conveys_replaced h2 (fun c _ => header_replaced (by decide) c) ?_).trans
    ((conveys_replaced h3 (fun c _ => header_replaced (by decide) c) ?_).trans ((conveys_respelt h4).trans
    (conveys_replaced h5 (fun c _ hc => Or.inl (by rw [hc.2.1]; decide)) ?_))))
  · rintro c n hc ⟨v, as, _, rfl, _⟩ ho
    exact ⟨ho.1, trivial⟩
  · rintro c n hc ⟨v, as, _, rfl, _⟩ ho
    exact ⟨ho.1, trivial⟩
  · rintro c n hc ⟨as, rfl, _⟩ ho
    exact ⟨ho.1, trivial⟩
  · rintro c n hc ⟨e, ks, hm, _, rfl⟩ ho
    exact ⟨show foreignName ⟨some "http://cybox.mitre.org/objects#WinMailslotObject-2", "Handle"⟩ = false by own_name,
      (alls_iff.1 ho.2 _ hm).2⟩

theorem picks_retag {e : Elem} {q : QName} {ks : List Node} (h : OwnElem e) :
    ((Node.elem e ks).picks foreignPart).Sublist ((Node.elem { e with tag := q } ks).picks foreignPart) := by
  rw [picks_head]
  · exact pickss_sub _ _ _
  · cases hp : foreignPart (.elem e ks) with
    | false => rfl
    | true => exact absurd h (alien_not_own (part_iff.1 hp).1.1)

theorem picks_child {e : Elem} {k : Node} : (k.picks foreignPart).Sublist ((Node.elem e [k]).picks foreignPart) := by
  refine List.Sublist.trans ?_ (pickss_sub _ _ _)
  simp [Node.pickss]

theorem pickss_sources : ∀ {ks : List Node}, Node.Fits (some ⟨some "http://stix.mitre.org/common-1", "Contributors"⟩) ks →
    (Node.pickss foreignPart ks).Sublist (Node.pickss foreignPart (ks.map asSource))
  | [], _ => by simp
  | .other _ _ :: ks, h => by
    simp only [List.map_cons, Node.pickss, asSource]
    exact (List.Sublist.refl _).append (pickss_sources h.2)
  | .elem e es :: ks, h => by
    simp only [List.map_cons, Node.pickss, asSource]
    exact ((picks_retag (h.1.2.1 rfl)).trans picks_child).append (pickss_sources h.2)

theorem replaced_free {p : Option QName} {q : QName} (h : q ∉ roleNames) : ¬ ReplacedIn p q := by
  intro hr
  refine h ?_
  simp only [roleNames, List.mem_cons, List.mem_append]
  rcases hr with hr | ⟨rfl, _⟩ | ⟨rfl, _⟩
  · simp [hr]
  · simp
  · simp

mutual
theorem fit_inside {pos : Pos} {env : NsMap} {anc : List QName} : ∀ (t : Node), t.Fit anc.head? → ∀ c ∈ t.walk pos env anc,
    c.node.Fit c.anc.head?
  | .other _ _, _, c, hc => by simp [Node.walk] at hc
  | .elem e ks, h, c, hc => by
    simp only [Node.walk, List.mem_cons] at hc
    rcases hc with rfl | hc
    · exact h
    · exact fits_inside (anc := e.tag :: anc) ks h.2.2 c hc
theorem fits_inside {pos : Pos} {i : Nat} {env : NsMap} {anc : List QName} : ∀ (ks : List Node), Node.Fits anc.head? ks →
    ∀ c ∈ Node.walks pos i env anc ks, c.node.Fit c.anc.head?
  | [], _, c, hc => by simp [Node.walks] at hc
  | k :: ks, h, c, hc => by
    simp only [Node.walks, List.mem_append] at hc
    rcases hc with hc | hc
    · exact fit_inside k h.1 c hc
    · exact fits_inside ks h.2 c hc
end

theorem fits_sources : ∀ {ks : List Node}, Node.Fits (some ⟨some "http://stix.mitre.org/common-1", "Contributors"⟩) ks →
    Node.Fits (some ⟨some "http://stix.mitre.org/common-1", "Contributing_Sources"⟩) (ks.map asSource)
  | [], _ => trivial
  | .other _ _ :: ks, h => ⟨trivial, fits_sources h.2⟩
  | .elem e es :: ks, h => by
    refine ⟨⟨fun hr => ?_, fun hc => absurd hc (by decide), ⟨fun hr => absurd hr (replaced_free
      (show (⟨some "http://stix.mitre.org/common-1", "Identity"⟩ : QName) ∉ roleNames by decide)), fun hc => absurd hc (by decide), ?_⟩, trivial⟩, fits_sources h.2⟩
    · rcases hr with hr | ⟨_, x, hx, hr⟩ | ⟨hr, _⟩
      · exact absurd hr (by decide)
      · cases hr; exact absurd hx (by decide)
      · exact absurd hr (by decide)
    · exact fits_rel (narrower_not (show (⟨some "http://stix.mitre.org/common-1", "Identity"⟩ : QName) ∉ roleNames by decide))
        (rels_refl es) h.1.2.2

theorem conveys_contributors {t t' : Node} (h : Replaced (fun c => c.anc ≠ [] ∧ c.e.tag = contributors) SourcesOf t t') :
    Conveys t t' := by
  intro hf
  have own : ∀ q ∈ [contributors, ⟨some "http://stix.mitre.org/common-1", "Contributing_Sources"⟩,
    ⟨some "http://stix.mitre.org/common-1", "Source"⟩, ⟨some "http://stix.mitre.org/common-1", "Identity"⟩], foreignName q = false := by
    own_names
  have hfit : ∀ c ∈ t.elems, c.node.Fit c.anc.head? := fit_inside (pos := []) (env := []) (anc := []) t hf
  refine ⟨parts_replaced h (fun c _ _ hc => by unfold OwnElem; rw [hc.2]; exact own _ (by simp)) ?_, fit_replaced h ?_ hf⟩
  · rintro c hc _ ⟨_, hs⟩ n ⟨_, rfl⟩
    have := (hfit c hc).2.2
    rw [hs] at this
    unfold Ctx.node
    rw [picks_head]
    · exact (pickss_sources this).trans (pickss_sub _ _ _)
    · cases hp : foreignPart (.elem c.e c.kids) with
      | false => rfl
      | true =>
        refine absurd ?_ (alien_not_own (part_iff.1 hp).1.1)
        unfold OwnElem
        rw [hs]
        exact own _ (by simp)
  · rintro c hc _ ⟨_, hs⟩ n ⟨_, rfl⟩
    refine ⟨fun hfc => ?_, fun ho => ?_⟩
    · have := hfc.2.2
      rw [hs] at this
      exact ⟨fun hr => absurd hr (replaced_free (by decide)), fun _ => own _ (by simp), fits_sources this⟩
    · refine ⟨own _ (by simp), alls_iff.2 (fun k hk => ?_)⟩
      obtain ⟨x, hx, rfl⟩ := List.mem_map.1 hk
      have := alls_iff.1 ho.2 x hx
      cases x with
      | other _ _ => trivial
      | elem e ks => exact ⟨own _ (by simp), ⟨own _ (by simp), this.2⟩, trivial⟩

theorem conveys_targets {t t' : Node} (h : Replaced (InParent exploitTargets exploitTarget) WrappedTarget t t') : Conveys t t' := by
  intro hf
  refine ⟨parts_replaced h (fun c _ _ hc => ?_) ?_, fit_replaced h ?_ hf⟩
  · unfold OwnElem
    rw [hc.1]
    exact show foreignName ⟨some "http://stix.mitre.org/common-1", "Exploit_Target"⟩ = false by own_name
  · rintro c hc _ _ n rfl
    exact picks_child
  · rintro c hc _ hs n rfl
    have own : foreignName ⟨some "http://stix.mitre.org/TTP-1", "Exploit_Target"⟩ = false := by own_name
    refine ⟨fun hfc => ⟨fun hr => ?_, fun _ => own, fit_narrow (narrower_not (by decide)) hfc, trivial⟩, fun ho => ⟨own, ho, trivial⟩⟩
    exact absurd hr (replaced_free (by decide))

theorem parts_campaigns {t t' : Node} (h : Replaced (InParent relatedCampaigns relatedCampaign) WrappedCampaign t t') :
    PartsKept t t' := by
  have own : foreignName relatedCampaign = false := by unfold relatedCampaign; own_name
  refine parts_replaced h (fun c _ _ hc => ?_) ?_
  · unfold OwnElem
    rw [hc.1]
    exact own
  · rintro c hc _ hs n rfl
    refine (picks_retag ?_).trans picks_child
    unfold OwnElem
    rw [hs.1]
    exact own

/-! ### Steps -/

/-- Texts and names are the same. -/
def SameNames (e e' : Elem) : Prop := e'.text = e.text ∧ e'.tag = e.tag

theorem commas_rel {a b : Node} (h : Node.Rel SameNames a b) (ha : CommasOwn a) : CommasOwn b := by
  intro c' hc' hf hp s hs
  obtain ⟨c, hc, _, h1, h2, _⟩ := rel_elems_anc (fun _ _ h => h.2) h hc'
  rw [h2.2] at hf
  rw [h2.1] at hs
  exact ha c hc hf (h1 ▸ hp) s hs

theorem conveys_update20 {n : List (String × String)} {sel : List XAlt}
    (hn : XName.resolve n ⟨"cybox", "Properties"⟩ = ⟨some "http://cybox.mitre.org/cybox-2", "Properties"⟩) (hs : OwnAlts n sel)
    {o : Options} {t t' : Node} (h : cybox20Update (cybox20Cls n sel) o t = .ok t') (hc : CommasOwn t) : Conveys t t' := by
  simp only [cybox20Update] at h
  have c1 := conveys_schemaloc (cybox20Cls n sel) t
  have r1 : CommasOwn ((cybox20Cls n sel).updateSchemalocs t) := by
    rw [updateSchemalocs_eq]
    refine commas_rel (rel_mapCtx (fun c => ?_) [] [] [] t) hc
    unfold schemalocEdit Cls.updateSchemalocsElem
    split
    · split <;> exact ⟨rfl, rfl⟩
    · exact ⟨rfl, rfl⟩
  generalize (cybox20Cls n sel).updateSchemalocs t = t1 at h c1 r1
  rw [cybox20Versions_eq] at h
  have c2 := conveys_version (m := (cybox20Cls n sel).nsmap) (alts := (cybox20Cls n sel).xpathVersioned) (g := setVersion201) hs (fun _ => rfl) t1
  have r2 : CommasOwn (t1.edit (versionEdit (cybox20Cls n sel).nsmap (cybox20Cls n sel).xpathVersioned setVersion201)) := by
    refine commas_rel (rel_mapCtx (fun c => ?_) [] [] [] t1) r1
    unfold versionEdit
    split <;> exact ⟨rfl, rfl⟩
  exact c1.trans (c2.trans ((conveys_lists hn r2).trans (conveys_vocabs (w := w0) .cybox20 h).2))

theorem conveys_ns201 {n : List (String × String)} {sel : List XAlt} (t : Node) :
    Conveys t ((cybox201Cls n sel).updateNamespaces [] t) := by
  intro hf
  refine ⟨parts_ns (u := cybox201Cls n sel) (show ∀ y ∈ Tables.cybox201_updateNsMap, ownSpace y.1 = true by unfold Tables.cybox201_updateNsMap; own_spaces) t, ?_⟩
  rw [updateNamespaces_eq]
  refine fit_edit (fun c => ?_) hf
  unfold nsEdit
  split
  · next hu =>
    have h1 : ∀ y ∈ Tables.cybox201_updateNsMap, ∀ X ∈ roleNames, X.ns ≠ some y.2 := by decide +kernel
    have h2 : ∀ y ∈ Tables.cybox201_updateNsMap, ownSpace y.2 = true := by unfold Tables.cybox201_updateNsMap; own_spaces
    unfold Cls.nsUpdated at hu
    split at hu
    · cases hu
    · next m hm =>
      obtain ⟨x, hx⟩ := Option.isSome_iff_exists.1 hu
      have hx' : (cybox201Cls n sel).remappedTag c.e.tag = ⟨some x, c.e.tag.name⟩ := by
        simp only [Cls.remappedTag, hm, Option.map_some]
        rw [hx]; rfl
      constructor
      · intro hr
        refine absurd ?_ (h1 _ (assoc_mem hx) _ hr)
        show ((cybox201Cls n sel).remappedTag c.e.tag).ns = some x
        rw [hx']
      · intro _
        show foreignName ((cybox201Cls n sel).remappedTag c.e.tag) = false
        rw [hx']
        show (!ownSpace x) = false
        rw [h2 _ (assoc_mem hx)]
        rfl
  · exact roleKept_tag rfl

theorem conveys_update201 {n : List (String × String)} {sel : List XAlt} (hs : OwnAlts n sel) {o : Options} {t t' : Node}
    (h : cybox201Update (cybox201Cls n sel) o t = .ok t') : Conveys t t' := by
  simp only [cybox201Update] at h
  have c0 := conveys_ns201 (n := n) (sel := sel) t
  generalize (cybox201Cls n sel).updateNamespaces [] t = t0 at h c0
  split at h
  · cases h
  · next t1 h1 =>
    split at h
    · cases h
    · next t2 h2 =>
      refine c0.trans ((conveys_schemaloc (cybox201Cls n sel) t0).trans (Conveys.trans (?_ : Conveys _
        (cybox201UpdateVersions (cybox201Cls n sel) ((cybox201Cls n sel).updateSchemalocs t0))) ((conveys_fields201 h1).trans
        ((conveys_vocabs (w := w0) .cybox201 h2).2.trans ?_))))
      · rw [cybox201Versions_eq]
        exact conveys_version (g := setVersion21) hs (fun _ => rfl) _
      · split at h
        · have h' : removeOptionals cybox201Optionals t2 = .ok t' := h
          rw [optionals_pass] at h'
          cases h'
          exact conveys_named own_optional21 t2
        · cases h; exact Conveys.refl _

theorem conveys_stixVersions {u : Cls} (hu : OwnAlts u.nsmap u.xpathVersioned) (i v : String) (t : Node) :
    Conveys t (stixUpdateVersions u i v t) := by
  rw [stixVersions_eq]
  exact conveys_version (g := setStixVersion i v) hu (fun _ => rfl) t

theorem conveys_update10 {o : Options} {t t' : Node} (h : stix10Update o t = .ok t') (hc : CommasOwn t) : Conveys t t' := by
  simp only [stix10Update] at h
  split at h
  · cases h
  · next t1 h1 =>
    rw [updateNamespaces_none (u := stix10Cls) rfl] at h
    exact (conveys_update20 (by decide +kernel) (ownAlts_of (by decide +kernel)) h1 hc).trans ((conveys_schemaloc stix10Cls t1).trans
      ((conveys_stixVersions (u := stix10Cls) (ownAlts_of (by decide +kernel)) "2.0.1" "1.0.1" _).trans (conveys_vocabs (w := w0) .stix10 h).2))

theorem fields_101 {w : World} {b d : Node} (h : translateFields (stix101Cls w).translatable b = .ok d) :
    ∃ c, Replaced (fun c => c.anc ≠ [] ∧ c.e.tag = contributors) SourcesOf b c ∧
      Replaced (InParent exploitTargets exploitTarget) WrappedTarget c d := by
  unfold translateFields at h
  simp only [stix101Cls, foldE] at h
  split at h
  · cases h
  · next c hc =>
    split at h
    · cases h
    · next d' hd' =>
      cases h
      refine ⟨c, ?_, ?_⟩
      · refine (translate_custom hc).mono (fun x _ => ?_) (fun x _ n _ hq => sourcesOf hq)
        refine Iff.trans ?_ rel_selects.symm
        rw [show XName.resolve Tables.stix101_nsmap ⟨"stixCommon", "Contributors"⟩ = contributors by decide +kernel]
      · refine (translate_custom hd').mono (fun x _ => ?_) (fun x _ n _ hq => ?_)
        · exact (relIn_inParent (by decide +kernel) (by decide +kernel)).symm
        · cases hq; rfl

theorem conveys_update101 {w : World} {o : Options} {t t' : Node} (h : stix101Update w o t = .ok t') : Conveys t t' := by
  simp only [stix101Update] at h
  split at h
  · cases h
  · next t1 h1 =>
    rw [updateNamespaces_none (u := stix101Cls w) rfl] at h
    have c1 := conveys_update201 (ownAlts_of (by decide +kernel)) h1
    have c2 := (conveys_schemaloc (stix101Cls w) t1).trans (conveys_stixVersions (u := stix101Cls w)
      (show OwnAlts (stix101Cls w0).nsmap (stix101Cls w0).xpathVersioned from ownAlts_of (by decide +kernel)) "2.1" "1.1" _)
    split at h
    · cases h
    · next t2 h2 =>
      obtain ⟨t3, h3, h4⟩ := fields_101 h2
      split at h
      · cases h
      · next t5 h5 =>
        refine c1.trans (c2.trans ((conveys_contributors h3).trans ((conveys_targets h4).trans
          ((conveys_vocabs (w := w) .stix101 h5).2.trans ?_))))
        split at h
        · rw [optionals_pass11] at h
          cases h
          exact conveys_named (by unfold optional11; own_names) t5
        · cases h; exact Conveys.refl _

theorem fields_11 {w : World} {a d : Node} (h : translateFields (stix11Cls w).translatable a = .ok d) :
    ∃ b c, Replaced StringSource (fun _ _ => True) a b ∧ Replaced SightingSource (fun _ _ => True) b c ∧
      Replaced (InParent relatedCampaigns relatedCampaign) WrappedCampaign c d := by
  unfold translateFields at h
  simp only [stix11Cls, foldE] at h
  split at h
  · cases h
  · next b hb =>
    split at h
    · cases h
    · next c hc =>
      split at h
      · cases h
      · next d' hd' =>
        cases h
        refine ⟨b, c, ?_, ?_, ?_⟩
        · exact (translate_custom hb).mono (fun x _ => stringSource_iff.symm) (fun _ _ _ _ _ => trivial)
        · exact (translate_custom hc).mono (fun x _ => (relIn_inParent (by decide +kernel) (by decide +kernel)).symm)
            (fun _ _ _ _ _ => trivial)
        · refine (translate_custom hd').mono (fun x _ => ?_) (fun x _ n _ hq => ?_)
          · exact (relIn_inParent (by decide +kernel) (by decide +kernel)).symm
          · cases hq; rfl

theorem parts_update11 {w : World} {o : Options} {t t' : Node} (h : stix11Update w o t = .ok t') (hf : t.Fit none) : PartsKept t t' := by
  simp only [stix11Update] at h
  have c0 := (conveys_schemaloc stix11Cybox t).trans ((conveys_schemaloc (stix11Cls w) _).trans (conveys_stixVersions (u := stix11Cls w)
    (show OwnAlts (stix11Cls w0).nsmap (stix11Cls w0).xpathVersioned from ownAlts_of (by decide +kernel)) "2.1.1" "1.1.1" _)) hf
  split at h
  · cases h
  · next t2 h2 =>
    obtain ⟨t3, t4, h3, h4, h5⟩ := fields_11 h2
    split at h
    · cases h
    · next t6 h6 =>
      refine c0.1.trans (PartsKept.trans (parts_cov (cov_replaced h4 (fun c _ hc => ?_) (cov_replaced h3 (fun c _ hc => ?_)
        (cov_refl _) c0.2) c0.2)) ((parts_campaigns h5).trans ((conveys_vocabs (w := w) .stix11 h6).1.trans ?_)))
      · obtain ⟨e1, r, rs, e2⟩ := hc
        rw [e1, e2]
        exact Or.inr (Or.inr ⟨rfl, rfl⟩)
      · obtain ⟨p, hp, e1, r, rs, e2⟩ := hc
        rw [e1, e2]
        exact Or.inr (Or.inl ⟨rfl, p, hp, rfl⟩)
      · split at h
        · refine parts_gone (generic_pass h) (fun c hc _ d hd i hi hl ha _ => ?_)
          obtain ⟨b, hb, _, ⟨j, hj⟩, p, hp⟩ := hl
          have e : b = c := by
            refine elems_pos_inj hb hc ?_
            have := hj.1.symm.trans hi.1
            simp only [List.cons.injEq] at this
            exact this.2
          subst e
          have := (alien_typedAs ha hp).2
          exact absurd this (by decide)
        · cases h; exact PartsKept.refl _

theorem parts_update111 {o : Options} {t t' : Node} (h : stix111Update o t = .ok t') : PartsKept t t' := by
  simp only [stix111Update] at h
  rw [stixVersions_eq] at h
  exact (parts_schemaloc stix111Cls t).trans ((parts_version (show OwnAlts stix111Cls.nsmap stix111Cls.xpathVersioned from ownAlts_of (by decide +kernel)) _).trans
    (conveys_vocabs (w := w0) .stix111 h).1)

theorem parts_update12 {o : Options} {t t' : Node} (h : stix12Update o t = .ok t') : PartsKept t t' := by
  simp only [stix12Update, Except.ok.injEq] at h
  have h1 := (parts_ns (u := stix12Cls) (show ∀ y ∈ Tables.stix12_updateNsMap, ownSpace y.1 = true by unfold Tables.stix12_updateNsMap; own_spaces) t).trans (parts_schemaloc stix12Cls _)
  subst h
  generalize stix12Cls.updateSchemalocs (stix12Cls.updateNamespaces [] t) = x at h1 ⊢
  cases x with
  | other _ _ => exact h1
  | elem e ks =>
    unfold PartsKept at h1 ⊢
    simp only [setRootVersion, parts_eq] at h1 ⊢
    exact h1

/-! ### Chains -/

/-- What holds between the steps `pre` and the rest. -/
def CarriedSoFar (t : Node) (pre : List String) (d : Node) : Prop :=
  PartsKept t d ∧ ((∀ x ∈ pre, x ∈ ["1.0", "1.0.1", "2.0", "2.0.1"]) → d.Fit none) ∧ (pre = [] → d = t)

theorem carried_step {t d d' : Node} {pre : List String} {v : String} (hi : CarriedSoFar t pre d)
    (hp : ∀ x ∈ pre, x ∈ ["1.0", "1.0.1", "2.0", "2.0.1"]) (h : Conveys d d') : CarriedSoFar t (pre ++ [v]) d' :=
  ⟨hi.1.trans (h (hi.2.1 hp)).1, fun _ => (h (hi.2.1 hp)).2, fun e => absurd e (by simp)⟩

theorem carried_last {t d d' : Node} {pre : List String} {v : String} (hv : v ∉ ["1.0", "1.0.1", "2.0", "2.0.1"])
    (hi : CarriedSoFar t pre d) (h : PartsKept d d') : CarriedSoFar t (pre ++ [v]) d' :=
  ⟨hi.1.trans h, fun e => absurd (e v (by simp)) hv, fun e => absurd e (by simp)⟩

theorem stix_early : ∀ s ∈ stixReleases, ∀ g ∈ stixReleases,
    (between stixReleases s g).Pairwise (fun x v => v ≠ "1.0" ∧ (v ∈ ["1.0.1", "1.1"] → x ∈ ["1.0", "1.0.1", "2.0", "2.0.1"])) ∧
    ("1.0" ∈ between stixReleases s g → s = "1.0") := by decide

theorem cybox_early : ∀ s ∈ cyboxReleases, ∀ g ∈ cyboxReleases,
    (between cyboxReleases s g).Pairwise (fun x v => v ≠ "2.0" ∧ x ∈ ["1.0", "1.0.1", "2.0", "2.0.1"]) ∧
    ("2.0" ∈ between cyboxReleases s g → s = "2.0") := by decide

/-! ## C56 -/

/-- C56, STIX.  In an update without force, every part of the document below the root that is foreign throughout, with some
text or attribute in it, is in the result as it was: names, declarations, attributes, texts, comments, order.  Partial: no
foreign element may stand inside a field that is replaced, or as a contributor, and the text of foreign elements in object
properties must be free of commas if the source is 1.0; see `C56_lost_fails`, `C56_contributor_fails` and `C56_comma_fails`. -/
theorem C56_stix_partial (w : World) (t : Node) (from_ to_ : Option String) (s g : String) (hs : inForce from_ (stixRootVersion t) = some s)
    (hg : inForce to_ (some "1.2.1") = some g) (hsg : Older stixReleases s g) (h1 : Sheltered t) (h2 : s = "1.0" → CommasOwn t)
    (o : Options) (k k' : Nat) (r : Result) (h : stixUpdate w t from_ to_ o false k = .ok (r, k')) :
    t.foreignParts.Sublist r.doc.foreignParts := by
  rw [stixUpdate_accepted w t o false k hs hg hsg] at h
  obtain ⟨hm1, hm2⟩ := older_mem hsg
  obtain ⟨hp, hq⟩ := stix_early s hm1 g hm2
  refine (chain_done (CarriedSoFar t) _ [] _ r k k' h ⟨PartsKept.refl t, fun _ => fit_of h1, fun _ => rfl⟩ ?_).1
  intro pre v post u d k1 k2 r1 e hu hstep hi
  rw [List.nil_append] at e
  have hc : v = "1.0" → CommasOwn t := fun ev => h2 (hq (by rw [e, ev]; simp))
  rw [e] at hp
  have hp' := fun x hx => (List.pairwise_append.1 hp).2.2 x hx v (by simp)
  have hup := unforced_update hstep
  have hm := assoc_mem hu
  simp only [stixUpdaters, List.mem_cons, Prod.mk.injEq, List.not_mem_nil, or_false] at hm
  rcases hm with ⟨rfl, rfl⟩ | ⟨rfl, rfl⟩ | ⟨rfl, rfl⟩ | ⟨rfl, rfl⟩ | ⟨rfl, rfl⟩
  · have hnil : pre = [] := by
      cases pre with
      | nil => rfl
      | cons x xs => exact absurd rfl (hp' x (by simp)).1
    refine carried_step hi (by rw [hnil]; simp) (conveys_update10 hup ?_)
    rw [hi.2.2 hnil]
    exact hc rfl
  · exact carried_step hi (fun x hx => (hp' x hx).2 (by decide)) (conveys_update101 hup)
  · exact carried_last (by decide) hi (parts_update11 hup (hi.2.1 (fun x hx => (hp' x hx).2 (by decide))))
  · exact carried_last (by decide) hi (parts_update111 hup)
  · exact carried_last (by decide) hi (parts_update12 (o := o) hup)

/-- C56, CybOX: the same for CybOX documents. -/
theorem C56_cybox_partial (t : Node) (from_ to_ : Option String) (s g : String) (hs : cyboxSource t from_ = .ok (some s))
    (hg : inForce to_ (some "2.1") = some g) (hsg : Older cyboxReleases s g) (h1 : Sheltered t) (h2 : s = "2.0" → CommasOwn t)
    (o : Options) (k k' : Nat) (r : Result) (h : cyboxUpdate t from_ to_ o false k = .ok (r, k')) :
    t.foreignParts.Sublist r.doc.foreignParts := by
  rw [cyboxUpdate_accepted t o false k hs hg hsg] at h
  obtain ⟨hm1, hm2⟩ := older_mem hsg
  obtain ⟨hp, hq⟩ := cybox_early s hm1 g hm2
  refine (chain_done (CarriedSoFar t) _ [] _ r k k' h ⟨PartsKept.refl t, fun _ => fit_of h1, fun _ => rfl⟩ ?_).1
  intro pre v post u d k1 k2 r1 e hu hstep hi
  rw [List.nil_append] at e
  have hc : v = "2.0" → CommasOwn t := fun ev => h2 (hq (by rw [e, ev]; simp))
  rw [e] at hp
  have hp' := fun x hx => (List.pairwise_append.1 hp).2.2 x hx v (by simp)
  have hup := unforced_update hstep
  have hm := assoc_mem hu
  simp only [cyboxUpdaters, List.mem_cons, Prod.mk.injEq, List.not_mem_nil, or_false] at hm
  rcases hm with ⟨rfl, rfl⟩ | ⟨rfl, rfl⟩
  · have hnil : pre = [] := by
      cases pre with
      | nil => rfl
      | cons x xs => exact absurd rfl (hp' x (by simp)).1
    refine carried_step hi (by rw [hnil]; simp) (conveys_update20 (by decide +kernel) (ownAlts_of (by decide +kernel)) hup ?_)
    rw [hi.2.2 hnil]
    exact hc rfl
  · exact carried_step hi (fun x hx => (hp' x hx).2) (conveys_update201 (ownAlts_of (by decide +kernel)) hup)

/-! ## Examples -/

instance (p : Option QName) (q : QName) : Decidable (ReplacedIn p q) := by unfold ReplacedIn; infer_instance

instance (t : Node) : Decidable (Sheltered t) := by unfold Sheltered; infer_instance

/-- `CommasOwn` can be computed. -/
theorem commasOwn_of {t : Node} (h : ∀ c ∈ t.elems, ⟨some "http://cybox.mitre.org/cybox-2", "Properties"⟩ ∈ c.anc →
    foreignName c.e.tag = true → ',' ∉ (c.e.text.getD "").toList ∧ ¬ "&comma;".toList <:+: (c.e.text.getD "").toList) : CommasOwn t := by
  intro c hc hf hp s hs
  have := h c hc hp hf
  rw [hs] at this
  exact this

theorem foreignParts_mem {t n : Node} (h : n ∈ t.descs.map Ctx.node) (hn : foreignPart n = true) : n ∈ t.foreignParts :=
  List.mem_filter.2 ⟨h, hn⟩

/-- A foreign element with an attribute, text and a child. -/
def alienNote : Node :=
  .elem ⟨⟨some "urn:x", "Note"⟩, [(some "x", "urn:x")], [(⟨none, "id"⟩, "n1")], some "a, b", some " "⟩
    [.elem ⟨⟨some "urn:x", "By"⟩, [], [], some "me", none⟩ []]

/-- A 1.0 package with a foreign element inside an element that is renamed at the end. -/
def docAlien : Node :=
  stixDoc "1.0" [el nsTTP "Motivation" [] [alienNote]]

example : inForce none (stixRootVersion docAlien) = some "1.0" ∧ Older stixReleases "1.0" "1.2.1" ∧ Sheltered docAlien ∧ CommasOwn docAlien ∧
    alienNote ∈ docAlien.foreignParts ∧
    ∃ r, stixUpdate w0 docAlien none none o0 false 0 = .ok r ∧ r.1.doc.elems.map (fun c => (c.e.tag.name, c.e.text)) =
      [("STIX_Package", none), ("Motivation", none), ("Note", some "a, b"), ("By", some "me")] :=
  ⟨by decide +kernel, (older_iff stix_nodup (by decide) (by decide)).2 (by decide), by decide +kernel, commasOwn_of (by decide +kernel),
    foreignParts_mem (by decide +kernel) (by decide +kernel), ok_of_eval (by decide +kernel)⟩

/-- A foreign element with text that has a comma. -/
def alienSize : Node := el "urn:x" "Size" [] [] (some "1,5")

/-- A CybOX 2.0 document with a foreign element in the properties of an object. -/
def docAlienComma : Node :=
  cyboxDoc v20 [el nsCyboxCore "Object" [] [el nsCyboxCore "Properties" [] [alienSize]]]

/-- C56, negation: the commas of foreign text in object properties are replaced, so that the part is nowhere in the result. -/
theorem C56_comma_fails : Sheltered docAlienComma ∧ cyboxSource docAlienComma none = .ok (some "2.0") ∧ alienSize ∈ docAlienComma.foreignParts ∧
    ∃ r, cyboxUpdate docAlienComma none none o0 false 0 = .ok r ∧ alienSize ∉ r.1.doc.elems.map Ctx.node ∧
      el "urn:x" "Size" [] [] (some "1##comma##5") ∈ r.1.doc.elems.map Ctx.node :=
  ⟨by decide +kernel, by decide +kernel, foreignParts_mem (by decide +kernel) (by decide +kernel), ok_of_eval (by decide +kernel)⟩

/-- A CybOX 2.0.1 document with a foreign element in a header field. -/
def docAlienField : Node :=
  cyboxDoc v201 [el "http://cybox.mitre.org/objects#HTTPSessionObject-2" "DNT" []
    [el "http://cybox.mitre.org/objects#URIObject-2" "Value" [] [] (some "1"), alienSize]]

/-- C56, negation: foreign content of a replaced field is lost. -/
theorem C56_lost_fails : CommasOwn docAlienField ∧ cyboxSource docAlienField none = .ok (some "2.0.1") ∧ alienSize ∈ docAlienField.foreignParts ∧
    ∃ r, cyboxUpdate docAlienField none none o0 false 0 = .ok r ∧ alienSize ∉ r.1.doc.elems.map Ctx.node ∧
      r.1.doc.elems.map (fun c => (c.e.tag.name, c.e.text)) = [("Observables", none), ("DNT", some "1")] :=
  ⟨commasOwn_of (by decide +kernel), by decide +kernel, foreignParts_mem (by decide +kernel) (by decide +kernel), ok_of_eval (by decide +kernel)⟩

/-- A 1.0.1 package with a foreign element among the contributors. -/
def docAlienContributor : Node :=
  stixDoc "1.0.1" [el nsCommon "Contributors" [] [alienSize]]

/-- C56, negation: a foreign contributor is renamed. -/
theorem C56_contributor_fails : CommasOwn docAlienContributor ∧ inForce none (stixRootVersion docAlienContributor) = some "1.0.1" ∧
    alienSize ∈ docAlienContributor.foreignParts ∧
    ∃ r, stixUpdate w0 docAlienContributor none (some "1.1") o0 false 0 = .ok r ∧ alienSize ∉ r.1.doc.elems.map Ctx.node ∧
      r.1.doc.elems.map (fun c => (c.e.tag.name, c.e.text)) =
        [("STIX_Package", none), ("Contributing_Sources", none), ("Source", none), ("Identity", some "1,5")] :=
  ⟨commasOwn_of (by decide +kernel), by decide +kernel, foreignParts_mem (by decide +kernel) (by decide +kernel), ok_of_eval (by decide +kernel)⟩

/-- A CybOX 2.0 document with a foreign element beside the properties of an object. -/
def docAlienObject : Node := cyboxDoc v20 [el nsCyboxCore "Object" [] [el nsCyboxCore "Properties" [] [el "urn:x" "Nil"], alienSize]]

example : cyboxSource docAlienObject none = .ok (some "2.0") ∧ Older cyboxReleases "2.0" "2.1" ∧ Sheltered docAlienObject ∧
    CommasOwn docAlienObject ∧ alienSize ∈ docAlienObject.foreignParts ∧
    ∃ r, cyboxUpdate docAlienObject none none o0 false 0 = .ok r ∧ alienSize ∈ r.1.doc.elems.map Ctx.node :=
  ⟨by decide +kernel, (older_iff cybox_nodup (by decide) (by decide)).2 (by decide), by decide +kernel, commasOwn_of (by decide +kernel),
    foreignParts_mem (by decide +kernel) (by decide +kernel), ok_of_eval (by decide +kernel)⟩

end Ramrod

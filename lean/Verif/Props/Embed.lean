import Verif.Props.Split
import Verif.Props.Total
/-!
# C71: CybOX content inside a STIX package is updated like a CybOX document
-/

namespace Ramrod

/-! ## Specification -/

/-- The namespaces of STIX and of its data markings. -/
def ofStix (n : String) : Bool :=
  "http://stix.mitre.org/".toList.isPrefixOf n.toList || "http://data-marking.mitre.org/".toList.isPrefixOf n.toList

/-- `stix:Observables`, which holds the observables of a STIX package. -/
def stixObservables : QName := ⟨some "http://stix.mitre.org/stix-1", "Observables"⟩
/-- `cybox:Observables`, the root of a CybOX document. -/
def cyboxObservables : QName := ⟨some "http://cybox.mitre.org/cybox-2", "Observables"⟩

/-- The types of STIX that the STIX updaters look for by name. -/
def stixTypeNames : List String :=
  ["MotivationVocab-1.0", "MotivationVocab-1.0.1", "PlanningAndOperationalSupportVocab-1.0", "IndicatorTypeVocab-1.0",
    "AvailabilityLossTypeVocab-1.0", "DiscoveryMethodVocab-1.0", "GenericTestMechanismType"]

/-- The element is not of STIX: neither its name nor its type is, and it is no root of a CybOX document. -/
def NotStix (e : Elem) : Prop :=
  (∀ n, e.tag.ns = some n → ofStix n = false) ∧ e.tag ≠ cyboxObservables ∧
    ∀ v, (tagXsiType, v) ∈ e.attrs → ∀ p ty, IsQType v p ty → ty ∉ stixTypeNames

/-- The same CybOX version is written on both elements. -/
def SameVersion (a b : Elem) : Prop := ∀ q ∈ cyboxVersionNames, a.get? q = b.get? q

/-- The release of CybOX that goes with a release of STIX. -/
def cyboxRelease (v : String) : String := if v = "1.0" then "2.0" else if v = "1.0.1" then "2.0.1" else "2.1"

/-! ## Helpers: a package around CybOX content -/

/-- `t` is a package that holds only observables, `a` the CybOX document with the same content and the same namespaces in scope. -/
def Inside (t a : Node) : Prop := ∃ e oe oa ks, t = .elem e [.elem oe ks] ∧ a = .elem oa ks ∧ e.tag = packageTag ∧
  oe.tag = stixObservables ∧ oa.tag = cyboxObservables ∧ oe.get? tagXsiType = none ∧ oa.decls = oe.decls ++ e.decls ∧
  SameVersion oe oa ∧ Node.Alls NotStix ks

/-- The same element one level further down. -/
def Ctx.deeper (c : Ctx) : Ctx :=
  ⟨c.pos ++ [0], c.env, c.anc.dropLast ++ [stixObservables, packageTag], c.e, c.kids⟩

mutual
theorem walk_deeper {pos : Pos} {env : NsMap} {l : List QName} : ∀ t : Node,
    t.walk (pos ++ [0]) env (l ++ [stixObservables, packageTag]) = (t.walk pos env (l ++ [cyboxObservables])).map Ctx.deeper
  | .other _ _ => rfl
  | .elem e ks => by
    have ih := walks_deeper (pos := pos) (i := 0) (env := e.decls ++ env) (l := e.tag :: l) ks
    simp only [Node.walk, List.map_cons]
    simp only [List.cons_append] at ih
    rw [ih]
    simp [Ctx.deeper]
theorem walks_deeper {pos : Pos} {i : Nat} {env : NsMap} {l : List QName} : ∀ ks : List Node,
    Node.walks (pos ++ [0]) i env (l ++ [stixObservables, packageTag]) ks =
      (Node.walks pos i env (l ++ [cyboxObservables]) ks).map Ctx.deeper
  | [] => rfl
  | k :: ks => by
    have ih := walk_deeper (pos := i :: pos) (env := env) (l := l) k
    simp only [List.cons_append] at ih
    simp only [Node.walks, List.map_append]
    rw [ih, walks_deeper ks]
end

mutual
theorem walk_last {pos : Pos} {env : NsMap} {l : List QName} {q : QName} : ∀ t : Node, ∀ c ∈ t.walk pos env (l ++ [q]),
    ∃ l', c.anc = l' ++ [q]
  | .other _ _ => by simp [Node.walk]
  | .elem e ks => by
    intro c hc
    simp only [Node.walk, List.mem_cons] at hc
    rcases hc with rfl | hc
    · exact ⟨l, rfl⟩
    · exact walks_last (l := e.tag :: l) ks c hc
theorem walks_last {pos : Pos} {i : Nat} {env : NsMap} {l : List QName} {q : QName} : ∀ ks : List Node,
    ∀ c ∈ Node.walks pos i env (l ++ [q]) ks, ∃ l', c.anc = l' ++ [q]
  | [] => by simp [Node.walks]
  | k :: ks => by
    intro c hc
    simp only [Node.walks, List.mem_append] at hc
    rcases hc with hc | hc
    · exact walk_last k c hc
    · exact walks_last ks c hc
end

/-- An element of the content. -/
def Ctx.Content (c : Ctx) : Prop := NotStix c.e ∧ c.node.All NotStix ∧ (∃ l, c.anc = l ++ [cyboxObservables]) ∧ c.pos ≠ []

/-- The elements of the two documents. -/
theorem inside_elems {t a : Node} (h : Inside t a) : ∃ (d1 d2 d3 : Ctx) (L : List Ctx), t.elems = d1 :: d2 :: L.map Ctx.deeper ∧
    a.elems = d3 :: L ∧ a.descs = L ∧ t.descs = d2 :: L.map Ctx.deeper ∧ (∀ c ∈ L, c.Content) ∧
    d1.anc = [] ∧ d1.e.tag = packageTag ∧ d2.anc = [packageTag] ∧ d2.e.tag = stixObservables ∧ d2.e.get? tagXsiType = none ∧
    d3.anc = [] ∧ d3.e.tag = cyboxObservables ∧ SameVersion d2.e d3.e := by
  obtain ⟨e, oe, oa, ks, rfl, rfl, he, hoe, hoa, hx, hd, hv, hks⟩ := h
  have hw := walks_deeper (pos := []) (i := 0) (env := oe.decls ++ (e.decls ++ [])) (l := []) ks
  simp only [List.nil_append] at hw
  have henv : oa.decls ++ [] = oe.decls ++ (e.decls ++ []) := by rw [hd, List.append_assoc]
  have ha : (Node.elem oa ks).descs = Node.walks [] 0 (oe.decls ++ (e.decls ++ [])) [cyboxObservables] ks := by
    rw [descs_elem, hoa, henv]
  have ht : (Node.elem e [.elem oe ks]).descs = ⟨[0], oe.decls ++ (e.decls ++ []), [packageTag], oe, ks⟩ ::
      (Node.walks [] 0 (oe.decls ++ (e.decls ++ [])) [cyboxObservables] ks).map Ctx.deeper := by
    rw [descs_elem, ← hw]
    simp only [Node.walks, Node.walk, List.append_nil, he, hoe]
  refine ⟨_, _, _, _, by rw [elems_elem, ht], by rw [elems_elem, ha], ha, ht, fun c hc => ⟨?_, ?_, ?_, ?_⟩, rfl, he, rfl, hoe, hx, rfl,
    hoa, hv⟩
  · exact (alls_walks _ _ _ _ ks).1 hks c hc
  · exact all_of_walks ks hks c hc
  · exact walks_last (l := []) ks c hc
  · rw [← ha] at hc
    exact descs_pos_ne _ hc

/-! ## In-place changes -/

/-- The change `F` of the package does with the content what `G` does with the content of the CybOX document. -/
structure FitsIn (F G : Ctx → Elem) : Prop where
  deep : ∀ pos env l e ks, NotStix e → F ⟨pos ++ [0], env, l ++ [stixObservables, packageTag], e, ks⟩ = G ⟨pos, env, l ++ [cyboxObservables], e, ks⟩ ∧
    NotStix (G ⟨pos, env, l ++ [cyboxObservables], e, ks⟩)
  root : ∀ env e ks, e.tag = packageTag → (F ⟨[], env, [], e, ks⟩).tag = e.tag ∧ (F ⟨[], env, [], e, ks⟩).decls = e.decls
  head : ∀ env e ks, e.tag = stixObservables → e.get? tagXsiType = none → (F ⟨[0], env, [packageTag], e, ks⟩).tag = e.tag ∧
    (F ⟨[0], env, [packageTag], e, ks⟩).decls = e.decls ∧ (F ⟨[0], env, [packageTag], e, ks⟩).get? tagXsiType = none
  other : ∀ env e ks, e.tag = cyboxObservables → (G ⟨[], env, [], e, ks⟩).tag = e.tag ∧ (G ⟨[], env, [], e, ks⟩).decls = e.decls
  version : ∀ env e ks e', e.tag = stixObservables → e'.tag = cyboxObservables → e.get? tagXsiType = none → SameVersion e e' →
    SameVersion (F ⟨[0], env, [packageTag], e, ks⟩) (G ⟨[], env, [], e', ks⟩)

mutual
theorem mapCtx_deeper {F G : Ctx → Elem} (h : FitsIn F G) {pos : Pos} {env : NsMap} {l : List QName} : ∀ t : Node, t.All NotStix →
    t.mapCtx F (pos ++ [0]) env (l ++ [stixObservables, packageTag]) = t.mapCtx G pos env (l ++ [cyboxObservables]) ∧
      (t.mapCtx G pos env (l ++ [cyboxObservables])).All NotStix
  | .other _ _, _ => by simp [Node.mapCtx, Node.All]
  | .elem e ks, ha => by
    obtain ⟨h1, h2⟩ := mapCtxs_deeper h (pos := pos) (i := 0) (env := e.decls ++ env) (l := e.tag :: l) ks ha.2
    obtain ⟨h3, h4⟩ := h.deep pos (e.decls ++ env) l e ks ha.1
    simp only [List.cons_append] at h1 h2
    simp only [Node.mapCtx, Node.All]
    rw [h1, h3]
    exact ⟨rfl, h4, h2⟩
theorem mapCtxs_deeper {F G : Ctx → Elem} (h : FitsIn F G) {pos : Pos} {i : Nat} {env : NsMap} {l : List QName} : ∀ ks : List Node,
    Node.Alls NotStix ks →
    Node.mapCtxs F (pos ++ [0]) i env (l ++ [stixObservables, packageTag]) ks = Node.mapCtxs G pos i env (l ++ [cyboxObservables]) ks ∧
      Node.Alls NotStix (Node.mapCtxs G pos i env (l ++ [cyboxObservables]) ks)
  | [], _ => by simp [Node.mapCtxs, Node.Alls]
  | k :: ks, ha => by
    obtain ⟨h1, h2⟩ := mapCtx_deeper h (pos := i :: pos) (env := env) (l := l) k ha.1
    obtain ⟨h3, h4⟩ := mapCtxs_deeper h (pos := pos) (i := i + 1) (env := env) (l := l) ks ha.2
    simp only [List.cons_append] at h1
    simp only [Node.mapCtxs, Node.Alls]
    rw [h1, h3]
    exact ⟨rfl, h2, h4⟩
end

theorem edit_inside {F G : Ctx → Elem} (h : FitsIn F G) {t a : Node} (hi : Inside t a) : Inside (t.edit F) (a.edit G) := by
  obtain ⟨e, oe, oa, ks, rfl, rfl, he, hoe, hoa, hx, hd, hv, hks⟩ := hi
  have henv : oa.decls ++ [] = oe.decls ++ (e.decls ++ []) := by rw [hd, List.append_assoc]
  obtain ⟨h1, h2⟩ := mapCtxs_deeper h (pos := []) (i := 0) (env := oe.decls ++ (e.decls ++ [])) (l := []) ks hks
  simp only [List.nil_append] at h1 h2
  obtain ⟨r1, r2⟩ := h.root (e.decls ++ []) e [.elem oe ks] he
  obtain ⟨s1, s2, s3⟩ := h.head (oe.decls ++ (e.decls ++ [])) oe ks hoe hx
  obtain ⟨q1, q2⟩ := h.other (oe.decls ++ (e.decls ++ [])) oa ks hoa
  have q3 := h.version (oe.decls ++ (e.decls ++ [])) oe ks oa hoe hoa hx hv
  refine ⟨_, _, _, _, ?_, ?_, r1.trans he, s1.trans hoe, q1.trans hoa, s3, ?_, q3, h2⟩
  · simp only [Node.mapCtx, Node.mapCtxs]
    rw [he, hoe, h1]
  · simp only [Node.mapCtx]
    rw [hoa, henv]
  · rw [q2, s2, r2, hd]

/-! ## Replacements and removals -/

mutual
theorem subst_deeper {r : Pos → Option Node} {pos : Pos} : ∀ t : Node,
    t.subst r (pos ++ [0]) = t.subst (fun p => r (p ++ [0])) pos
  | .other _ _ => rfl
  | .elem e ks => by
    simp only [Node.subst]
    rw [substs_deeper ks]
theorem substs_deeper {r : Pos → Option Node} {pos : Pos} {i : Nat} : ∀ ks : List Node,
    Node.substs r (pos ++ [0]) i ks = Node.substs (fun p => r (p ++ [0])) pos i ks
  | [] => rfl
  | k :: ks => by
    have ih := subst_deeper (r := r) (pos := i :: pos) k
    simp only [List.cons_append] at ih
    simp only [Node.substs]
    rw [ih, substs_deeper ks]
end

mutual
theorem prune_deeper {s : Pos → Bool} {pos : Pos} : ∀ t : Node,
    t.prune s (pos ++ [0]) = t.prune (fun p => s (p ++ [0])) pos
  | .other _ _ => rfl
  | .elem e ks => by
    simp only [Node.prune]
    rw [prunes_deeper ks]
theorem prunes_deeper {s : Pos → Bool} {pos : Pos} {i : Nat} : ∀ ks : List Node,
    Node.prunes s (pos ++ [0]) i ks = Node.prunes (fun p => s (p ++ [0])) pos i ks
  | [] => rfl
  | .other _ _ :: ks => by simp only [Node.prunes]; rw [prunes_deeper ks]
  | .elem e es :: ks => by
    have ih := prune_deeper (s := s) (pos := i :: pos) (.elem e es)
    simp only [List.cons_append] at ih
    simp only [Node.prunes]
    rw [ih, prunes_deeper ks]
    rfl
end

theorem posLookup_deeper {p : Pos} : ∀ l : List (Pos × Node),
    posLookup (l.map (fun x => (x.1 ++ [0], x.2))) (p ++ [0]) = posLookup l p
  | [] => rfl
  | (q, m) :: xs => by
    simp only [List.map_cons, posLookup, List.append_cancel_right_eq]
    rw [posLookup_deeper xs]

theorem replaceAll_inside {t a : Node} (hi : Inside t a) {l : List (Pos × Node)} (hl : ∀ x ∈ l, x.1 ≠ [] ∧ x.2.All NotStix) :
    Inside (t.replaceAll (l.map (fun x => (x.1 ++ [0], x.2)))) (a.replaceAll l) := by
  obtain ⟨e, oe, oa, ks, rfl, rfl, he, hoe, hoa, hx, hd, hv, hks⟩ := hi
  have hnil : posLookup l [] = none := posLookup_none (fun hm => by
    obtain ⟨x, hx, h0⟩ := List.mem_map.1 hm
    exact (hl x hx).1 h0)
  have h0 : posLookup (l.map (fun x => (x.1 ++ [0], x.2))) [0] = none := by
    have := posLookup_deeper (p := []) l
    simp only [List.nil_append] at this
    rw [this, hnil]
  have hs : Node.substs (fun p => if p = [] then none else posLookup (l.map (fun x => (x.1 ++ [0], x.2))) p) [0] 0 ks =
      Node.substs (fun p => if p = [] then none else posLookup l p) [] 0 ks := by
    have := substs_deeper (r := fun p => if p = [] then none else posLookup (l.map (fun x => (x.1 ++ [0], x.2))) p) (pos := []) (i := 0) ks
    simp only [List.nil_append] at this
    rw [this]
    congr 1
    funext p
    rw [if_neg (by simp), posLookup_deeper]
    by_cases hp : p = []
    · rw [if_pos hp, hp, hnil]
    · rw [if_neg hp]
  refine ⟨e, oe, oa, Node.substs (fun p => if p = [] then none else posLookup l p) [] 0 ks, ?_, ?_, he, hoe, hoa, hx, hd, hv, ?_⟩
  · simp only [Node.replaceAll, Node.subst, Node.substs, if_true]
    rw [if_neg (by simp), h0]
    simp only [hs]
  · simp only [Node.replaceAll, Node.subst, if_true]
  · refine all_substs (fun p n hn => ?_) ks hks
    by_cases hp : p = []
    · rw [if_pos hp] at hn; cases hn
    · rw [if_neg hp] at hn
      exact (hl _ (posLookup_mem hn)).2

theorem removeAll_inside {t a : Node} (hi : Inside t a) {l : List Pos} (hl : ∀ p ∈ l, p ≠ []) :
    Inside (t.removeAll (l.map (fun p => p ++ [0]))) (a.removeAll l) := by
  obtain ⟨e, oe, oa, ks, rfl, rfl, he, hoe, hoa, hx, hd, hv, hks⟩ := hi
  have h0 : decide ([0] ∈ l.map (fun p => p ++ [0])) = false := by
    apply decide_eq_false
    intro hm
    obtain ⟨p, hp, h1⟩ := List.mem_map.1 hm
    have : p ++ [0] = [] ++ [0] := h1
    exact hl p hp (List.append_cancel_right this)
  have hs : Node.prunes (fun p => decide (p ∈ l.map (fun p => p ++ [0]))) [0] 0 ks = Node.prunes (fun p => decide (p ∈ l)) [] 0 ks := by
    have := prunes_deeper (s := fun p => decide (p ∈ l.map (fun p => p ++ [0]))) (pos := []) (i := 0) ks
    simp only [List.nil_append] at this
    rw [this]
    congr 1
    funext p
    apply decide_eq_decide.2
    rw [List.mem_map]
    constructor
    · rintro ⟨q, hq, h1⟩
      rw [← List.append_cancel_right h1]; exact hq
    · intro hp
      exact ⟨p, hp, rfl⟩
  refine ⟨e, oe, oa, Node.prunes (fun p => decide (p ∈ l)) [] 0 ks, ?_, rfl, he, hoe, hoa, hx, hd, hv, all_prunes ks hks⟩
  simp only [Node.removeAll, Node.prune, Node.prunes, h0, Bool.false_eq_true, if_false, hs]

/-! ## Passes -/

/-- What `P` does to the package, `Q` does to the CybOX document. -/
def Embeds (P Q : Node → Except Err Node) : Prop := ∀ t a, Inside t a → ∀ t', P t = .ok t' → ∃ a', Q a = .ok a' ∧ Inside t' a'

theorem Embeds.edit {F G : Ctx → Elem} (h : FitsIn F G) : Embeds (fun t => .ok (t.edit F)) (fun a => .ok (a.edit G)) := by
  intro t a hi t' ht
  cases ht
  exact ⟨_, rfl, edit_inside h hi⟩

theorem Embeds.seq {P Q R P' Q' R' : Node → Except Err Node} (hP : Embeds P P') (hQ : Embeds Q Q')
    (herr : ∀ t x, P t = .error x → R t = .error x) (hok : ∀ t s, P t = .ok s → R t = Q s)
    (hok' : ∀ t s, P' t = .ok s → R' t = Q' s) : Embeds R R' := by
  intro t a hi t' ht
  cases hPt : P t with
  | error x => rw [herr t x hPt] at ht; cases ht
  | ok s =>
    obtain ⟨a1, ha1, hi1⟩ := hP t a hi s hPt
    obtain ⟨a2, ha2, hi2⟩ := hQ s a1 hi1 t' (by rw [← hok t s hPt]; exact ht)
    exact ⟨a2, by rw [hok' a a1 ha1]; exact ha2, hi2⟩

theorem Embeds.fold {α : Type} {f : Node → α → Except Err Node} : ∀ (l : List α),
    (∀ x ∈ l, Embeds (fun t => f t x) (fun t => f t x)) → Embeds (fun t => foldE f t l) (fun t => foldE f t l)
  | [], _ => fun t a hi t' ht => by cases ht; exact ⟨a, rfl, hi⟩
  | x :: xs, h => by
    refine (h x (by simp)).seq (Embeds.fold xs (fun y hy => h y (by simp [hy]))) ?_ ?_ ?_
    · intro t y hy; simp only [foldE, hy]
    · intro t s hs; simp only [foldE, hs]
    · intro t s hs; simp only [foldE, hs]

/-- The pass does nothing to the CybOX content of the package. -/
def Spares (P : Node → Except Err Node) : Prop := ∀ t a, Inside t a → ∀ t', P t = .ok t' → Inside t' a

theorem Spares.fold {α : Type} {f : Node → α → Except Err Node} : ∀ (l : List α),
    (∀ x ∈ l, Spares (fun t => f t x)) → Spares (fun t => foldE f t l)
  | [], _ => fun t a hi t' ht => by cases ht; exact hi
  | x :: xs, h => fun t a hi t' ht => by
    simp only [foldE] at ht
    split at ht
    · cases ht
    · next s hs => exact Spares.fold xs (fun y hy => h y (by simp [hy])) s a (h x (by simp) t a hi s hs) t' ht

theorem spares_edit {F : Ctx → Elem} (h : FitsIn F (fun c => c.e)) {t a : Node} (hi : Inside t a) : Inside (t.edit F) a := by
  have := edit_inside h hi
  rwa [edit_self (F := fun c : Ctx => c.e) (t := a) (fun _ _ => rfl)] at this

/-! ## Paths -/

/-- No step of the path is `Observables`. -/
def parentsOff (m : List (String × String)) (alts : List XAlt) : Bool :=
  alts.all (fun a => match a.parent with
    | none => true
    | some p => decide (p.resolve m ≠ cyboxObservables ∧ p.resolve m ≠ stixObservables))

/-- The path does not end in a package or in `Observables`. -/
def headsOff (m : List (String × String)) (alts : List XAlt) : Bool :=
  alts.all (fun a => decide (a.tag.resolve m ≠ packageTag ∧ a.tag.resolve m ≠ cyboxObservables ∧ a.tag.resolve m ≠ stixObservables))

/-- The path ends in an element of STIX or in `cybox:Observables`. -/
def contentOff (m : List (String × String)) (alts : List XAlt) : Bool :=
  alts.all (fun a => (match (a.tag.resolve m).ns with | some n => ofStix n | none => false) || decide (a.tag.resolve m = cyboxObservables))

theorem selects_tag {m : List (String × String)} {a : XAlt} {c : Ctx} (h : a.selects m c = true) : c.e.tag = a.tag.resolve m := by
  unfold XAlt.selects at h
  simp only [Bool.and_eq_true, decide_eq_true_eq] at h
  exact h.1.1

theorem any_content {m : List (String × String)} {alts : List XAlt} (ha : contentOff m alts = true) {c : Ctx} (hc : NotStix c.e) :
    alts.any (fun a => a.selects m c) = false := by
  cases h : alts.any (fun a => a.selects m c) with
  | false => rfl
  | true =>
    exfalso
    obtain ⟨a, ham, hs⟩ := List.any_eq_true.1 h
    have ht := selects_tag hs
    have := List.all_eq_true.1 ha a ham
    simp only [Bool.or_eq_true, decide_eq_true_eq] at this
    rcases this with h1 | h1
    · split at h1
      · next n hn => rw [hc.1 n (by rw [ht]; exact hn)] at h1; cases h1
      · cases h1
    · exact hc.2.1 (ht.trans h1)

theorem any_heads {m : List (String × String)} {alts : List XAlt} (ha : headsOff m alts = true) {c : Ctx}
    (hc : c.e.tag = packageTag ∨ c.e.tag = cyboxObservables ∨ c.e.tag = stixObservables) :
    alts.any (fun a => a.selects m c) = false := by
  cases h : alts.any (fun a => a.selects m c) with
  | false => rfl
  | true =>
    exfalso
    obtain ⟨a, ham, hs⟩ := List.any_eq_true.1 h
    have ht := selects_tag hs
    have := List.all_eq_true.1 ha a ham
    simp only [decide_eq_true_eq, ← ht] at this
    rcases hc with hc | hc | hc
    · exact this.1 hc
    · exact this.2.1 hc
    · exact this.2.2 hc

theorem any_deeper {m : List (String × String)} {alts : List XAlt} (ha : parentsOff m alts = true) (pos pos' : Pos) (env : NsMap)
    (l : List QName) (e : Elem) (ks : List Node) :
    alts.any (fun a => a.selects m ⟨pos', env, l ++ [stixObservables, packageTag], e, ks⟩) =
      alts.any (fun a => a.selects m ⟨pos, env, l ++ [cyboxObservables], e, ks⟩) := by
  induction alts with
  | nil => rfl
  | cons a as ih =>
    simp only [parentsOff, List.all_cons, Bool.and_eq_true] at ha
    simp only [List.any_cons]
    rw [ih (by simpa [parentsOff] using ha.2)]
    congr 1
    have h1 := ha.1
    unfold XAlt.selects
    have hp : a.pred.holds m ⟨pos', env, l ++ [stixObservables, packageTag], e, ks⟩ =
        a.pred.holds m ⟨pos, env, l ++ [cyboxObservables], e, ks⟩ := by cases a.pred <;> rfl
    rw [hp]
    congr 2
    cases hpar : a.parent with
    | none => simp
    | some p =>
      rw [hpar] at h1
      simp only [decide_eq_true_eq] at h1
      cases l with
      | nil =>
        have e1 : ¬ stixObservables = p.resolve m := fun e => h1.2 e.symm
        have e2 : ¬ cyboxObservables = p.resolve m := fun e => h1.1 e.symm
        simp [e1, e2]
      | cons q l => simp

theorem content_eta {c : Ctx} {l : List QName} (h : c.anc = l ++ [cyboxObservables]) :
    c = ⟨c.pos, c.env, l ++ [cyboxObservables], c.e, c.kids⟩ ∧
    c.deeper = ⟨c.pos ++ [0], c.env, l ++ [stixObservables, packageTag], c.e, c.kids⟩ := by
  refine ⟨by rw [← h], ?_⟩
  unfold Ctx.deeper
  rw [h, List.dropLast_concat]

theorem any_content_deeper {m : List (String × String)} {alts : List XAlt} (ha : parentsOff m alts = true) {c : Ctx} (hc : c.Content) :
    alts.any (fun a => a.selects m c.deeper) = alts.any (fun a => a.selects m c) := by
  obtain ⟨_, _, ⟨l, hl⟩, _⟩ := hc
  obtain ⟨h1, h2⟩ := content_eta hl
  rw [h2, any_deeper ha c.pos]
  conv => rhs; rw [h1]

/-- A search below `Observables`. -/
theorem filter_inside {t a : Node} (hi : Inside t a) {p q : Ctx → Bool}
    (h1 : ∀ c : Ctx, c.e.tag = packageTag → c.anc = [] → p c = false)
    (h2 : ∀ c : Ctx, c.e.tag = stixObservables → c.e.get? tagXsiType = none → p c = false)
    (h3 : ∀ c : Ctx, c.e.tag = cyboxObservables → c.anc = [] → q c = false)
    (h4 : ∀ c : Ctx, c.Content → p c.deeper = q c) :
    t.elems.filter p = (a.elems.filter q).map Ctx.deeper ∧ ∀ c ∈ a.elems.filter q, c.Content := by
  obtain ⟨d1, d2, d3, L, ht, ha, _, _, hL, x1, x2, y1, y2, y3, z1, z2, _⟩ := inside_elems hi
  rw [ht, ha, List.filter_cons_of_neg (by rw [h1 d1 x2 x1]; simp), List.filter_cons_of_neg (by rw [h2 d2 y2 y3]; simp),
    List.filter_cons_of_neg (by rw [h3 d3 z2 z1]; simp), List.filter_map]
  refine ⟨?_, fun c hc => hL c (List.mem_filter.1 hc).1⟩
  congr 1
  apply List.filter_congr
  intro c hc
  exact h4 c (hL c hc)

theorem xpath_inside {t a : Node} (hi : Inside t a) {m : List (String × String)} {alts : List XAlt} (hp : parentsOff m alts = true)
    (hh : headsOff m alts = true) : t.xpath m alts = (a.xpath m alts).map Ctx.deeper ∧ ∀ c ∈ a.xpath m alts, c.Content :=
  filter_inside hi (fun _ h _ => any_heads hh (Or.inl h)) (fun _ h _ => any_heads hh (Or.inr (Or.inr h)))
    (fun _ h _ => any_heads hh (Or.inr (Or.inl h))) (fun _ hc => any_content_deeper hp hc)

theorem xpath_spared {t a : Node} (hi : Inside t a) {m : List (String × String)} {alts : List XAlt} (hp : contentOff m alts = true)
    (hh : headsOff m alts = true) : t.xpath m alts = [] := by
  have := (filter_inside hi (p := fun c => alts.any (fun a => a.selects m c)) (q := fun _ => false)
    (fun _ h _ => any_heads hh (Or.inl h)) (fun _ h _ => any_heads hh (Or.inr (Or.inr h))) (fun _ _ _ => rfl)
    (fun c hc => any_content hp (c := c.deeper) hc.1)).1
  unfold Node.xpath
  rw [this]
  simp

/-! ## The passes -/

theorem sameVersion_schemaloc {e e' : Elem} (u : Cls) (h : SameVersion e e') : SameVersion e (u.updateSchemalocsElem e') := by
  intro q hq
  rw [updateSchemalocsElem_get? u e' (by
    simp only [cyboxVersionNames, List.mem_cons, List.not_mem_nil, or_false] at hq
    rcases hq with rfl | rfl | rfl <;> decide)]
  exact h q hq

theorem fits_schemaloc (u u' : Cls) : FitsIn (schemalocEdit u) (schemalocEdit u') where
  deep pos env l e ks he := by simp [schemalocEdit, he]
  root env e ks _ := by simp [schemalocEdit, updateSchemalocsElem_tag, updateSchemalocsElem_decls]
  head env e ks _ hx := by simp [schemalocEdit, hx]
  other env e ks _ := by simp [schemalocEdit, updateSchemalocsElem_tag, updateSchemalocsElem_decls]
  version env e ks e' _ _ _ hv := by
    simp only [schemalocEdit, List.isEmpty_cons, List.isEmpty_nil, if_true, Bool.false_eq_true, if_false]
    exact sameVersion_schemaloc u' hv

theorem spares_schemaloc (u : Cls) : FitsIn (schemalocEdit u) (fun c => c.e) where
  deep pos env l e ks he := by simp [schemalocEdit, he]
  root env e ks _ := by simp [schemalocEdit, updateSchemalocsElem_tag, updateSchemalocsElem_decls]
  head env e ks _ hx := by simp [schemalocEdit, hx]
  other env e ks _ := ⟨rfl, rfl⟩
  version env e ks e' _ _ _ hv := by simpa [schemalocEdit] using hv

/-- The CybOX version pass: it changes `Observables` in both documents, and nothing of the content. -/
theorem fits_version {m m' : List (String × String)} {alts alts' : List XAlt} {g : Elem → Elem}
    (h1 : contentOff m alts = true) (h1' : contentOff m' alts' = true)
    (h3 : alts.any (fun a => decide (a.tag.resolve m = stixObservables) && a.parent.isNone && decide (a.pred = .none)) = true)
    (h4 : alts'.any (fun a => decide (a.tag.resolve m' = cyboxObservables) && a.abs && a.parent.isNone && decide (a.pred = .none)) = true)
    (hg : ∀ e, (g e).tag = e.tag ∧ (g e).decls = e.decls ∧ (g e).get? tagXsiType = e.get? tagXsiType)
    (hv : ∀ e e', SameVersion e e' → SameVersion (g e) (g e')) : FitsIn (versionEdit m alts g) (versionEdit m' alts' g) where
  deep pos env l e ks he := by
    simp only [versionEdit]
    rw [any_content h1 (c := ⟨pos ++ [0], env, l ++ [stixObservables, packageTag], e, ks⟩) he,
      any_content h1' (c := ⟨pos, env, l ++ [cyboxObservables], e, ks⟩) he]
    exact ⟨rfl, he⟩
  root env e ks he := by
    simp only [versionEdit]
    split
    · exact ⟨(hg e).1, (hg e).2.1⟩
    · exact ⟨rfl, rfl⟩
  head env e ks he hx := by
    simp only [versionEdit]
    split
    · exact ⟨(hg e).1, (hg e).2.1, by rw [(hg e).2.2]; exact hx⟩
    · exact ⟨rfl, rfl, hx⟩
  other env e ks he := by
    simp only [versionEdit]
    split
    · exact ⟨(hg e).1, (hg e).2.1⟩
    · exact ⟨rfl, rfl⟩
  version env e ks e' he he' _ hs := by
    have s1 : alts.any (fun a => a.selects m ⟨[0], env, [packageTag], e, ks⟩) = true := by
      obtain ⟨a, ha, h⟩ := List.any_eq_true.1 h3
      refine List.any_eq_true.2 ⟨a, ha, ?_⟩
      simp only [Bool.and_eq_true, decide_eq_true_eq, Option.isNone_iff_eq_none] at h
      unfold XAlt.selects
      rw [h.1.2, h.2, h.1.1, he]
      simp [XPred.holds]
    have s2 : alts'.any (fun a => a.selects m' ⟨[], env, [], e', ks⟩) = true := by
      obtain ⟨a, ha, h⟩ := List.any_eq_true.1 h4
      refine List.any_eq_true.2 ⟨a, ha, ?_⟩
      simp only [Bool.and_eq_true, decide_eq_true_eq, Option.isNone_iff_eq_none] at h
      unfold XAlt.selects
      rw [h.1.2, h.2, h.1.1.1, h.1.1.2, he']
      simp [XPred.holds]
    simp only [versionEdit, s1, s2, if_true]
    exact hv e e' hs

/-- The STIX version pass. -/
theorem spares_version {m : List (String × String)} {alts : List XAlt} {g : Elem → Elem} (h1 : contentOff m alts = true)
    (h2 : alts.all (fun a => decide (a.tag.resolve m ≠ stixObservables)) = true)
    (hg : ∀ e, (g e).tag = e.tag ∧ (g e).decls = e.decls) : FitsIn (versionEdit m alts g) (fun c => c.e) := by
  have off : ∀ c : Ctx, c.e.tag = stixObservables → alts.any (fun a => a.selects m c) = false := by
    intro c hc
    cases h : alts.any (fun a => a.selects m c) with
    | false => rfl
    | true =>
      exfalso
      obtain ⟨a, ham, hs⟩ := List.any_eq_true.1 h
      have := List.all_eq_true.1 h2 a ham
      rw [decide_eq_true_eq, ← selects_tag hs] at this
      exact this hc
  exact {
    deep := fun pos env l e ks he => by
      simp only [versionEdit]
      rw [any_content h1 (c := ⟨pos ++ [0], env, l ++ [stixObservables, packageTag], e, ks⟩) he]
      exact ⟨rfl, he⟩
    root := fun env e ks he => by
      simp only [versionEdit]
      split
      · exact hg e
      · exact ⟨rfl, rfl⟩
    head := fun env e ks he hx => by
      simp only [versionEdit]
      rw [off ⟨[0], env, [packageTag], e, ks⟩ he]
      exact ⟨rfl, rfl, hx⟩
    other := fun env e ks _ => ⟨rfl, rfl⟩
    version := fun env e ks e' he _ _ hv => by
      simp only [versionEdit]
      rw [off ⟨[0], env, [packageTag], e, ks⟩ he]
      exact hv }

theorem propsDepth_deeper {obj prop : QName} (h : prop ≠ stixObservables ∧ prop ≠ packageTag ∧ prop ≠ cyboxObservables)
    (h' : obj ≠ stixObservables ∧ obj ≠ cyboxObservables) : ∀ l : List QName,
    propsDepth obj prop (l ++ [stixObservables, packageTag]) = propsDepth obj prop (l ++ [cyboxObservables])
  | [] => by
    have a1 : ¬ stixObservables = prop := fun e => h.1 e.symm
    have a2 : ¬ packageTag = prop := fun e => h.2.1 e.symm
    have a3 : ¬ cyboxObservables = prop := fun e => h.2.2 e.symm
    simp [propsDepth, a1, a2, a3]
  | q :: l => by
    simp only [List.cons_append, propsDepth]
    rw [propsDepth_deeper h h' l]
    cases l with
    | nil =>
      have a1 : ¬ stixObservables = obj := fun e => h'.1 e.symm
      have a2 : ¬ cyboxObservables = obj := fun e => h'.2 e.symm
      simp [a1, a2]
    | cons r l => simp

theorem notStix_congr {e e' : Elem} (ht : e'.tag = e.tag) (ha : e'.attrs = e.attrs) (h : NotStix e) : NotStix e' := by
  unfold NotStix
  rw [ht, ha]
  exact h

theorem fits_lists {m m' : List (String × String)} (h1 : XName.resolve m ⟨"cybox", "Object"⟩ = XName.resolve m' ⟨"cybox", "Object"⟩)
    (h2 : XName.resolve m ⟨"cybox", "Properties"⟩ = XName.resolve m' ⟨"cybox", "Properties"⟩)
    (h3 : XName.resolve m' ⟨"cybox", "Properties"⟩ ≠ stixObservables ∧ XName.resolve m' ⟨"cybox", "Properties"⟩ ≠ packageTag ∧
      XName.resolve m' ⟨"cybox", "Properties"⟩ ≠ cyboxObservables)
    (h4 : XName.resolve m' ⟨"cybox", "Object"⟩ ≠ stixObservables ∧ XName.resolve m' ⟨"cybox", "Object"⟩ ≠ cyboxObservables) :
    FitsIn (listsEdit m) (listsEdit m') where
  deep pos env l e ks he := by
    simp only [listsEdit]
    rw [h1, h2, propsDepth_deeper h3 h4]
    obtain ⟨x1, _, x3, _⟩ := iter_lists_keeps (propsDepth (XName.resolve m' ⟨"cybox", "Object"⟩)
      (XName.resolve m' ⟨"cybox", "Properties"⟩) (l ++ [cyboxObservables])) e
    exact ⟨rfl, notStix_congr x1 x3 he⟩
  root env e ks _ := ⟨(iter_lists_keeps _ e).1, (iter_lists_keeps _ e).2.1⟩
  head env e ks _ hx := ⟨(iter_lists_keeps _ e).1, (iter_lists_keeps _ e).2.1, by
    simp only [listsEdit, Elem.get?]
    rw [(iter_lists_keeps _ e).2.2.1]; exact hx⟩
  other env e ks _ := ⟨(iter_lists_keeps _ e).1, (iter_lists_keeps _ e).2.1⟩
  version env e ks e' _ _ _ hv := by
    intro q hq
    simp only [listsEdit, Elem.get?]
    rw [(iter_lists_keeps _ e).2.2.1, (iter_lists_keeps _ e').2.2.1]
    exact hv q hq

theorem fits_namespaces {u u' : Cls} (hm : u.updateNsMap = u'.updateNsMap) (hd : u.disallowedNs = u'.disallowedNs)
    (hn : ∀ x ∈ u'.updateNsMap, ofStix x.2 = false ∧ x.2 ≠ "http://cybox.mitre.org/cybox-2")
    (h1 : u.nsUpdated packageTag = false) (h2 : u.nsUpdated stixObservables = false) (h3 : u'.nsUpdated cyboxObservables = false) :
    FitsIn (nsEdit u) (nsEdit u') where
  deep pos env l e ks he := by
    have hu : u.nsUpdated e.tag = u'.nsUpdated e.tag := by unfold Cls.nsUpdated; rw [hm]
    have hx : u.updateNsmapElem env e ks = u'.updateNsmapElem env e ks := by
      unfold Cls.updateNsmapElem Cls.remappedTag Cls.remapNamespaces
      rw [hm, hd]
    simp only [nsEdit]
    rw [hu, hx]
    refine ⟨rfl, ?_⟩
    split
    · next hup =>
      have key : ∀ n, e.tag.ns = some n → ∃ x ∈ u'.updateNsMap, assoc u'.updateNsMap n = some x.2 := by
        intro n hn'
        unfold Cls.nsUpdated at hup
        rw [hn'] at hup
        simp only at hup
        obtain ⟨v, hv⟩ := Option.isSome_iff_exists.1 hup
        exact ⟨_, assoc_mem hv, hv⟩
      refine ⟨fun n hn' => ?_, fun hc => ?_, he.2.2⟩
      · cases hns : e.tag.ns with
        | none => simp [Cls.updateNsmapElem, Cls.remappedTag, hns] at hn'
        | some k =>
          obtain ⟨x, hx1, hx2⟩ := key k hns
          simp only [Cls.updateNsmapElem, Cls.remappedTag, hns, Option.map_some, hx2, Option.getD_some, Option.some.injEq] at hn'
          rw [← hn']
          exact (hn x hx1).1
      · cases hns : e.tag.ns with
        | none =>
          have := congrArg QName.ns hc
          simp [Cls.updateNsmapElem, Cls.remappedTag, hns, cyboxObservables] at this
        | some k =>
          obtain ⟨x, hx1, hx2⟩ := key k hns
          have := congrArg QName.ns hc
          simp only [Cls.updateNsmapElem, Cls.remappedTag, hns, Option.map_some, hx2, Option.getD_some, cyboxObservables,
            Option.some.injEq] at this
          exact (hn x hx1).2 this
    · exact he
  root env e ks he := by simp [nsEdit, he, h1]
  head env e ks he hx := by simp [nsEdit, he, h2, hx]
  other env e ks he := by simp [nsEdit, he, h3]
  version env e ks e' he he' _ hv := by simpa [nsEdit, he, he', h2, h3] using hv

/-- Renaming of fields. -/
theorem fits_renamed {m : List (String × String)} {alts : List XAlt} (hp : parentsOff m alts = true) (hh : headsOff m alts = true)
    {tag : QName} (h1 : ∀ n, tag.ns = some n → ofStix n = false) (h2 : tag ≠ cyboxObservables) :
    FitsIn (fun c => if alts.any (fun a => a.selects m c) then { c.e with tag := tag } else c.e)
      (fun c => if alts.any (fun a => a.selects m c) then { c.e with tag := tag } else c.e) where
  deep pos env l e ks he := by
    simp only
    rw [any_deeper hp pos]
    refine ⟨rfl, ?_⟩
    split
    · exact ⟨h1, h2, he.2.2⟩
    · exact he
  root env e ks he := by simp only; rw [any_heads hh (c := ⟨[], env, [], e, ks⟩) (Or.inl he)]; exact ⟨rfl, rfl⟩
  head env e ks he hx := by
    simp only; rw [any_heads hh (c := ⟨[0], env, [packageTag], e, ks⟩) (Or.inr (Or.inr he))]; exact ⟨rfl, rfl, hx⟩
  other env e ks he := by simp only; rw [any_heads hh (c := ⟨[], env, [], e, ks⟩) (Or.inr (Or.inl he))]; exact ⟨rfl, rfl⟩
  version env e ks e' he he' _ hv := by
    simp only
    rw [any_heads hh (c := ⟨[0], env, [packageTag], e, ks⟩) (Or.inr (Or.inr he)), any_heads hh (c := ⟨[], env, [], e', ks⟩) (Or.inr (Or.inl he'))]
    exact hv

end Ramrod

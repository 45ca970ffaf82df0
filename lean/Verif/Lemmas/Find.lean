import Verif.Lemmas.Types
import Verif.Lemmas.Dups
/-!
# Parents and children, finders, groups of equal ids
-/

namespace Ramrod

/-! ## Parents and children -/

mutual
theorem walk_child {pos : Pos} {env : NsMap} {anc : List QName} : ∀ (t : Node), ∀ c ∈ t.walk pos env anc,
    ∀ i e ks, c.kids[i]? = some (.elem e ks) →
      (⟨i :: c.pos, e.decls ++ c.env, c.e.tag :: c.anc, e, ks⟩ : Ctx) ∈ t.walk pos env anc
  | .other _ _, c, hc, _, _, _, _ => by simp [Node.walk] at hc
  | .elem e0 ks0, c, hc, i, e, ks, hk => by
    simp only [Node.walk, List.mem_cons] at hc ⊢
    rcases hc with rfl | hc
    · right
      have := walks_nth (pos := pos) (env := e0.decls ++ env) (anc := e0.tag :: anc) ks0 0 i e ks hk
      simpa using this
    · exact Or.inr (walks_child ks0 c hc i e ks hk)
theorem walks_child {pos : Pos} {n : Nat} {env : NsMap} {anc : List QName} : ∀ (l : List Node),
    ∀ c ∈ Node.walks pos n env anc l, ∀ i e ks, c.kids[i]? = some (.elem e ks) →
      (⟨i :: c.pos, e.decls ++ c.env, c.e.tag :: c.anc, e, ks⟩ : Ctx) ∈ Node.walks pos n env anc l
  | [], c, hc, _, _, _, _ => by simp [Node.walks] at hc
  | k :: l, c, hc, i, e, ks, hk => by
    simp only [Node.walks, List.mem_append] at hc ⊢
    rcases hc with hc | hc
    · exact Or.inl (walk_child k c hc i e ks hk)
    · exact Or.inr (walks_child l c hc i e ks hk)
theorem walks_nth {pos : Pos} {env : NsMap} {anc : List QName} : ∀ (l : List Node) (n i : Nat) (e : Elem) (ks : List Node),
    l[i]? = some (.elem e ks) → (⟨(n + i) :: pos, e.decls ++ env, anc, e, ks⟩ : Ctx) ∈ Node.walks pos n env anc l
  | [], n, i, e, ks, h => by simp at h
  | k :: l, n, 0, e, ks, h => by
    simp only [List.getElem?_cons_zero, Option.some.injEq] at h
    subst h
    simp [Node.walks, Node.walk]
  | k :: l, n, i + 1, e, ks, h => by
    simp only [List.getElem?_cons_succ] at h
    have := walks_nth (pos := pos) (env := env) (anc := anc) l (n + 1) i e ks h
    simp only [Node.walks, List.mem_append]
    right
    rw [show n + (i + 1) = n + 1 + i by omega]
    exact this
end

/-- `d` is the `i`-th child of `c`. -/
def Ctx.ChildOf (d : Ctx) (i : Nat) (c : Ctx) : Prop :=
  d.pos = i :: c.pos ∧ d.env = d.e.decls ++ c.env ∧ d.anc = c.e.tag :: c.anc ∧ c.kids[i]? = some d.node

mutual
theorem walk_parent {pos : Pos} {env : NsMap} {anc : List QName} : ∀ (t : Node), ∀ d ∈ t.walk pos env anc,
    d.pos = pos ∨ ∃ c ∈ t.walk pos env anc, ∃ i, d.ChildOf i c
  | .other _ _, d, hd => by simp [Node.walk] at hd
  | .elem e0 ks0, d, hd => by
    simp only [Node.walk, List.mem_cons] at hd
    rcases hd with rfl | hd
    · exact Or.inl rfl
    · right
      rcases walks_parent ks0 d hd with ⟨i, h1, h2, h3, h4⟩ | ⟨c, hc, h⟩
      · exact ⟨⟨pos, e0.decls ++ env, anc, e0, ks0⟩, by simp [Node.walk], i, by simpa using h1, h2, h3, h4⟩
      · exact ⟨c, by simp [Node.walk, hc], h⟩
theorem walks_parent {pos : Pos} {n : Nat} {env : NsMap} {anc : List QName} : ∀ (l : List Node),
    ∀ d ∈ Node.walks pos n env anc l,
      (∃ i, d.pos = (n + i) :: pos ∧ d.env = d.e.decls ++ env ∧ d.anc = anc ∧ l[i]? = some d.node) ∨
      ∃ c ∈ Node.walks pos n env anc l, ∃ i, d.ChildOf i c
  | [], d, hd => by simp [Node.walks] at hd
  | k :: l, d, hd => by
    simp only [Node.walks, List.mem_append] at hd
    rcases hd with hd | hd
    · rcases walk_parent k d hd with h | ⟨c, hc, h⟩
      · left
        cases k with
        | other _ _ => simp [Node.walk] at hd
        | elem e ks =>
          simp only [Node.walk, List.mem_cons] at hd
          rcases hd with rfl | hd
          · exact ⟨0, by simp, rfl, rfl, rfl⟩
          · exfalso
            obtain ⟨l', j, _, h'⟩ := walks_pos _ _ _ _ ks d hd
            have := congrArg List.length (h'.symm.trans h)
            simp at this
            omega
      · exact Or.inr ⟨c, by simp [Node.walks, hc], h⟩
    · rcases walks_parent l d hd with ⟨i, h1, h2, h3, h4⟩ | ⟨c, hc, h⟩
      · exact Or.inl ⟨i + 1, by rw [h1]; congr 1; omega, h2, h3, by simpa using h4⟩
      · exact Or.inr ⟨c, by simp [Node.walks, hc], h⟩
end

theorem elems_parent {t : Node} {d : Ctx} (hd : d ∈ t.elems) (hr : d.anc ≠ []) :
    ∃ c ∈ t.elems, ∃ i, d.ChildOf i c := by
  rcases walk_parent t d hd with h | h
  · exact absurd ((elems_root_iff hd).1 h) hr
  · exact h

theorem elems_childOf {t : Node} {c d : Ctx} (hc : c ∈ t.elems) (hd : d ∈ t.elems) {i : Nat} (h : d.pos = i :: c.pos) :
    d.ChildOf i c := by
  obtain ⟨c', hc', j, hj⟩ := elems_parent hd (fun ha => by
    have := (elems_root_iff hd).2 ha; rw [h] at this; cases this)
  have h1 := hj.1.symm.trans h
  simp only [List.cons.injEq] at h1
  have := elems_pos_inj hc' hc h1.2
  subst this
  rw [← h1.1]; exact hj

theorem mem_childCtxs {c : Ctx} {d : Ctx} : ∀ {l : List Node} {n : Nat}, d ∈ childCtxs c n l ↔
    ∃ i e ks, l[i]? = some (.elem e ks) ∧ d = ⟨(n + i) :: c.pos, e.decls ++ c.env, c.e.tag :: c.anc, e, ks⟩
  | [], n => by simp [childCtxs]
  | .other a b :: l, n => by
    simp only [childCtxs]
    rw [mem_childCtxs (l := l) (n := n + 1)]
    constructor
    · rintro ⟨i, e, ks, h, rfl⟩
      exact ⟨i + 1, e, ks, by simpa using h, by congr 2; omega⟩
    · rintro ⟨i, e, ks, h, rfl⟩
      cases i with
      | zero => simp at h
      | succ i => exact ⟨i, e, ks, by simpa using h, by congr 2; omega⟩
  | .elem e0 ks0 :: l, n => by
    simp only [childCtxs, List.mem_cons]
    rw [mem_childCtxs (l := l) (n := n + 1)]
    constructor
    · rintro (rfl | ⟨i, e, ks, h, rfl⟩)
      · exact ⟨0, e0, ks0, by simp, by simp⟩
      · exact ⟨i + 1, e, ks, by simpa using h, by congr 2; omega⟩
    · rintro ⟨i, e, ks, h, rfl⟩
      cases i with
      | zero =>
        simp only [List.getElem?_cons_zero, Option.some.injEq, Node.elem.injEq] at h
        obtain ⟨rfl, rfl⟩ := h
        exact Or.inl (by simp)
      | succ i => exact Or.inr ⟨i, e, ks, by simpa using h, by congr 2; omega⟩

/-! ## Finders -/

theorem find_union {alts : List XAlt} {m : List (String × String)} {f : Node → List Ctx → List Ctx} {t : Node}
    (hf : f t [] = []) : (⟨[], .union alts, m, f⟩ : Finder).find t = .ok (f t (t.xpath m alts)) := by
  cases t with
  | other a b =>
    simp only [Finder.find, Finder.contexts, List.isEmpty_nil, if_true, XPath.eval, Node.xpath, Node.elems, Node.walk,
      List.take_nil, List.flatMap_nil, List.filter_nil, hf]
  | elem e ks =>
    simp only [Finder.find, Finder.contexts, List.isEmpty_nil, if_true, XPath.eval, Node.elems, Node.walk,
      List.take_succ_cons, List.take_zero, List.flatMap_cons, List.flatMap_nil, List.append_nil]

theorem isContext_typed {f : Finder} {c : Ctx} {p ty ns : String} (h : c.TypedAs p ty ns) :
    f.isContext c = .ok (decide (assoc f.ctxTypes ty = some ns)) := by
  obtain ⟨s, hs, hq, hn⟩ := h
  unfold Finder.isContext
  rw [getTypeInfo_ok.2 ⟨s, hs, hq⟩]
  simp only
  rw [(getExtNamespace_ok hs hq).2 hn]

theorem isContext_ok {f : Finder} {c : Ctx} {b : Bool} (h : f.isContext c = .ok b) : ∃ p ty ns, c.TypedAs p ty ns := by
  unfold Finder.isContext at h
  cases hi : getTypeInfo c.e with
  | error x => rw [hi] at h; cases h
  | ok a =>
    obtain ⟨p, ty⟩ := a
    rw [hi] at h
    simp only at h
    obtain ⟨s, hs, hq⟩ := getTypeInfo_ok.1 hi
    cases hn : getExtNamespace c with
    | error x => rw [hn] at h; cases h
    | ok ns => exact ⟨p, ty, ns, s, hs, hq, (getExtNamespace_ok hs hq).1 hn⟩

theorem find_type {m : List (String × String)} {ty ns : String} {t : Node}
    (ht : ∀ c ∈ getTypedNodes t, ∃ p ty ns, c.TypedAs p ty ns) :
    ∃ l, (disallowedType m ty ns).find t = .ok l ∧ l.Sublist t.elems ∧
      ∀ c, c ∈ l ↔ c ∈ t.elems ∧ c.anc ≠ [] ∧ ∃ p, c.TypedAs p ty ns := by
  obtain ⟨r, hr⟩ := filterE_ok (p := (disallowedType m ty ns).isContext) (l := getTypedNodes t) (fun c hc => by
    obtain ⟨p, ty', ns', h⟩ := ht c hc
    exact ⟨_, isContext_typed h⟩)
  have hfl : ∀ l : List Ctx, l.flatMap (fun c => keepAll t (XPath.self.eval t m c)) = l := by
    intro l
    induction l with
    | nil => rfl
    | cons a l ih => rw [List.flatMap_cons, ih]; rfl
  refine ⟨r, ?_, ?_, ?_⟩
  · unfold Finder.find Finder.contexts
    rw [if_neg (by simp [disallowedType]), hr]
    simp only [disallowedType, hfl]
  · rw [(filterE_filter hr).2]
    exact List.filter_sublist.trans (List.filter_sublist.trans (List.tail_sublist _))
  · intro c
    rw [filterE_mem hr]
    constructor
    · rintro ⟨h1, h2⟩
      obtain ⟨h3, _⟩ := List.mem_filter.1 h1
      obtain ⟨h4, h5⟩ := mem_descs_iff.1 h3
      refine ⟨h4, h5, ?_⟩
      obtain ⟨p, ty', ns', h⟩ := ht c h1
      rw [isContext_typed h] at h2
      simp only [disallowedType, assoc, Except.ok.injEq, decide_eq_true_eq] at h2
      split at h2
      · next he => cases h2; subst he; exact ⟨p, h⟩
      · cases h2
    · rintro ⟨h1, h2, p, h⟩
      have hm : c ∈ getTypedNodes t := by
        refine List.mem_filter.2 ⟨mem_descs_iff.2 ⟨h1, h2⟩, ?_⟩
        obtain ⟨s, hs, _⟩ := h
        rw [Elem.has_eq, show c.e.get? tagXsiType = some s from hs]; rfl
      refine ⟨hm, ?_⟩
      rw [isContext_typed h]
      simp [disallowedType, assoc]

/-! ## Groups of equal ids -/

theorem mem_groupDups {cs : List Ctx} {i : String} {l : List Ctx} : (i, l) ∈ groupDups cs ↔
    l = cs.filter (fun c => decide (c.e.get? attrId = some i)) ∧ 1 < l.length := by
  unfold groupDups
  simp only [List.mem_filter, List.mem_map, Prod.mk.injEq, decide_eq_true_eq]
  constructor
  · rintro ⟨⟨j, _, rfl, rfl⟩, h⟩
    exact ⟨rfl, h⟩
  · rintro ⟨rfl, h⟩
    refine ⟨⟨i, ?_, rfl, rfl⟩, h⟩
    rw [List.mem_eraseDups, List.mem_filterMap]
    cases hf : cs.filter (fun c => decide (c.e.get? attrId = some i)) with
    | nil => rw [hf] at h; simp at h
    | cons a as =>
      obtain ⟨h1, h2⟩ := List.mem_filter.1 (hf ▸ List.mem_cons_self : a ∈ cs.filter _)
      exact ⟨a, h1, of_decide_eq_true h2⟩

theorem nodup_one_lt {α : Type} {l : List α} (hn : l.Nodup) : 1 < l.length ↔ ∃ a ∈ l, ∃ b ∈ l, a ≠ b := by
  cases l with
  | nil => simp
  | cons a l =>
    cases l with
    | nil => simp
    | cons b l =>
      simp only [List.length_cons]
      refine ⟨fun _ => ⟨a, by simp, b, by simp, ?_⟩, fun _ => by omega⟩
      rintro rfl
      simp at hn

theorem keysNodup_mem_assoc {β : Type} {m : List (String × β)} (h : KeysNodup m) {k : String} {v : β} :
    (k, v) ∈ m ↔ assoc m k = some v := by
  induction m with
  | nil => simp [assoc]
  | cons x m ih =>
    obtain ⟨k', v'⟩ := x
    unfold KeysNodup at h
    simp only [List.map_cons, List.nodup_cons] at h
    have ih := ih h.2
    simp only [assoc, List.mem_cons, Prod.mk.injEq]
    by_cases e : k' = k
    · subst e
      rw [if_pos rfl]
      constructor
      · rintro (⟨_, rfl⟩ | hm)
        · rfl
        · exact absurd (List.mem_map.2 ⟨_, hm, rfl⟩) h.1
      · intro hh; cases hh; exact Or.inl ⟨rfl, rfl⟩
    · rw [if_neg e, ih]
      constructor
      · rintro (⟨rfl, _⟩ | hm)
        · exact absurd rfl e
        · exact hm
      · exact Or.inr

end Ramrod

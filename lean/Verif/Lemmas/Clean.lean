import Verif.Lemmas.Find
/-!
# Cleaning as one edit followed by one removal
-/

namespace Ramrod

/-! ## Which ids are given out -/

/-- The new ids in order, with the positions of their nodes; the counter starts at `k`. -/
def assignIds (gen : Nat → String → String) : List Ctx → Nat → List (Pos × String)
  | [], _ => []
  | c :: cs, k => (c.pos, gen k ((c.e.get? attrId).getD "")) :: assignIds gen cs (k + 1)

/-- First entry for a position. -/
def idAt : List (Pos × String) → Pos → Option String
  | [], _ => none
  | (q, v) :: rest, p => if q = p then some v else idAt rest p

/-- The change of an element with an entry. -/
def setIds (l : List (Pos × String)) (q : Pos) (e : Elem) : Elem :=
  match idAt l q with
  | some v => e.set attrId v
  | none => e

theorem assignIds_append (gen : Nat → String → String) : ∀ (a b : List Ctx) (k : Nat),
    assignIds gen (a ++ b) k = assignIds gen a k ++ assignIds gen b (k + a.length)
  | [], b, k => by simp [assignIds]
  | c :: a, b, k => by
    simp only [List.cons_append, assignIds, assignIds_append gen a b (k + 1), List.length_cons]
    rw [Nat.add_assoc, Nat.add_comm 1 a.length]

theorem assignIds_pos (gen : Nat → String → String) : ∀ (cs : List Ctx) (k : Nat),
    (assignIds gen cs k).map (·.1) = cs.map (·.pos)
  | [], _ => rfl
  | c :: cs, k => by simp [assignIds, assignIds_pos gen cs (k + 1)]

theorem idAt_append (a b : List (Pos × String)) (p : Pos) : idAt (a ++ b) p = (idAt a p).or (idAt b p) := by
  induction a with
  | nil => simp [idAt]
  | cons x xs ih =>
    obtain ⟨q, v⟩ := x
    simp only [List.cons_append, idAt]
    split
    · simp
    · exact ih

theorem idAt_none {l : List (Pos × String)} {p : Pos} : idAt l p = none ↔ p ∉ l.map (·.1) := by
  induction l with
  | nil => simp [idAt]
  | cons x xs ih =>
    obtain ⟨q, v⟩ := x
    simp only [idAt, List.map_cons, List.mem_cons, not_or]
    by_cases h : q = p
    · simp [h]
    · simp [h, ih, Ne.symm h]

theorem setIds_append {a b : List (Pos × String)} (hd : ∀ p ∈ a.map (·.1), p ∉ b.map (·.1)) (q : Pos) (e : Elem) :
    setIds b q (setIds a q e) = setIds (a ++ b) q e := by
  unfold setIds
  rw [idAt_append]
  cases ha : idAt a q with
  | none => simp
  | some v =>
    have hm : q ∈ a.map (·.1) := by
      apply Classical.byContradiction
      intro h
      rw [idAt_none.2 h] at ha
      cases ha
    rw [idAt_none.2 (hd q hm)]
    simp

theorem remapGroup_eq (gen : Nat → String → String) : ∀ (cs : List Ctx) (k : Nat) (t : Node), (cs.map (·.pos)).Nodup →
    remapGroup gen cs k t =
      (t.mapPos (setIds (assignIds gen cs k)) [], k + cs.length, (assignIds gen cs k).map (·.2))
  | [], k, t, _ => by
    have : setIds (assignIds gen [] k) = fun _ e => e := by funext q e; simp [setIds, assignIds, idAt]
    rw [this]
    simp [remapGroup, assignIds, mapPos_id]
  | c :: cs, k, t, h => by
    simp only [List.map_cons, List.nodup_cons] at h
    simp only [remapGroup]
    rw [remapGroup_eq gen cs (k + 1) _ h.2, Node.modifyAt, mapPos_mapPos]
    simp only [assignIds, List.length_cons, List.map_cons, Prod.mk.injEq]
    refine ⟨?_, by omega, trivial⟩
    congr 1
    funext q e
    simp only [setIds, idAt]
    by_cases hq : q = c.pos
    · subst hq
      have : idAt (assignIds gen cs (k + 1)) c.pos = none := by
        rw [idAt_none, assignIds_pos]; exact h.1
      simp [this]
    · simp [hq, Ne.symm hq]

/-- The id an element gets. -/
def newIdOf (l : List (Pos × String)) (c : Ctx) : String := (idAt l c.pos).getD ""

theorem assignIds_map (gen : Nat → String → String) : ∀ (cs : List Ctx) (k : Nat), (cs.map (·.pos)).Nodup →
    (assignIds gen cs k).map (·.2) = cs.map (newIdOf (assignIds gen cs k))
  | [], _, _ => rfl
  | c :: cs, k, h => by
    simp only [List.map_cons, List.nodup_cons] at h
    simp only [assignIds, List.map_cons]
    rw [assignIds_map gen cs (k + 1) h.2]
    congr 1
    · simp [newIdOf, idAt]
    · apply List.map_congr_left
      intro d hd
      have : c.pos ≠ d.pos := fun e => h.1 (List.mem_map.2 ⟨d, hd, e.symm⟩)
      simp [newIdOf, idAt, this]

theorem cleanDuplicates_eq (gen : Nat → String → String) : ∀ (d : Dups) (k : Nat) (t : Node),
    ((d.flatMap (·.2)).map (·.pos)).Nodup →
    cleanDuplicates gen d k t =
      (t.mapPos (setIds (assignIds gen (d.flatMap (·.2)) k)) [], k + (d.flatMap (·.2)).length,
        d.map (fun g => (g.1, g.2.map (newIdOf (assignIds gen (d.flatMap (·.2)) k)))))
  | [], k, t, _ => by
    have : setIds (assignIds gen (List.flatMap (·.2) ([] : Dups)) k) = fun _ e => e := by
      funext q e; simp [setIds, assignIds, idAt]
    rw [this]
    simp [cleanDuplicates, mapPos_id]
  | g :: gs, k, t, h => by
    simp only [List.flatMap_cons, List.map_append, List.nodup_append] at h
    obtain ⟨h1, h2, h3⟩ := h
    simp only [cleanDuplicates]
    rw [remapGroup_eq gen g.2 k t h1]
    simp only
    rw [cleanDuplicates_eq gen gs _ _ h2, mapPos_mapPos]
    simp only [List.flatMap_cons, assignIds_append, List.length_append, List.map_cons, Prod.mk.injEq]
    refine ⟨?_, by omega, ?_⟩
    · congr 1
      funext q e
      apply setIds_append
      intro p hp hq
      rw [assignIds_pos] at hp hq
      exact h3 p hp p hq rfl
    · congr 1
      · rw [assignIds_map gen g.2 k h1]
        congr 1
        apply List.map_congr_left
        intro c hc
        simp only [newIdOf, idAt_append]
        have : idAt (assignIds gen g.2 k) c.pos ≠ none := by
          rw [ne_eq, idAt_none, assignIds_pos, Classical.not_not]
          exact List.mem_map.2 ⟨c, hc, rfl⟩
        cases hi : idAt (assignIds gen g.2 k) c.pos with
        | none => exact absurd hi this
        | some v => simp
      · apply List.map_congr_left
        intro g' hg'
        congr 1
        apply List.map_congr_left
        intro c hc
        simp only [newIdOf, idAt_append]
        have : idAt (assignIds gen g.2 k) c.pos = none := by
          rw [idAt_none, assignIds_pos]
          intro hm
          exact h3 _ hm _ (List.mem_map.2 ⟨c, List.mem_flatMap.2 ⟨g', hg', hc⟩, rfl⟩) rfl
        simp [this]

theorem idAt_assign (gen : Nat → String → String) : ∀ (cs : List Ctx) (k : Nat), (cs.map (·.pos)).Nodup → ∀ c ∈ cs,
    idAt (assignIds gen cs k) c.pos = some (gen (k + cs.idxOf c) ((c.e.get? attrId).getD ""))
  | [], _, _, c, hc => by cases hc
  | d :: cs, k, h, c, hc => by
    simp only [List.map_cons, List.nodup_cons] at h
    simp only [assignIds, idAt]
    by_cases hp : d.pos = c.pos
    · have : d = c := by
        rcases List.mem_cons.1 hc with e | hc
        · exact e.symm
        · exact absurd (List.mem_map.2 ⟨c, hc, hp.symm⟩) h.1
      subst this
      simp
    · have hne : d ≠ c := fun e => hp (by rw [e])
      have hc' : c ∈ cs := by
        rcases List.mem_cons.1 hc with e | hc
        · exact absurd e.symm hne
        · exact hc
      rw [if_neg hp, idAt_assign gen cs (k + 1) h.2 c hc', List.idxOf_cons, show (d == c) = false from beq_eq_false_iff_ne.2 hne]
      simp only [cond_false]
      congr 2
      omega

/-! ## Lookup by position -/

theorem ctxAt_mem {t : Node} {c : Ctx} (hc : c ∈ t.elems) : t.ctxAt c.pos = some c := by
  have := find_filter_pos (t := t) (sel := fun _ => true) hc
  simpa [Node.ctxAt] using this

/-! ## What is left after a removal, in order -/

mutual
theorem prune_none {s : Pos → Bool} (h : ∀ p, s p = false) {pos : Pos} : ∀ t : Node, t.prune s pos = t
  | .other _ _ => by simp [Node.prune]
  | .elem e ks => by simp [Node.prune, prunes_none h ks]
theorem prunes_none {s : Pos → Bool} (h : ∀ p, s p = false) {pos : Pos} {i : Nat} : ∀ ks : List Node,
    Node.prunes s pos i ks = ks
  | [] => by simp [Node.prunes]
  | .other _ _ :: ks => by simp [Node.prunes, prunes_none h ks]
  | .elem e es :: ks => by simp [Node.prunes, h, prunes_none h ks, prune_none h (.elem e es)]
end

/-- An element with its place, without its position and children. -/
def Ctx.key (c : Ctx) : Elem × NsMap × List QName := (c.e, c.env, c.anc)

mutual
theorem walk_prune_sublist {S : Ctx → Bool} {pos pos' : Pos} {env : NsMap} {anc : List QName} : ∀ (t : Node),
    (((t.pruneCtx S pos env anc).walk pos' env anc).map Ctx.key).Sublist ((t.walk pos env anc).map Ctx.key)
  | .other _ _ => by simp [Node.pruneCtx, Node.walk]
  | .elem e ks => by
    simp only [Node.pruneCtx, Node.walk, List.map_cons]
    exact List.Sublist.cons_cons _ (walks_prune_sublist ks)
theorem walks_prune_sublist {S : Ctx → Bool} {pos pos' : Pos} {i j : Nat} {env : NsMap} {anc : List QName} :
    ∀ (ks : List Node), ((Node.walks pos' j env anc (Node.pruneCtxs S pos i env anc ks)).map Ctx.key).Sublist
      ((Node.walks pos i env anc ks).map Ctx.key)
  | [] => by simp [Node.pruneCtxs, Node.walks]
  | .other c t :: ks => by
    simp only [Node.pruneCtxs, Node.walks, Node.walk, List.nil_append]
    exact walks_prune_sublist ks
  | .elem e es :: ks => by
    simp only [Node.pruneCtxs, Node.walks]
    split
    · rw [List.map_append]
      exact (walks_prune_sublist ks).trans (List.sublist_append_right _ _)
    · simp only [Node.walks, List.map_append]
      exact (walk_prune_sublist (.elem e es)).append (walks_prune_sublist ks)
end

theorem without_sublist (S : Ctx → Bool) (t : Node) :
    ((t.without S).elems.map Ctx.key).Sublist (t.elems.map Ctx.key) := walk_prune_sublist t

theorem filterMap_nodup {α β : Type} {f : α → Option β} : ∀ {l : List α}, l.Nodup →
    (∀ a ∈ l, ∀ b ∈ l, ∀ x, f a = some x → f b = some x → a = b) → (l.filterMap f).Nodup
  | [], _, _ => by simp
  | a :: l, h, H => by
    have h' := List.nodup_cons.1 h
    have ih := filterMap_nodup h'.2 (fun c hc d hd => H c (by simp [hc]) d (by simp [hd]))
    rw [List.filterMap_cons]
    cases hf : f a with
    | none => exact ih
    | some x =>
      simp only [List.nodup_cons]
      refine ⟨?_, ih⟩
      intro hm
      obtain ⟨b, hb, hx⟩ := List.mem_filterMap.1 hm
      have := H a (by simp) b (by simp [hb]) x hf hx
      exact h'.1 (this ▸ hb)

theorem nodup_filterMap {α β : Type} {f : α → Option β} : ∀ {l : List α}, (l.filterMap f).Nodup → ∀ a ∈ l, ∀ b ∈ l,
    ∀ x, f a = some x → f b = some x → a = b
  | [], _, a, ha, _, _, _, _, _ => by cases ha
  | c :: l, h, a, ha, b, hb, x, hfa, hfb => by
    have rest : (l.filterMap f).Nodup := by
      rw [List.filterMap_cons] at h
      cases hf : f c with
      | none => rw [hf] at h; exact h
      | some y => rw [hf] at h; exact (List.nodup_cons.1 h).2
    have notin : ∀ d ∈ l, f d = some x → f c = some x → False := by
      intro d hd h1 h2
      rw [List.filterMap_cons, h2] at h
      exact (List.nodup_cons.1 h).1 (List.mem_filterMap.2 ⟨d, hd, h1⟩)
    rcases List.mem_cons.1 ha with rfl | ha' <;> rcases List.mem_cons.1 hb with rfl | hb'
    · rfl
    · exact (notin b hb' hfb hfa).elim
    · exact (notin a ha' hfa hfb).elim
    · exact nodup_filterMap rest a ha' b hb' x hfa hfb

/-! ## Elements after an edit and a removal -/

/-- No element is in the list. -/
def NoElems (ks : List Node) : Prop := ∀ e es, Node.elem e es ∉ ks

theorem noElems_cut {F : Ctx → Elem} {S : Ctx → Bool} {pos : Pos} {env env' : NsMap} {anc anc' : List QName} :
    ∀ (L : List Node) (i j : Nat), NoElems L → Node.pruneCtxs S pos j env' anc' (Node.mapCtxs F pos i env anc L) = L
  | [], _, _, _ => by simp [Node.mapCtxs, Node.pruneCtxs]
  | .other a b :: L, i, j, h => by
    simp only [Node.mapCtxs, Node.mapCtx, Node.pruneCtxs]
    rw [noElems_cut L (i + 1) (j + 1) (fun e es hm => h e es (by simp [hm]))]
  | .elem e es :: L, _, _, h => absurd List.mem_cons_self (h e es)

theorem kept_kids {F : Ctx → Elem} (hF : Keeps F) {S : Ctx → Bool} {pos : Pos} {env : NsMap} {anc : List QName} :
    ∀ (L : List Node) (i : Nat),
    (Node.pruneCtxs S pos i env anc (Node.mapCtxs F pos i env anc L)).length ≤ L.length ∧
    (∀ e ks, Node.elem e ks ∈ Node.pruneCtxs S pos i env anc (Node.mapCtxs F pos i env anc L) → ∃ j e0 ks0,
      L[j]? = some (.elem e0 ks0) ∧ e = F ⟨(i + j) :: pos, e0.decls ++ env, anc, e0, ks0⟩ ∧
      S (Ctx.upd F ⟨(i + j) :: pos, e0.decls ++ env, anc, e0, ks0⟩) = false ∧ (NoElems ks0 → ks = ks0)) ∧
    (∀ j e0 ks0, L[j]? = some (.elem e0 ks0) → S (Ctx.upd F ⟨(i + j) :: pos, e0.decls ++ env, anc, e0, ks0⟩) = false →
      ∃ ks, Node.elem (F ⟨(i + j) :: pos, e0.decls ++ env, anc, e0, ks0⟩) ks ∈
        Node.pruneCtxs S pos i env anc (Node.mapCtxs F pos i env anc L))
  | [], i => by simp [Node.mapCtxs, Node.pruneCtxs]
  | .other a b :: L, i => by
    obtain ⟨h1, h2, h3⟩ := kept_kids hF (S := S) (pos := pos) (env := env) (anc := anc) L (i + 1)
    simp only [Node.mapCtxs, Node.mapCtx, Node.pruneCtxs]
    refine ⟨by simpa using h1, ?_, ?_⟩
    · intro e ks hm
      simp only [List.mem_cons, reduceCtorEq, false_or] at hm
      obtain ⟨j, e0, ks0, q1, q2⟩ := h2 e ks hm
      refine ⟨j + 1, e0, ks0, by simpa using q1, ?_⟩
      rw [show i + (j + 1) = i + 1 + j by omega]
      exact q2
    · intro j e0 ks0 hj hS
      cases j with
      | zero => simp at hj
      | succ j =>
        rw [show i + (j + 1) = i + 1 + j by omega] at hS ⊢
        obtain ⟨ks, hks⟩ := h3 j e0 ks0 (by simpa using hj) hS
        exact ⟨ks, by simp [hks]⟩
  | .elem e1 es :: L, i => by
    obtain ⟨h1, h2, h3⟩ := kept_kids hF (S := S) (pos := pos) (env := env) (anc := anc) L (i + 1)
    have hk := hF ⟨i :: pos, e1.decls ++ env, anc, e1, es⟩
    simp only [Node.mapCtxs, Node.mapCtx, Node.pruneCtxs]
    have hu : (⟨i :: pos, (F ⟨i :: pos, e1.decls ++ env, anc, e1, es⟩).decls ++ env, anc,
        F ⟨i :: pos, e1.decls ++ env, anc, e1, es⟩,
        Node.mapCtxs F (i :: pos) 0 (e1.decls ++ env) (e1.tag :: anc) es⟩ : Ctx) =
        Ctx.upd F ⟨i :: pos, e1.decls ++ env, anc, e1, es⟩ := by
      rw [hk.2]; rfl
    rw [hu]
    have rest : ∀ e ks, Node.elem e ks ∈ Node.pruneCtxs S pos (i + 1) env anc (Node.mapCtxs F pos (i + 1) env anc L) →
        ∃ j e0 ks0, (Node.elem e1 es :: L)[j]? = some (.elem e0 ks0) ∧
        e = F ⟨(i + j) :: pos, e0.decls ++ env, anc, e0, ks0⟩ ∧
        S (Ctx.upd F ⟨(i + j) :: pos, e0.decls ++ env, anc, e0, ks0⟩) = false ∧ (NoElems ks0 → ks = ks0) := by
      intro e ks hm
      obtain ⟨j, e0, ks0, q1, q2⟩ := h2 e ks hm
      refine ⟨j + 1, e0, ks0, by simpa using q1, ?_⟩
      rw [show i + (j + 1) = i + 1 + j by omega]
      exact q2
    split
    · next hs =>
      refine ⟨Nat.le_succ_of_le h1, rest, ?_⟩
      intro j e0 ks0 hj hS
      cases j with
      | zero =>
        simp only [List.getElem?_cons_zero, Option.some.injEq, Node.elem.injEq] at hj
        obtain ⟨rfl, rfl⟩ := hj
        rw [Nat.add_zero, hs] at hS
        cases hS
      | succ j =>
        rw [show i + (j + 1) = i + 1 + j by omega] at hS ⊢
        exact h3 j e0 ks0 (by simpa using hj) hS
    · next hs =>
      refine ⟨Nat.succ_le_succ h1, ?_, ?_⟩
      · intro e ks hm
        simp only [List.mem_cons, Node.pruneCtx, Node.elem.injEq] at hm
        rcases hm with ⟨rfl, rfl⟩ | hm
        · refine ⟨0, e1, es, rfl, rfl, by simpa using hs, fun hn => noElems_cut _ _ _ hn⟩
        · exact rest e ks hm
      · intro j e0 ks0 hj hS
        cases j with
        | zero =>
          simp only [List.getElem?_cons_zero, Option.some.injEq, Node.elem.injEq] at hj
          obtain ⟨rfl, rfl⟩ := hj
          exact ⟨_, List.mem_cons.2 (Or.inl rfl)⟩
        | succ j =>
          rw [show i + (j + 1) = i + 1 + j by omega] at hS ⊢
          obtain ⟨ks, hks⟩ := h3 j e0 ks0 (by simpa using hj) hS
          exact ⟨ks, List.mem_cons_of_mem _ hks⟩

/-- The elements left, with their children. -/
theorem mem_cut {F : Ctx → Elem} (hF : Keeps F) {S : Ctx → Bool} {t : Node} {c' : Ctx}
    (h : c' ∈ ((t.edit F).without S).elems) : ∃ c ∈ t.elems, c'.e = F c ∧ c'.env = c.env ∧ c'.anc = c.anc ∧
      (c.anc ≠ [] → S (c.upd F) = false) ∧ c'.kids.length ≤ c.kids.length ∧
      (∀ e ks, Node.elem e ks ∈ c'.kids → ∃ d ∈ t.elems, ∃ j, d.ChildOf j c ∧ e = F d ∧ S (d.upd F) = false ∧
        (NoElems d.kids → ks = d.kids)) ∧
      (∀ d ∈ t.elems, ∀ j, d.ChildOf j c → S (d.upd F) = false → ∃ ks, Node.elem (F d) ks ∈ c'.kids) := by
  obtain ⟨c1, hc1, h1, h2, h3, h4, h5⟩ := mem_without h
  rw [elems_edit hF] at hc1
  obtain ⟨c, hc, rfl⟩ := List.mem_map.1 hc1
  have htag : (F c).tag = c.e.tag := (hF c).1
  have hkids : c'.kids = Node.pruneCtxs S c.pos 0 c.env (c.e.tag :: c.anc)
      (Node.mapCtxs F c.pos 0 c.env (c.e.tag :: c.anc) c.kids) := by
    rw [h4]
    show Node.pruneCtxs S c.pos 0 c.env ((F c).tag :: c.anc) _ = _
    rw [htag]
    rfl
  obtain ⟨k1, k2, k3⟩ := kept_kids hF (S := S) (pos := c.pos) (env := c.env) (anc := c.e.tag :: c.anc) c.kids 0
  rw [← hkids] at k1 k2 k3
  refine ⟨c, hc, h1, h2, h3, h5, k1, ?_, ?_⟩
  · intro e ks hm
    obtain ⟨j, e0, ks0, q1, q2, q3, q4⟩ := k2 e ks hm
    rw [Nat.zero_add] at q2 q3
    exact ⟨_, walk_child t c hc j e0 ks0 q1, j, ⟨rfl, rfl, rfl, q1⟩, q2, q3, q4⟩
  · intro d hd j hj hS
    obtain ⟨j1, j2, j3, j4⟩ := hj
    have := k3 j d.e d.kids j4
    rw [Nat.zero_add] at this
    have hd' : d = ⟨j :: c.pos, d.e.decls ++ c.env, c.e.tag :: c.anc, d.e, d.kids⟩ := by
      rw [← j1, ← j2, ← j3]
    rw [hd'] at hS ⊢
    exact this hS

end Ramrod

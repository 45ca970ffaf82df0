import Verif.Spec
/-!
# Loops over positions equal one traversal
-/

namespace Ramrod

/-! ## Positions met by a traversal -/

mutual
theorem walk_pos (pos : Pos) (env : NsMap) (anc : List QName) : ∀ (t : Node), ∀ c ∈ t.walk pos env anc,
    ∃ l, c.pos = l ++ pos
  | .other _ _ => by simp [Node.walk]
  | .elem e ks => by
    intro c hc
    simp only [Node.walk, List.mem_cons] at hc
    rcases hc with rfl | hc
    · exact ⟨[], rfl⟩
    · obtain ⟨l, j, _, h⟩ := walks_pos pos 0 _ _ ks c hc
      exact ⟨l ++ [j], by simp [h]⟩
theorem walks_pos (pos : Pos) (i : Nat) (env : NsMap) (anc : List QName) : ∀ (ks : List Node),
    ∀ c ∈ Node.walks pos i env anc ks, ∃ l j, i ≤ j ∧ c.pos = l ++ j :: pos
  | [] => by simp [Node.walks]
  | k :: ks => by
    intro c hc
    simp only [Node.walks, List.mem_append] at hc
    rcases hc with hc | hc
    · obtain ⟨l, h⟩ := walk_pos (i :: pos) env anc k c hc
      exact ⟨l, i, Nat.le_refl _, h⟩
    · obtain ⟨l, j, hj, h⟩ := walks_pos pos (i + 1) env anc ks c hc
      exact ⟨l, j, by omega, h⟩
end

theorem pos_suffix_inj {l l' : List Nat} {i j : Nat} {p : Pos} (h : l ++ i :: p = l' ++ j :: p) : i = j := by
  have hlen : l.length = l'.length := by
    have := congrArg List.length h; simp at this; omega
  have := (List.append_inj h hlen).2
  simpa using this

mutual
theorem walk_nodup (pos : Pos) (env : NsMap) (anc : List QName) : ∀ (t : Node),
    ((t.walk pos env anc).map (·.pos)).Nodup
  | .other _ _ => by simp [Node.walk]
  | .elem e ks => by
    simp only [Node.walk, List.map_cons, List.nodup_cons]
    refine ⟨?_, walks_nodup pos 0 _ _ ks⟩
    intro h
    obtain ⟨c, hc, hp⟩ := List.mem_map.1 h
    obtain ⟨l, j, _, h⟩ := walks_pos pos 0 _ _ ks c hc
    rw [h] at hp
    have := congrArg List.length hp
    simp at this
    omega
theorem walks_nodup (pos : Pos) (i : Nat) (env : NsMap) (anc : List QName) : ∀ (ks : List Node),
    ((Node.walks pos i env anc ks).map (·.pos)).Nodup
  | [] => by simp [Node.walks]
  | k :: ks => by
    simp only [Node.walks, List.map_append, List.nodup_append]
    refine ⟨walk_nodup _ _ _ k, walks_nodup _ _ _ _ ks, ?_⟩
    intro a ha b hb hab
    obtain ⟨c, hc, rfl⟩ := List.mem_map.1 ha
    obtain ⟨d, hd, rfl⟩ := List.mem_map.1 hb
    obtain ⟨l, h⟩ := walk_pos (i :: pos) env anc k c hc
    obtain ⟨l', j, hj, h'⟩ := walks_pos pos (i + 1) env anc ks d hd
    rw [h, h'] at hab
    have := pos_suffix_inj hab
    omega
end

theorem elems_nodup (t : Node) : (t.elems.map (·.pos)).Nodup := walk_nodup _ _ _ t

theorem nodup_map_inj {α β : Type} {f : α → β} {l : List α} (h : (l.map f).Nodup) {a b : α}
    (ha : a ∈ l) (hb : b ∈ l) (hab : f a = f b) : a = b := by
  induction l with
  | nil => cases ha
  | cons x xs ih =>
    simp only [List.map_cons, List.nodup_cons] at h
    rcases List.mem_cons.1 ha with rfl | ha' <;> rcases List.mem_cons.1 hb with rfl | hb'
    · rfl
    · exact absurd (List.mem_map.2 ⟨b, hb', hab.symm⟩) h.1
    · exact absurd (List.mem_map.2 ⟨a, ha', hab⟩) h.1
    · exact ih h.2 ha' hb'

theorem elems_pos_inj {t : Node} {c d : Ctx} (hc : c ∈ t.elems) (hd : d ∈ t.elems) (h : c.pos = d.pos) :
    c = d := nodup_map_inj (elems_nodup t) hc hd h

theorem mem_filter_pos {t : Node} {sel : Ctx → Bool} {c : Ctx} (hc : c ∈ t.elems) :
    c.pos ∈ (t.elems.filter sel).map (·.pos) ↔ sel c = true := by
  constructor
  · intro h
    obtain ⟨d, hd, hp⟩ := List.mem_map.1 h
    have hd' := List.mem_filter.1 hd
    rw [← elems_pos_inj hd'.1 hc hp]
    exact hd'.2
  · intro h
    exact List.mem_map.2 ⟨c, List.mem_filter.2 ⟨hc, h⟩, rfl⟩

theorem nodup_filter_pos (t : Node) (sel : Ctx → Bool) : ((t.elems.filter sel).map (·.pos)).Nodup :=
  ((List.filter_sublist (p := sel) (l := t.elems)).map (·.pos)).nodup (elems_nodup t)

/-! ## Position-indexed and context-indexed traversals -/

mutual
theorem mapPos_eq_mapCtx {h : Pos → Elem → Elem} {F : Ctx → Elem} (pos : Pos) (env : NsMap)
    (anc : List QName) : ∀ (t : Node), (∀ c ∈ t.walk pos env anc, h c.pos c.e = F c) →
    t.mapPos h pos = t.mapCtx F pos env anc
  | .other _ _, _ => by simp [Node.mapPos, Node.mapCtx]
  | .elem e ks, H => by
    simp only [Node.mapPos, Node.mapCtx]
    rw [mapPoss_eq_mapCtxs pos 0 (e.decls ++ env) (e.tag :: anc) ks (fun c hc => H c (by simp [Node.walk, hc]))]
    congr 1
    exact H ⟨pos, e.decls ++ env, anc, e, ks⟩ (by simp [Node.walk])
theorem mapPoss_eq_mapCtxs {h : Pos → Elem → Elem} {F : Ctx → Elem} (pos : Pos) (i : Nat) (env : NsMap)
    (anc : List QName) : ∀ (ks : List Node), (∀ c ∈ Node.walks pos i env anc ks, h c.pos c.e = F c) →
    Node.mapPoss h pos i ks = Node.mapCtxs F pos i env anc ks
  | [], _ => by simp [Node.mapPoss, Node.mapCtxs]
  | k :: ks, H => by
    simp only [Node.mapPoss, Node.mapCtxs]
    rw [mapPos_eq_mapCtx (i :: pos) env anc k (fun c hc => H c (by simp [Node.walks, hc])),
      mapPoss_eq_mapCtxs pos (i + 1) env anc ks (fun c hc => H c (by simp [Node.walks, hc]))]
end

mutual
theorem subst_eq_substCtx {r : Pos → Option Node} {R : Ctx → Option Node} (pos : Pos) (env : NsMap)
    (anc : List QName) : ∀ (t : Node), (∀ c ∈ t.walk pos env anc, r c.pos = R c) →
    t.subst r pos = t.substCtx R pos env anc
  | .other _ _, _ => by simp [Node.subst, Node.substCtx]
  | .elem e ks, H => by
    simp only [Node.subst, Node.substCtx]
    rw [substs_eq_substCtxs pos 0 (e.decls ++ env) (e.tag :: anc) ks (fun c hc => H c (by simp [Node.walk, hc]))]
    have := H ⟨pos, e.decls ++ env, anc, e, ks⟩ (by simp [Node.walk])
    simp only at this
    rw [this]
    rfl
theorem substs_eq_substCtxs {r : Pos → Option Node} {R : Ctx → Option Node} (pos : Pos) (i : Nat)
    (env : NsMap) (anc : List QName) : ∀ (ks : List Node),
    (∀ c ∈ Node.walks pos i env anc ks, r c.pos = R c) →
    Node.substs r pos i ks = Node.substCtxs R pos i env anc ks
  | [], _ => by simp [Node.substs, Node.substCtxs]
  | k :: ks, H => by
    simp only [Node.substs, Node.substCtxs]
    rw [subst_eq_substCtx (i :: pos) env anc k (fun c hc => H c (by simp [Node.walks, hc])),
      substs_eq_substCtxs pos (i + 1) env anc ks (fun c hc => H c (by simp [Node.walks, hc]))]
end

mutual
theorem prune_eq_pruneCtx {s : Pos → Bool} {S : Ctx → Bool} (pos : Pos) (env : NsMap)
    (anc : List QName) : ∀ (t : Node), (∀ c ∈ t.walk pos env anc, s c.pos = S c) →
    t.prune s pos = t.pruneCtx S pos env anc
  | .other _ _, _ => by simp [Node.prune, Node.pruneCtx]
  | .elem e ks, H => by
    simp only [Node.prune, Node.pruneCtx]
    rw [prunes_eq_pruneCtxs pos 0 (e.decls ++ env) (e.tag :: anc) ks (fun c hc => H c (by simp [Node.walk, hc]))]
theorem prunes_eq_pruneCtxs {s : Pos → Bool} {S : Ctx → Bool} (pos : Pos) (i : Nat) (env : NsMap)
    (anc : List QName) : ∀ (ks : List Node), (∀ c ∈ Node.walks pos i env anc ks, s c.pos = S c) →
    Node.prunes s pos i ks = Node.pruneCtxs S pos i env anc ks
  | [], _ => by simp [Node.prunes, Node.pruneCtxs]
  | .other c t :: ks, H => by
    simp only [Node.prunes, Node.pruneCtxs]
    rw [prunes_eq_pruneCtxs pos (i + 1) env anc ks (fun c hc => H c (by simp [Node.walks, hc]))]
  | .elem e es :: ks, H => by
    simp only [Node.prunes, Node.pruneCtxs]
    have h1 := H ⟨i :: pos, e.decls ++ env, anc, e, es⟩ (by simp [Node.walks, Node.walk])
    simp only at h1
    rw [h1, prunes_eq_pruneCtxs pos (i + 1) env anc ks (fun c hc => H c (by simp [Node.walks, hc])),
      prune_eq_pruneCtx (i :: pos) env anc (.elem e es) (fun c hc => H c (by simp [Node.walks, hc]))]
end

/-! ## Loops -/

mutual
theorem mapPos_mapPos (f g : Pos → Elem → Elem) (pos : Pos) : ∀ (t : Node),
    (t.mapPos g pos).mapPos f pos = t.mapPos (fun q e => f q (g q e)) pos
  | .other _ _ => by simp [Node.mapPos]
  | .elem e ks => by simp [Node.mapPos, mapPoss_mapPoss f g pos 0 ks]
theorem mapPoss_mapPoss (f g : Pos → Elem → Elem) (pos : Pos) (i : Nat) : ∀ (ks : List Node),
    Node.mapPoss f pos i (Node.mapPoss g pos i ks) = Node.mapPoss (fun q e => f q (g q e)) pos i ks
  | [] => by simp [Node.mapPoss]
  | k :: ks => by simp [Node.mapPoss, mapPos_mapPos f g (i :: pos) k, mapPoss_mapPoss f g pos (i + 1) ks]
end

mutual
theorem mapPos_id (pos : Pos) : ∀ (t : Node), t.mapPos (fun _ e => e) pos = t
  | .other _ _ => by simp [Node.mapPos]
  | .elem e ks => by simp [Node.mapPos, mapPoss_id pos 0 ks]
theorem mapPoss_id (pos : Pos) (i : Nat) : ∀ (ks : List Node), Node.mapPoss (fun _ e => e) pos i ks = ks
  | [] => by simp [Node.mapPoss]
  | k :: ks => by simp [Node.mapPoss, mapPos_id (i :: pos) k, mapPoss_id pos (i + 1) ks]
end

/-- A loop of in-place changes over distinct nodes is one traversal. -/
theorem modifyAll_eq_mapPos (g : Elem → Elem) : ∀ (ps : List Pos) (t : Node), ps.Nodup →
    t.modifyAll ps g = t.mapPos (fun q e => if q ∈ ps then g e else e) []
  | [], t, _ => by simp [Node.modifyAll, mapPos_id]
  | p :: ps, t, h => by
    have h' := List.nodup_cons.1 h
    have ih := modifyAll_eq_mapPos g ps (t.modifyAt p g) h'.2
    have : t.modifyAll (p :: ps) g = (t.modifyAt p g).modifyAll ps g := rfl
    rw [this, ih, Node.modifyAt, mapPos_mapPos]
    congr 1
    funext q e
    by_cases hq : q = p
    · subst hq; simp [h'.1]
    · simp [hq]

/-- `for node in <search>: change(node)` changes exactly the nodes found. -/
theorem modifyAll_filter (t : Node) (sel : Ctx → Bool) (g : Elem → Elem) :
    t.modifyAll ((t.elems.filter sel).map (·.pos)) g = t.edit (fun c => if sel c then g c.e else c.e) := by
  rw [modifyAll_eq_mapPos g _ _ (nodup_filter_pos t sel)]
  apply mapPos_eq_mapCtx
  intro c hc
  have := mem_filter_pos (t := t) (sel := sel) hc
  simp only [this]

theorem posLookup_of_mem {l : List (Pos × Node)} (hn : (l.map (·.1)).Nodup) {p : Pos} {n : Node}
    (h : (p, n) ∈ l) : posLookup l p = some n := by
  induction l with
  | nil => cases h
  | cons x xs ih =>
    obtain ⟨q, m⟩ := x
    simp only [List.map_cons, List.nodup_cons] at hn
    rcases List.mem_cons.1 h with h | h
    · cases h; simp [posLookup]
    · have : q ≠ p := fun e => hn.1 (List.mem_map.2 ⟨(p, n), h, e.symm⟩)
      simp [posLookup, this, ih hn.2 h]

theorem posLookup_none {l : List (Pos × Node)} {p : Pos} (h : p ∉ l.map (·.1)) : posLookup l p = none := by
  induction l with
  | nil => rfl
  | cons x xs ih =>
    obtain ⟨q, m⟩ := x
    simp only [List.map_cons, List.mem_cons, not_or] at h
    simp [posLookup, Ne.symm h.1, ih h.2]

mutual
theorem walk_anc_pos (pos : Pos) (env : NsMap) (anc : List QName) : ∀ (t : Node), ∀ c ∈ t.walk pos env anc,
    c.anc.length + pos.length = c.pos.length + anc.length
  | .other _ _ => by simp [Node.walk]
  | .elem e ks => by
    intro c hc
    simp only [Node.walk, List.mem_cons] at hc
    rcases hc with rfl | hc
    · simp only; omega
    · have := walks_anc_pos pos 0 _ _ ks c hc
      simp only [List.length_cons] at this
      omega
theorem walks_anc_pos (pos : Pos) (i : Nat) (env : NsMap) (anc : List QName) : ∀ (ks : List Node),
    ∀ c ∈ Node.walks pos i env anc ks, c.anc.length + pos.length + 1 = c.pos.length + anc.length
  | [] => by simp [Node.walks]
  | k :: ks => by
    intro c hc
    simp only [Node.walks, List.mem_append] at hc
    rcases hc with hc | hc
    · have := walk_anc_pos (i :: pos) env anc k c hc
      simp only [List.length_cons] at this
      omega
    · exact walks_anc_pos pos (i + 1) env anc ks c hc
end

theorem elems_root_iff {t : Node} {c : Ctx} (hc : c ∈ t.elems) : c.pos = [] ↔ c.anc = [] := by
  have := walk_anc_pos [] [] [] t c hc
  simp only [List.length_nil] at this
  constructor
  · intro h; rw [h] at this; exact List.eq_nil_of_length_eq_zero (by simpa using this)
  · intro h; rw [h] at this; exact List.eq_nil_of_length_eq_zero (by simp at this; omega)

/-- `for node in <search>: replace(node, f(node))` replaces exactly the outermost nodes found. -/
theorem replaceAll_filter (t : Node) (sel : Ctx → Bool) (f : Ctx → Node) :
    t.replaceAll ((t.elems.filter sel).map (fun c => (c.pos, f c))) =
      t.replaceBy (fun c => if sel c then some (f c) else none) := by
  apply subst_eq_substCtx
  intro c hc
  have hr := elems_root_iff (t := t) (c := c) hc
  by_cases h0 : c.pos = []
  · simp [h0, hr.1 h0]
  · have h1 : c.anc ≠ [] := fun h => h0 (hr.2 h)
    have h2 : c.anc.isEmpty = false := by simpa using h1
    simp only [h0, if_false, h2, Bool.false_eq_true]
    have hm := mem_filter_pos (t := t) (sel := sel) hc
    have hnd : (((t.elems.filter sel).map (fun c => (c.pos, f c))).map (·.1)).Nodup := by
      rw [List.map_map]; exact nodup_filter_pos t sel
    by_cases hs : sel c = true
    · rw [if_pos hs]
      exact posLookup_of_mem hnd (List.mem_map.2 ⟨c, List.mem_filter.2 ⟨hc, hs⟩, rfl⟩)
    · rw [if_neg hs]
      apply posLookup_none
      rw [List.map_map]
      exact fun h => hs (hm.1 h)

/-- `for node in <search>: remove(node)` removes exactly the nodes found. -/
theorem removeAll_filter (t : Node) (sel : Ctx → Bool) :
    t.removeAll ((t.elems.filter sel).map (·.pos)) = t.without sel := by
  apply prune_eq_pruneCtx
  intro c hc
  have := mem_filter_pos (t := t) (sel := sel) hc
  by_cases hs : sel c = true
  · rw [hs]; exact decide_eq_true (this.2 hs)
  · simp only [hs]; exact decide_eq_false (fun h => hs (this.1 h))

end Ramrod
